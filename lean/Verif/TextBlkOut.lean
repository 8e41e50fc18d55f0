import Verif.TextBlkEnd
import Verif.OutputEx
/-!
# The calls that `output.c` makes are in good order

So the display in blocks shows the tree, for all trees of the grammar.
-/

namespace Jbo.TextBlk
open Jbo.Terms Jbo.Gram Jbo.Output Jbo.TextBlk.Spec

/-! ## Trees whose terms begin with a word -/

/-- The first thing in the tree is a word. -/
inductive Starts : Node → Prop
  | brivla {i} : Starts (.brivla i)
  | zei {i} : Starts (.zei i)
  | cmavo {i s w} : Starts (.cmavo i s w)
  | leaf {i} : Starts (.leaf i)
  | nt {i t c cs} : Starts c → Starts (.nt i t (c :: cs))

/-- The types of nodes that may begin with an empty text. -/
def hollow : List NT := [.text1, .text, .chunks]

/-- The first item of a rule is there, and not a hollow one. -/
def firm (r : Rule) : Bool :=
  hollow.contains r.lhs || match r.rhs.head? with
    | none => false
    | some (.e _) => false
    | some (.n t) => !hollow.contains t
    | some _ => true

theorem firm_rules : rules.all firm = true := by decide +kernel

theorem base_starts {it : Gram.Item} {x : Node} (h : Base it x) : Starts x := by cases h <;> constructor

theorem word_starts {it : Gram.Item} {x : Node} (h : WordR it x) : Starts x := by
  cases h with
  | alone h => exact base_starts h
  | @marked y j bs rs hb h _ =>
    cases bs with
    | nil => exact .nt (base_starts h)
    | cons b bs =>
      obtain ⟨k, v, rfl, _⟩ := hb b (by simp)
      exact .nt .cmavo

theorem parse_starts : ∀ (n : Nat) (t : NT) (x : Node), x.depth ≤ n → t ∉ hollow → Parse t x → Starts x := by
  intro n
  induction n with
  | zero =>
    intro t x hx _ h
    obtain ⟨i, cs, r, rfl, _⟩ := parse_inv h
    simp [Node.depth] at hx
  | succ n ih =>
    intro t x hx ht h
    obtain ⟨i, cs, r, rfl, hr, hl, hk⟩ := parse_inv h
    have hf := List.all_eq_true.1 firm_rules r hr
    unfold firm at hf
    rw [hl] at hf
    have ht' : hollow.contains t = false := by simpa using ht
    rw [ht', Bool.false_or] at hf
    generalize r.rhs = its at hf hk
    cases hk with
    | nil => simp at hf
    | @n u c its ds hp _ =>
      simp only [List.head?_cons] at hf
      exact .nt (ih u c (by have := mem_depth (t := t) (i := i) (cs := c :: ds) (x := c) (by simp); omega) (by simpa using hf) hp)
    | word hw _ => exact .nt (word_starts hw)
    | put _ _ => exact .nt .cmavo
    | out _ => simp at hf

/-- All terms begin with a word. -/
def Firm (x : Node) : Prop := ∀ i cs, Sub x (.nt i .term cs) → Starts (.nt i .term cs)

theorem parse_firm {t : NT} {x : Node} (h : Parse t x) : Firm x := fun i cs hs =>
  parse_starts _ .term _ (Nat.le_refl _) (by decide) (sub_parse h hs (by decide))

/-! ## Modes that show no Lojban -/

/-- The calls of the modes for English and for labels. -/
def Mute (what : Show) (c : Call) : Prop :=
  (what = .english → (∃ t, c = .translation t) ∨ ∃ w, c = .eols w) ∧
  (what = .tagTrans → (∃ a b d e, c = .tagText a b d e) ∨ ∃ w, c = .eols w)

def Mutes (what : Show) (o : List Call) : Prop := ∀ c ∈ o, Mute what c

theorem mutes_nil (what : Show) : Mutes what [] := nofun
theorem mutes_append {what : Show} {a b : List Call} (h : Mutes what a) (k : Mutes what b) : Mutes what (a ++ b) :=
  fun c hc => (List.mem_append.1 hc).elim (h c) (k c)
theorem mutes_one {what : Show} {c : Call} (h : Mute what c) : Mutes what [c] := fun d hd => by
  rw [List.mem_singleton.1 hd]; exact h

theorem mutes_each {what : Show} {f : Node → Terms.M (List Call)} (hf : ∀ c o, f c = .ok o → Mutes what o) :
    ∀ {cs : List Node} {out : List Call}, each f cs = .ok out → Mutes what out := by
  intro cs
  induction cs with
  | nil => intro out h; cases h; exact mutes_nil _
  | cons c cs ih =>
    intro out h
    rw [each] at h
    obtain ⟨a, h1, h⟩ := bind_ok.1 h
    obtain ⟨b, h2, h⟩ := bind_ok.1 h
    cases h
    exact mutes_append (hf c a h1) (ih h2)

theorem mutes_eng (what : Show) (s : String) : Mutes what (Output.engText what s) := by
  unfold Output.engText
  cases what <;> simp [Show.eng, Mutes, Mute]

theorem mute_said (what : Show) (s : String) : Mute what (said what s) := by
  unfold said
  cases what <;> simp [Mute]

theorem mutes_ending (what : Show) (i : Nat) (e : String) (b : Bool) : Mutes what (ending what i e b) := by
  unfold ending
  cases what <;> by_cases h : e = "" <;> simp [h, Mutes, Mute]

theorem mutes_parted {what : Show} {f : Show → Node → Terms.M (List Call)} (hf : ∀ c o, f what c = .ok o → Mutes what o)
    {s : String} {cs : List Node} {out : List Call} (h : parted f what s cs = .ok out) : Mutes what out := by
  cases cs with
  | nil => cases h
  | cons c ds =>
    rw [parted] at h
    obtain ⟨a, h1, h⟩ := bind_ok.1 h
    obtain ⟨b, h2, h⟩ := bind_ok.1 h
    cases h
    exact mutes_append (mutes_append (hf c a h1) (mutes_eng what s)) (mutes_each hf h2)

theorem mutes_meaning {env : Env} {f : Show → Node → Terms.M (List Call)} {what : Show} (hw : what.loj = false)
    (hf : ∀ w c o, w.loj = false → f w c = .ok o → Mutes w o) {c : Conn} {out : List Call}
    (h : meaning env f what c = .ok out) : Mutes what out := by
  have hwe : (if what = .tagTrans then Show.tagTrans else Show.english) = what := by
    cases what <;> first | rfl | exact absurd hw (by decide)
  have hi : ∀ js o, f (if what = .tagTrans then .tagTrans else .english) js = .ok o → Mutes what o := by
    rw [hwe]; exact fun js o => hf what js o hw
  have hs : ∀ (b : Bool) s, Mutes what (if b then [said what s] else []) := by
    intro b s
    cases b with
    | false => exact mutes_nil _
    | true => exact mutes_one (mute_said what s)
  cases c with
  | truth p s =>
    rw [meaning] at h
    cases h
    cases env.pattern p s with
    | none => exact mutes_nil _
    | some t => exact mutes_one (mute_said what t)
  | joined p js n1 n2 =>
    cases p <;> simp only [meaning] at h
    case geStag => cases h; exact hs n1 _
    case giStag =>
      obtain ⟨a, h1, h⟩ := bind_ok.1 h
      cases h
      exact mutes_append (hi js a h1) (hs n2 _)
    case giJoik =>
      obtain ⟨a, h1, h⟩ := bind_ok.1 h
      cases h
      exact mutes_append (hs n2 _) (hi js a h1)
    all_goals (cases h; exact mutes_nil _)

theorem off {m : Terms.M (List Call)} {b : Bool} {o : List Call} (hb : b = false) (h : onlyIf b m = .ok o) : o = [] := by
  subst hb; cases h; rfl

theorem inner_mute {env : Env} {f : Show → Node → Terms.M (List Call)} {what : Show} (hw : what.loj = false)
    (hf : ∀ w c o, w.loj = false → f w c = .ok o → Mutes w o) {i : Nat} {t : NT} {cs : List Node} {out : List Call}
    (h : inner env f what i t cs = .ok out) : Mutes what out := by
  have hk : ∀ c o, f what c = .ok o → Mutes what o := fun c o => hf what c o hw
  have he : ∀ {ds o}, each (f what) ds = .ok o → Mutes what o := fun h => mutes_each hk h
  have hpa : ∀ {s ds o}, parted f what s ds = .ok o → Mutes what o := fun h => mutes_parted hk h
  have hcl : ∀ {o}, outClustered env f what i t cs = .ok o → Mutes what o := by
    intro o h
    rw [outClustered] at h
    split at h
    · obtain ⟨a, h1, h⟩ := bind_ok.1 h
      cases h
      rw [off hw h1]
      exact mutes_append (mutes_nil _) (mutes_eng _ _)
    · exact he h
  have hco : ∀ {o}, outConnective env f what i cs = .ok o → Mutes what o := by
    intro o h
    rw [outConnective] at h
    obtain ⟨a, h1, h⟩ := bind_ok.1 h
    obtain ⟨b, h2, h⟩ := bind_ok.1 h
    cases h
    rw [off hw h1]
    refine mutes_append (mutes_nil _) ?_
    unfold onlyIf at h2
    split at h2
    · split at h2
      · cases h2
      · exact mutes_meaning hw hf h2
    · cases h2; exact mutes_nil _
  unfold inner at h
  split at h
  · split at h
    · exact hpa h
    · exact he h
  · rw [outTerm] at h
    obtain ⟨a, h1, h⟩ := bind_ok.1 h
    obtain ⟨b, h2, h⟩ := bind_ok.1 h
    cases h
    rw [off (by rw [hw]; rfl) h1]
    exact mutes_append (mutes_nil _) (he h2)
  · split at h
    · exact hpa h
    · exact he h
  · split at h
    · exact hk _ _ h
    · cases h
  · rw [outOffset] at h
    obtain ⟨p, _, h⟩ := bind_ok.1 h
    obtain ⟨p, _, h⟩ := bind_ok.1 h
    obtain ⟨a, h1, h⟩ := bind_ok.1 h
    cases h
    rw [off hw h1]
    exact mutes_append (mutes_nil _) fun c hc => mutes_ending _ _ _ _ c (List.mem_filter.1 hc).1
  · exact hcl h
  · exact hcl h
  · exact hcl h
  · cases cs with
    | nil => cases h
    | cons c ds =>
      rw [outSumtiTail] at h
      obtain ⟨u, _, h⟩ := bind_ok.1 h
      split at h
      · obtain ⟨a, h1, h⟩ := bind_ok.1 h
        obtain ⟨b, h2, h⟩ := bind_ok.1 h
        obtain ⟨d, h3, h⟩ := bind_ok.1 h
        cases h
        rw [off hw h1]
        refine mutes_append (mutes_append (mutes_nil _) (he h2)) ?_
        cases hwe : what.eng with
        | false => rw [off hwe h3]; exact mutes_nil _
        | true =>
          have e : what = .english := by
            cases what <;> first | rfl | exact absurd hw (by decide) | exact absurd hwe (by decide)
          subst e
          obtain ⟨o, h4, h5⟩ := bind_ok.1 h3
          cases h5
          exact mutes_append (mutes_one (by simp [Mute])) (hk _ _ h4)
      · exact he h
  · split at h
    · exact hpa h
    · exact he h
  · obtain ⟨b, _, h⟩ := bind_ok.1 h
    split at h
    · exact hpa h
    · exact he h
  all_goals first
    | exact hco h
    | exact he h

theorem output_mute (env : Env) : ∀ (fuel : Nat) (what : Show) (x : Node) (out : List Call), what.loj = false →
    output env fuel what x = .ok out → Mutes what out := by
  intro fuel
  induction fuel with
  | zero => intro _ _ _ _ h; cases h
  | succ fuel ih =>
    intro what x out hw h
    have leafc : ∀ (y : Node) (l : List Call) (i : Nat) (e : String) (b : Bool),
        Mutes what ((if what.loj = true then l else []) ++ ending what i e b) := by
      intro y l i e b
      rw [hw]
      exact mutes_append (mutes_nil _) (mutes_ending _ _ _ _)
    cases x with
    | nt i t cs =>
      rw [output] at h
      obtain ⟨o, h1, h⟩ := bind_ok.1 h
      cases h
      unfold bracketed
      rw [hw]
      exact inner_mute hw ih h1
    | zei i =>
      rw [output] at h
      cases h
      unfold bracketed
      rw [hw]
      exact mutes_append (mutes_nil _) (mutes_ending _ _ _ _)
    | brivla i => unfold output at h; cases h; exact leafc (.brivla i) _ _ _ _
    | cmavo i s w => unfold output at h; cases h; exact leafc (.cmavo i s w) _ _ _ _
    | leaf i => unfold output at h; cases h; exact leafc (.leaf i) _ _ _ _

/-! ## Modes that show Lojban -/

theorem runs_append (a b : List Call) (p : Phase) : runs p (a ++ b) = (runs p a).bind fun q => runs q b := by
  induction a generalizing p with
  | nil => rfl
  | cons c a ih =>
    rw [List.cons_append, runs, runs]
    cases next p c with
    | none => rfl
    | some q => exact ih q

/-- Calls in order, outside of labels. -/
def Pl (o : List Call) : Prop := runs .plain o = some .plain
/-- Calls in order that give labels their text. -/
def Wt (o : List Call) : Prop := runs .waiting o = some .plain

theorem pl_append {a b : List Call} (h : Pl a) (k : Pl b) : Pl (a ++ b) := by
  unfold Pl at *; rw [runs_append, h]; exact k
theorem wt_append {a b : List Call} (h : Wt a) (k : Pl b) : Wt (a ++ b) := by
  unfold Wt Pl at *; rw [runs_append, h]; exact k

theorem pl_quiet {o : List Call} (h : ∀ c ∈ o, (∃ t, c = .translation t) ∨ ∃ w, c = .eols w) : Pl o := by
  induction o with
  | nil => rfl
  | cons c o ih =>
    have k := ih fun d hd => h d (by simp [hd])
    rcases h c (by simp) with ⟨t, rfl⟩ | ⟨w, rfl⟩ <;> exact k

theorem pl_english {o : List Call} (h : Mutes .english o) : Pl o := pl_quiet fun c hc => (h c hc).1 rfl

theorem inside_tags {o : List Call} (h : Mutes .tagTrans o) : runs .inside o = some .inside := by
  induction o with
  | nil => rfl
  | cons c o ih =>
    have k := ih fun d hd => h d (by simp [hd])
    rcases (h c (by simp)).2 rfl with ⟨a, b, d, e, rfl⟩ | ⟨w, rfl⟩ <;> exact k

theorem pl_ending {what : Show} (hw : what.loj = true) (i : Nat) (e : String) (b : Bool) : Pl (ending what i e b) := by
  apply pl_quiet
  unfold ending
  cases what <;> cases b <;> by_cases h : e = "" <;> first | exact absurd hw (by decide) | simp [h]

theorem pl_eng (what : Show) (s : String) : Pl (Output.engText what s) := by
  unfold Output.engText; split <;> rfl

/-- The labels of a term, after the first has begun. -/
theorem tags_run {f : Show → Node → Terms.M (List Call)} (hf : ∀ x o, f .tagTrans x = .ok o → Mutes .tagTrans o) :
    ∀ {ts : List Tag} {out : List Call}, outTags f ts = .ok out → runs .inside out = some .inside ∧
      (ts ≠ [] → runs .opening out = some .inside) := by
  intro ts
  induction ts with
  | nil => intro out h; cases h; exact ⟨rfl, fun k => absurd rfl k⟩
  | cons t ts ih =>
    intro out h
    cases t with
    | text b p s =>
      rw [outTags] at h
      obtain ⟨a, h1, h⟩ := bind_ok.1 h
      cases h
      exact ⟨(ih h1).1, fun _ => (ih h1).1⟩
    | jai tag n =>
      rw [outTags] at h
      obtain ⟨a, h1, h⟩ := bind_ok.1 h
      obtain ⟨b, h2, h⟩ := bind_ok.1 h
      cases h
      have key : runs .inside (a ++ ([.tagPart ("#" ++ toString n ++ ")")] ++ b)) = some .inside := by
        rw [runs_append, inside_tags (hf _ _ h1)]
        exact (ih h2).1
      have key' : ∀ p : Phase, next p .startTag = some .inside →
          runs p ([.startTag, .tagPart "jai+<tag>1: ("] ++ a ++ [.tagPart ("#" ++ toString n ++ ")")] ++ b) = some .inside := by
        intro p hp
        rw [List.append_assoc, List.append_assoc]
        show (next p .startTag).bind _ = _
        rw [hp]
        exact key
      exact ⟨key' _ rfl, fun _ => key' _ rfl⟩

section
variable {env : Env} {f : Show → Node → Terms.M (List Call)} {cs : List Node} {what : Show} (hw : what.loj = true)
  (hm : ∀ w x o, w.loj = false → f w x = .ok o → Mutes w o)
  (hp : ∀ w x o, x ∈ cs → w.loj = true → f w x = .ok o → Pl o)
  (hs : ∀ w x o, x ∈ cs → w.loj = true → Starts x → f w x = .ok o → Wt o)

/-- In order, and from waiting if the first of the children begins with a word. -/
def Both (cs : List Node) (o : List Call) : Prop := Pl o ∧ ((∃ c ds, cs = c :: ds ∧ Starts c) → Wt o)

theorem both_pl {o p : List Call} (h : Both cs o) (k : Pl p) : Both cs (o ++ p) :=
  ⟨pl_append h.1 k, fun x => wt_append (h.2 x) k⟩

include hp hs

theorem both_each {w : Show} (hl : w.loj = true) {out : List Call} (h : each (f w) cs = .ok out) : Both cs out := by
  have pls : ∀ {ds : List Node} {o : List Call}, (∀ d ∈ ds, d ∈ cs) → each (f w) ds = .ok o → Pl o := by
    intro ds
    induction ds with
    | nil => intro o _ h; cases h; rfl
    | cons d ds ih =>
      intro o hd h
      rw [each] at h
      obtain ⟨a, h1, h⟩ := bind_ok.1 h
      obtain ⟨b, h2, h⟩ := bind_ok.1 h
      cases h
      exact pl_append (hp w d a (hd d (by simp)) hl h1) (ih (fun e he => hd e (by simp [he])) h2)
  refine ⟨pls (fun _ h => h) h, ?_⟩
  rintro ⟨c, ds, rfl, hc⟩
  rw [each] at h
  obtain ⟨a, h1, h⟩ := bind_ok.1 h
  obtain ⟨b, h2, h⟩ := bind_ok.1 h
  cases h
  exact wt_append (hs w c a (by simp) hl hc h1) (pls (fun e he => by simp [he]) h2)

theorem pl_rest {w : Show} (hl : w.loj = true) {c : Node} {ds : List Node} (e : cs = c :: ds) {o : List Call}
    (h : each (f w) ds = .ok o) : Pl o :=
  (both_each (cs := ds) (fun w x o hx => hp w x o (by rw [e]; simp [hx])) (fun w x o hx => hs w x o (by rw [e]; simp [hx]))
    hl h).1

theorem both_first {w : Show} (hl : w.loj = true) {c : Node} {ds : List Node} (e : cs = c :: ds) {o : List Call}
    (h : f w c = .ok o) : Both cs o := by
  refine ⟨hp w c o (by rw [e]; simp) hl h, ?_⟩
  rintro ⟨c', ds', e', hc⟩
  rw [e] at e'
  cases e'
  exact hs w c o (by rw [e]; simp) hl hc h

include hw

theorem both_parted {s : String} {out : List Call} (h : parted f what s cs = .ok out) : Both cs out := by
  cases hcs : cs with
  | nil => rw [hcs] at h; cases h
  | cons c ds =>
    rw [← hcs]
    rw [hcs, parted] at h
    obtain ⟨a, h1, h⟩ := bind_ok.1 h
    obtain ⟨b, h2, h⟩ := bind_ok.1 h
    cases h
    exact both_pl (both_pl (both_first hp hs hw hcs h1) (pl_eng _ _)) (pl_rest hp hs hw hcs h2)

theorem both_ind {a : List Call} (h : onlyIf what.loj (each (f .lojbanInd) cs) = Except.ok a) : Both cs a := by
  rw [hw] at h
  exact both_each hp hs rfl h

include hm

theorem pl_meaning {c : Conn} {out : List Call} (h : meaning env f what c = .ok out) : Pl out := by
  have hne : what ≠ .tagTrans := by intro e; rw [e] at hw; exact absurd hw (by decide)
  have hi : ∀ js o, f (if what = .tagTrans then .tagTrans else .english) js = .ok o → Pl o := by
    rw [if_neg hne]; exact fun js o h => pl_english (hm _ _ _ rfl h)
  have hsd : ∀ s, said what s = .translation s := fun s => by unfold said; rw [if_neg hne]
  have hss : ∀ (b : Bool) s, Pl (if b then [said what s] else []) := by
    intro b s
    rw [hsd]
    cases b <;> rfl
  cases c with
  | truth p s =>
    rw [meaning] at h
    cases h
    cases env.pattern p s with
    | none => rfl
    | some t => exact hss true t
  | joined p js n1 n2 =>
    cases p <;> simp only [meaning] at h
    case geStag => cases h; exact hss n1 _
    case giStag =>
      obtain ⟨a, h1, h⟩ := bind_ok.1 h
      cases h
      exact pl_append (hi js a h1) (hss n2 _)
    case giJoik =>
      obtain ⟨a, h1, h⟩ := bind_ok.1 h
      cases h
      exact pl_append (hss n2 _) (hi js a h1)
    all_goals (cases h; rfl)

theorem both_term {i : Nat} (hst : ∃ c ds, cs = c :: ds ∧ Starts c) {out : List Call}
    (h : outTerm env f what i cs = .ok out) : Both cs out := by
  rw [outTerm] at h
  obtain ⟨a, h1, h⟩ := bind_ok.1 h
  obtain ⟨b, h2, h⟩ := bind_ok.1 h
  cases h
  have hb := both_each hp hs hw h2
  cases hc : (what.loj && !(env.tags i).isEmpty) with
  | false => rw [off hc h1]; exact hb
  | true =>
    rw [hc] at h1
    obtain ⟨t, h3, h4⟩ := bind_ok.1 h1
    cases h4
    have hne : env.tags i ≠ [] := by
      intro e
      rw [e, hw] at hc
      exact absurd hc (by decide)
    have ht := (tags_run (fun x o => hm .tagTrans x o rfl) h3).2 hne
    have key : ∀ p : Phase, next p .startTags = some .opening → runs p ([.startTags] ++ t ++ [.endTags] ++ b) = some .plain := by
      intro p hp'
      rw [List.append_assoc, List.append_assoc]
      show (next p .startTags).bind _ = _
      rw [hp']
      show runs .opening (t ++ ([.endTags] ++ b)) = _
      rw [runs_append, ht]
      exact hb.2 hst
    exact ⟨key _ rfl, fun _ => key _ rfl⟩

theorem both_inner {i : Nat} {t : NT} (hst : t = .term → ∃ c ds, cs = c :: ds ∧ Starts c) {out : List Call}
    (h : inner env f what i t cs = .ok out) : Both cs out := by
  have he : ∀ {o}, each (f what) cs = .ok o → Both cs o := fun h => both_each hp hs hw h
  have hpa : ∀ {s o}, parted f what s cs = .ok o → Both cs o := fun h => both_parted hw hp hs h
  have hcl : ∀ {o}, outClustered env f what i t cs = .ok o → Both cs o := by
    intro o h
    rw [outClustered] at h
    split at h
    · obtain ⟨a, h1, h⟩ := bind_ok.1 h
      cases h
      exact both_pl (both_ind hw hp hs h1) (pl_eng _ _)
    · exact he h
  have hco : ∀ {o}, outConnective env f what i cs = .ok o → Both cs o := by
    intro o h
    rw [outConnective] at h
    obtain ⟨a, h1, h⟩ := bind_ok.1 h
    obtain ⟨b, h2, h⟩ := bind_ok.1 h
    cases h
    refine both_pl (both_ind hw hp hs h1) ?_
    unfold onlyIf at h2
    split at h2
    · split at h2
      · cases h2
      · exact pl_meaning hw hm hp hs h2
    · cases h2; rfl
  unfold inner at h
  split at h
  · split at h
    · exact hpa h
    · exact he h
  · exact both_term hw hm hp hs (hst rfl) h
  · split at h
    · exact hpa h
    · exact he h
  · split at h
    · exact both_first hp hs hw rfl h
    · cases h
  · rw [outOffset] at h
    obtain ⟨p, _, h⟩ := bind_ok.1 h
    obtain ⟨p, _, h⟩ := bind_ok.1 h
    obtain ⟨a, h1, h⟩ := bind_ok.1 h
    cases h
    refine both_pl (both_ind hw hp hs h1) (pl_quiet fun c hc => ?_)
    have := (List.mem_filter.1 hc).1
    revert this
    unfold ending
    cases what <;> by_cases k : env.offset (.nt i .timeOffset cs) = "" <;> first | exact absurd hw (by decide) | (simp [k]; done) | skip
    all_goals (simp [k]; try (rintro (rfl | rfl) <;> simp))
  · exact hcl h
  · exact hcl h
  · exact hcl h
  · cases hcs : cs with
    | nil => rw [hcs] at h; cases h
    | cons c ds =>
      rw [← hcs]
      rw [hcs, outSumtiTail] at h
      obtain ⟨u, _, h⟩ := bind_ok.1 h
      split at h
      · obtain ⟨a, h1, h⟩ := bind_ok.1 h
        obtain ⟨b, h2, h⟩ := bind_ok.1 h
        obtain ⟨d, h3, h⟩ := bind_ok.1 h
        cases h
        rw [hw] at h1
        obtain ⟨o, h4, h5⟩ := bind_ok.1 h1
        cases h5
        refine both_pl (both_pl (both_pl (both_first hp hs rfl hcs h4) rfl) (pl_rest hp hs hw hcs h2)) ?_
        unfold onlyIf at h3
        split at h3
        · obtain ⟨o', h6, h7⟩ := bind_ok.1 h3
          cases h7
          exact pl_append (a := [.translation "[of]"]) rfl (pl_english (hm _ _ _ rfl h6))
        · cases h3; rfl
      · rw [← hcs] at h
        exact he h
  · split at h
    · exact hpa h
    · exact he h
  · obtain ⟨b, _, h⟩ := bind_ok.1 h
    split at h
    · exact hpa h
    · exact he h
  all_goals first
    | exact hco h
    | exact he h

end

theorem bracketed_both {what : Show} (hw : what.loj = true) (b : Output.Br × Nat) {o : List Call} (hp : Pl o) :
    Pl (bracketed what b o) ∧ (Wt o → Wt (bracketed what b o)) := by
  have e : bracketed what b o = [.opened b.1 b.2] ++ (o ++ [.closed b.1 b.2]) := by unfold bracketed; rw [hw]; rfl
  have hpc : Pl (o ++ [.closed b.1 b.2]) := pl_append hp rfl
  rw [e]
  refine ⟨pl_append rfl hpc, fun hwt => ?_⟩
  have hwc : Wt (o ++ [.closed b.1 b.2]) := wt_append hwt rfl
  by_cases hb : b.1 = .none
  · show (next .waiting (.opened b.1 b.2)).bind _ = _
    simp only [next, hb, if_true]
    rw [hb] at hwc
    exact hwc
  · show (next .waiting (.opened b.1 b.2)).bind _ = _
    simp only [next, if_neg hb]
    exact hpc

theorem output_order (env : Env) : ∀ (fuel : Nat) (what : Show) (x : Node) (out : List Call), what.loj = true → Firm x →
    output env fuel what x = .ok out → Pl out ∧ (Starts x → Wt out) := by
  intro fuel
  induction fuel with
  | zero => intro _ _ _ _ _ h; cases h
  | succ fuel ih =>
    intro what x out hw hx h
    have leafc : ∀ (t : String) (i : Nat) (e : String) (b : Bool),
        Pl ((if what.loj = true then [.lojban t] else []) ++ ending what i e b) ∧
        Wt ((if what.loj = true then [.lojban t] else []) ++ ending what i e b) := by
      intro t i e b
      rw [if_pos hw]
      exact ⟨pl_append (a := [.lojban t]) rfl (pl_ending hw _ _ _), wt_append (a := [.lojban t]) rfl (pl_ending hw _ _ _)⟩
    cases x with
    | nt i t cs =>
      rw [output] at h
      obtain ⟨o, h1, h⟩ := bind_ok.1 h
      cases h
      have sub : ∀ y ∈ cs, Firm y := fun y hy j ds hs => hx j ds (.child hy hs)
      have hb := both_inner (env := env) (f := output env fuel) (cs := cs) hw (fun w y o hl ho => output_mute env fuel w y o hl ho)
        (fun w y o hy hl ho => (ih w y o hl (sub y hy) ho).1) (fun w y o hy hl hst ho => (ih w y o hl (sub y hy) ho).2 hst)
        (fun e => by
          subst e
          have := hx i cs .refl
          generalize e : Node.nt i .term cs = z at this
          cases this <;> first | (cases e; done) | skip
          rename_i hc
          cases e
          exact ⟨_, _, rfl, hc⟩) h1
      have := bracketed_both hw (env.brac i) hb.1
      refine ⟨this.1, fun hst => this.2 (hb.2 ?_)⟩
      cases hst with
      | nt hc => exact ⟨_, _, rfl, hc⟩
    | zei i =>
      rw [output] at h
      cases h
      have l := leafc (env.word (.zei i)).1 i (env.word (.zei i)).2 false
      have := bracketed_both hw (env.brac i) l.1
      exact ⟨this.1, fun _ => this.2 l.2⟩
    | brivla i => unfold output at h; cases h; exact ⟨(leafc _ _ _ _).1, fun _ => (leafc _ _ _ _).2⟩
    | cmavo i s w => unfold output at h; cases h; exact ⟨(leafc _ _ _ _).1, fun _ => (leafc _ _ _ _).2⟩
    | leaf i => unfold output at h; cases h; exact ⟨(leafc _ _ _ _).1, fun _ => (leafc _ _ _ _).2⟩

/-- **The calls are in good order**, for every tree of the grammar and whatever glosses, brackets and labels there
are. -/
theorem output_ordered (env : Env) (top : Node) (hp : Parse .chunks top) (fuel : Nat) (calls : List Call)
    (h : output env fuel .both top = .ok calls) : Ordered calls :=
  .inl (output_order env fuel .both top calls rfl (parse_firm hp) h).1

/-! ## The display in blocks shows the tree -/

/-- A piece of the text in the line for Lojban. -/
def pieceText : Output.Spec.Piece → Text
  | .opened b _ => (openText b).1.toList ++ [' ']
  | .closed b _ => (closeText b).1.toList ++ [' ']
  | .word s => s.toList ++ [' ']

theorem loj_seen (cs : List Call) : cs.flatMap lojOf = (cs.filterMap Output.Spec.seen).flatMap pieceText := by
  induction cs with
  | nil => rfl
  | cons c cs ih =>
    rw [List.flatMap_cons, ih, List.filterMap_cons]
    cases c with
    | opened b n => by_cases h : b = .none <;> simp [lojOf, Output.Spec.seen, h, pieceText]
    | closed b n => by_cases h : b = .none <;> simp [lojOf, Output.Spec.seen, h, pieceText]
    | _ => simp [lojOf, Output.Spec.seen, pieceText]

/-- **The display in blocks shows the tree.**  For every tree of the grammar, every width, and whatever glosses,
brackets and labels there are: if the driver does not write outside of its buffers, then it prints rows of blocks
that stand side by side, each row within the width unless it is one block.  Read in order, the Lojban lines of the
blocks are the tree written out, each word once and in its place, and the English lines are all glosses. -/
theorem blocks_show_tree (env : Env) (top : Node) (hp : Parse .chunks top) (fuel : Nat) (calls : List Call)
    (h : output env fuel .both top = .ok calls) (maxw : Int) (eolsOf : Nat → Nat) (out : List Group)
    (hd : display maxw eolsOf calls = .ok out) :
    ∃ (items : List Spec.Item) (rest : List Block), out = items.map Spec.Item.show ∧ (∀ x ∈ items, x.Good maxw) ∧
      rowWidth rest = 0 ∧ items.flatMap Spec.Item.blocks ++ rest = blocks calls ∧
      (blocks calls).flatMap (·.loj) = (Output.Spec.written (Output.text env) env.brac top).flatMap pieceText ∧
      (blocks calls).flatMap (·.eng) = calls.flatMap engOf := by
  obtain ⟨items, rest, h1, h2, h3, h4⟩ := display_blocks (output_ordered env top hp fuel calls h) hd
  refine ⟨items, rest, h1, h4, h3, h2, ?_, blocks_english calls⟩
  rw [blocks_lojban, loj_seen, Output.display env top hp fuel calls h]

/-- The display of *joi gi mi gi nai do klama* in a narrow window. -/
def joiBlocks : Option (List Group) :=
  (output (envOf (fun _ => false) joiExample) 100 .both joiExample).toOption.bind fun calls =>
    (display 40 (fun _ => 0) calls).toOption

/-- The tree meets the hypotheses of `blocks_show_tree`: it is one of the grammar, the output ends, and the driver
prints two rows. -/
example : Parse .chunks joiExample ∧ joiBlocks.map List.length = some 2 :=
  ⟨parse_of (by decide +kernel), by decide +kernel⟩

end Jbo.TextBlk
