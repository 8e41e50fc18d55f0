import Verif.PipelineEx
/-!
# The labels of a term stand at the start of the term
-/

namespace Jbo.Output.Labels
open Jbo.Terms Jbo.Gram
open Jbo.Output.Spec (spelled compound)

/-- What can be seen of the Lojban text and its labels: numbered brackets, words, whole labels and parts of labels. -/
inductive Piece
  | opened (b : Br) (n : Nat)
  | closed (b : Br) (n : Nat)
  | word (text : String)
  | label (brivla place text : String)
  | part (s : String)
deriving DecidableEq, Repr

/-- A text in a bracket, or not in any. -/
def enclose (b : Br × Nat) (ps : List Piece) : List Piece :=
  if b.1 = .none then ps else [.opened b.1 b.2] ++ ps ++ [.closed b.1 b.2]

/-- A label as it is to be seen; of a label made with `jai` the frame and the number, without the tag. -/
def Tag.pieces : Tag → List Piece
  | .text b p s => [.label b p s]
  | .jai _ n => [.part "jai+<tag>1: (", .part ("#" ++ toString n ++ ")")]

mutual
/-- The tree written out: each word once, in order, around the words of each node the bracket of the node, and at the start of each
term, in its bracket, the labels of the term in order. -/
def written (word : Node → String) (brac : Nat → Br × Nat) (tags : Nat → List Tag) : Node → List Piece
  | .nt i t cs => enclose (brac i) ((if t = .term then (tags i).flatMap Tag.pieces else []) ++ writtens word brac tags cs)
  | .zei i => enclose (brac i) [.word (word (.zei i))]
  | x => [.word (word x)]
def writtens (word : Node → String) (brac : Nat → Br × Nat) (tags : Nat → List Tag) : List Node → List Piece
  | [] => []
  | c :: cs => written word brac tags c ++ writtens word brac tags cs
end

/-- What a call of the driver lets see of the text and the labels. -/
def seen : Call → Option Piece
  | .opened b n => if b = .none then none else some (.opened b n)
  | .closed b n => if b = .none then none else some (.closed b n)
  | .lojban s => some (.word s)
  | .tagText b p s true => some (.label b p s)
  | .tagPart s => some (.part s)
  | _ => none

def vis (cs : List Call) : List Piece := cs.filterMap seen

theorem vis_nil : vis [] = [] := rfl
theorem vis_append (a b : List Call) : vis (a ++ b) = vis a ++ vis b := List.filterMap_append
theorem vis_cons (c : Call) (b : List Call) : vis (c :: b) = (seen c).toList ++ vis b := by
  rw [vis, List.filterMap_cons]
  cases seen c <;> rfl

theorem each_vis {f : Node → M (List Call)} {g : Node → List Piece} : ∀ {cs : List Node} {out : List Call},
    (∀ c ∈ cs, ∀ o, f c = .ok o → vis o = g c) → each f cs = .ok out → vis out = cs.flatMap g := by
  intro cs
  induction cs with
  | nil => intro out _ h; cases h; rfl
  | cons c cs ih =>
    intro out hf h
    rw [each] at h
    obtain ⟨a, h1, h⟩ := bind_ok.1 h
    obtain ⟨b, h2, h⟩ := bind_ok.1 h
    cases h
    rw [vis_append, List.flatMap_cons]
    rw [← hf c (List.mem_cons_self ..) a h1, ← ih (fun d hd => hf d (List.mem_cons_of_mem _ hd)) h2]

theorem writtens_flat (word : Node → String) (brac : Nat → Br × Nat) (tags : Nat → List Tag) (cs : List Node) : writtens word brac tags cs = cs.flatMap (written word brac tags) := by
  induction cs with
  | nil => rfl
  | cons c cs ih => rw [writtens, ih, List.flatMap_cons]

theorem engText_vis (what : Show) (s : String) : vis (engText what s) = [] := by
  rw [engText]; split <;> rfl

theorem ending_vis (what : Show) (i : Nat) (e : String) (b : Bool) : vis (ending what i e b) = [] := by
  unfold ending
  cases what <;> cases b <;> by_cases h : e = "" <;> simp [h, vis_cons, vis_nil, seen]

theorem said_vis (what : Show) (s : String) : seen (said what s) = none := by
  rw [said]; split <;> rfl

theorem outTags_vis {f : Show → Node → M (List Call)} (hf : ∀ x o, f .tagTrans x = .ok o → vis o = []) : ∀ {ts : List Tag} {out : List Call},
    outTags f ts = .ok out → vis out = ts.flatMap Tag.pieces := by
  intro ts
  induction ts with
  | nil => intro out h; cases h; rfl
  | cons t ts ih =>
    intro out h
    cases t with
    | text b p s =>
      rw [outTags] at h
      obtain ⟨a, h1, h⟩ := bind_ok.1 h
      cases h
      simp [vis_cons, seen, ih h1, Tag.pieces]
    | jai tag n =>
      rw [outTags] at h
      obtain ⟨a, h1, h⟩ := bind_ok.1 h
      obtain ⟨b, h2, h⟩ := bind_ok.1 h
      cases h
      simp [vis_append, vis_cons, seen, hf _ _ h1, ih h2, Tag.pieces]

theorem meaning_vis {env : Env} {f : Show → Node → M (List Call)} (hf : ∀ w x o, w.loj = false → f w x = .ok o → vis o = []) {what : Show}
    {c : Conn} {out : List Call} (h : meaning env f what c = .ok out) : vis out = [] := by
  cases c with
  | truth p s =>
    rw [meaning] at h
    cases h
    cases hq : env.pattern p s with
    | none => rfl
    | some t => simp [vis_cons, vis_nil, said_vis]
  | joined p js n1 n2 =>
    have hw : (if what = .tagTrans then Show.tagTrans else Show.english).loj = false := by split <;> rfl
    cases p <;> simp only [meaning] at h
    case geStag => cases h; cases n1 <;> simp [vis_cons, vis_nil, said_vis]
    case giStag =>
      obtain ⟨a, h1, h⟩ := bind_ok.1 h
      cases h
      cases n2 <;> simp [vis_append, vis_cons, vis_nil, said_vis, hf _ _ _ hw h1]
    case giJoik =>
      obtain ⟨a, h1, h⟩ := bind_ok.1 h
      cases h
      cases n2 <;> simp [vis_append, vis_cons, vis_nil, said_vis, hf _ _ _ hw h1]
    all_goals (cases h; rfl)

section
variable {env : Env} {f : Show → Node → M (List Call)} {cs : List Node} {L : Prop} {what : Show}

/-- What is to be seen of a node. -/
def toSee (env : Env) (what : Show) (c : Node) : List Piece := if what.loj then written (text env) env.brac env.tags c else []
def toSees (env : Env) (what : Show) (cs : List Node) : List Piece := if what.loj then writtens (text env) env.brac env.tags cs else []

theorem toSees_flat (what : Show) (cs : List Node) : cs.flatMap (toSee env what) = toSees env what cs := by
  unfold toSees toSee
  cases what.loj with
  | true => rw [if_pos rfl, writtens_flat]; rfl
  | false => simp

variable (hf : ∀ w x o, x ∈ cs ∧ L ∨ w.loj = false → f w x = .ok o → vis o = toSee env w x) (hL : L ∨ what.loj = false)
include hf hL

theorem each_see {ds : List Node} (hd : ∀ d ∈ ds, d ∈ cs) {out : List Call} (h : each (f what) ds = .ok out) :
    vis out = toSees env what ds := by
  rw [← toSees_flat]
  exact each_vis (fun c hc o ho => hf _ _ _ (hL.imp_left fun hl => ⟨hd c hc, hl⟩) ho) h

omit hL in
theorem quiet (w : Show) (x : Node) (o : List Call) (hw : w.loj = false) (h : f w x = .ok o) : vis o = [] := by
  rw [hf w x o (.inr hw) h, toSee, hw]; rfl

theorem parted_see {s : String} {out : List Call} (h : parted f what s cs = .ok out) : vis out = toSees env what cs := by
  cases cs with
  | nil => cases h
  | cons c ds =>
    rw [parted] at h
    obtain ⟨a, h1, h⟩ := bind_ok.1 h
    obtain ⟨b, h2, h⟩ := bind_ok.1 h
    cases h
    rw [vis_append, vis_append, engText_vis, hf _ _ _ (hL.imp_left fun hl => ⟨List.mem_cons_self .., hl⟩) h1, each_see hf hL (fun d hd => List.mem_cons_of_mem _ hd) h2,
      ← toSees_flat, ← toSees_flat, List.flatMap_cons, List.append_nil]

theorem ind_see {a : List Call} (h : onlyIf what.loj (each (f .lojbanInd) cs) = Except.ok a) :
    vis a = toSees env what cs := by
  unfold toSees
  cases hw : what.loj with
  | false => rw [hw] at h; cases h; rfl
  | true =>
    rw [hw] at h
    rw [each_see hf (.inl (hL.resolve_right (by rw [hw]; decide))) (fun _ h => h) h]; rfl

theorem outTerm_see {i : Nat} {out : List Call} (h : outTerm env f what i cs = .ok out) :
    vis out = (if what.loj then (env.tags i).flatMap Tag.pieces else []) ++ toSees env what cs := by
  rw [outTerm] at h
  cases hb : (what.loj && !(env.tags i).isEmpty) with
  | false =>
    rw [hb] at h
    obtain ⟨a, h1, h⟩ := bind_ok.1 h
    obtain ⟨b, h2, h⟩ := bind_ok.1 h
    cases h
    cases h1
    rw [List.nil_append, each_see hf hL (fun _ h => h) h2]
    cases hw : what.loj with
    | false => rfl
    | true =>
      rw [hw, Bool.true_and, Bool.not_eq_false', List.isEmpty_iff] at hb
      rw [hb]; rfl
  | true =>
    rw [hb] at h
    obtain ⟨a, h1, h⟩ := bind_ok.1 h
    obtain ⟨b, h2, h⟩ := bind_ok.1 h
    cases h
    obtain ⟨t, h3, h4⟩ := bind_ok.1 h1
    cases h4
    rw [vis_append, each_see hf hL (fun _ h => h) h2, vis_append, vis_append, outTags_vis (fun x o => quiet hf _ x o rfl) h3,
      if_pos (by rw [Bool.and_eq_true] at hb; exact hb.1)]
    simp [vis_cons, vis_nil, seen]

theorem outOffset_see {i : Nat} {out : List Call} (h : outOffset env f what i cs = .ok out) : vis out = toSees env what cs := by
  rw [outOffset] at h
  obtain ⟨p, _, h⟩ := bind_ok.1 h
  obtain ⟨p, _, h⟩ := bind_ok.1 h
  obtain ⟨a, h1, h⟩ := bind_ok.1 h
  cases h
  have : vis ((ending what i (env.offset (.nt i .timeOffset cs)) false).filter (fun c => !(what == .tagTrans) || c != .eols i)) = [] := by
    have := ending_vis what i (env.offset (.nt i .timeOffset cs)) false
    rw [vis, List.filterMap_eq_nil_iff] at this ⊢
    exact fun c hc => this c (List.mem_filter.1 hc).1
  rw [vis_append, this, ind_see hf hL h1, List.append_nil]

theorem outSumtiTail_see {out : List Call} (h : outSumtiTail f what cs = .ok out) : vis out = toSees env what cs := by
  cases cs with
  | nil => cases h
  | cons c ds =>
    rw [outSumtiTail] at h
    obtain ⟨t, _, h⟩ := bind_ok.1 h
    split at h
    · obtain ⟨a, h1, h⟩ := bind_ok.1 h
      obtain ⟨b, h2, h⟩ := bind_ok.1 h
      obtain ⟨d, h3, h⟩ := bind_ok.1 h
      cases h
      have ha : vis a = toSee env what c := by
        unfold toSee
        cases hw : what.loj with
        | false => rw [hw] at h1; cases h1; rfl
        | true =>
          rw [hw] at h1
          obtain ⟨o, h4, h5⟩ := bind_ok.1 h1
          cases h5
          rw [vis_append, hf _ _ _ (.inl ⟨List.mem_cons_self .., hL.resolve_right (by rw [hw]; decide)⟩) h4, vis_cons, vis_nil]
          exact List.append_nil _
      have hd : vis d = [] := by
        cases hw : what.eng with
        | false => rw [hw] at h3; cases h3; rfl
        | true =>
          rw [hw] at h3
          obtain ⟨o, h4, h5⟩ := bind_ok.1 h3
          cases h5
          rw [vis_append, quiet hf _ _ _ rfl h4]; rfl
      rw [vis_append, vis_append, ha, hd, each_see hf hL (fun d hd => List.mem_cons_of_mem _ hd) h2, List.append_nil,
        ← toSees_flat, ← toSees_flat, List.flatMap_cons]
    · exact each_see hf hL (fun _ h => h) h

theorem outConnective_see {i : Nat} {out : List Call} (h : outConnective env f what i cs = .ok out) : vis out = toSees env what cs := by
  rw [outConnective] at h
  obtain ⟨a, h1, h⟩ := bind_ok.1 h
  obtain ⟨b, h2, h⟩ := bind_ok.1 h
  cases h
  have hb : vis b = [] := by
    unfold onlyIf at h2
    split at h2
    · split at h2
      · cases h2
      · exact meaning_vis (fun w x o => quiet hf w x o) h2
    · cases h2; rfl
  rw [vis_append, hb, ind_see hf hL h1, List.append_nil]

theorem outClustered_see {i : Nat} {t : NT} {out : List Call} (h : outClustered env f what i t cs = .ok out) :
    vis out = toSees env what cs := by
  rw [outClustered] at h
  split at h
  · obtain ⟨a, h1, h⟩ := bind_ok.1 h
    cases h
    rw [vis_append, engText_vis, ind_see hf hL h1, List.append_nil]
  · exact each_see hf hL (fun _ h => h) h

theorem inner_see {i : Nat} {t : NT} (ht : L → t = .observativeSentence → cs.length = 1) {out : List Call}
    (h : inner env f what i t cs = .ok out) :
    vis out = (if what.loj && t = .term then (env.tags i).flatMap Tag.pieces else []) ++ toSees env what cs := by
  have he : ∀ {o}, each (f what) cs = .ok o → vis o = toSees env what cs := fun h => each_see hf hL (fun _ h => h) h
  have no : ∀ {o}, t ≠ .term → vis o = toSees env what cs →
      vis o = (if what.loj && t = .term then (env.tags i).flatMap Tag.pieces else []) ++ toSees env what cs := by
    intro o ht ho
    rw [ho, if_neg (by simp [ht])]; rfl
  unfold inner at h
  split at h
  · split at h
    · exact no nofun (parted_see hf hL h)
    · exact no nofun (he h)
  · rw [outTerm_see hf hL h]; simp
  · split at h
    · exact no nofun (parted_see hf hL h)
    · exact no nofun (he h)
  · split at h
    · rename_i c ds
      refine no nofun ?_
      rw [hf _ _ _ (hL.imp_left fun hl => ⟨List.mem_cons_self .., hl⟩) h]
      rcases hL with hl | hw
      · have : ds = [] := by simpa using ht hl rfl
        subst this
        rw [← toSees_flat]; simp
      · rw [toSee, toSees, hw]; rfl
    · cases h
  · exact no nofun (outOffset_see hf hL h)
  · exact no nofun (outClustered_see hf hL h)
  · exact no nofun (outClustered_see hf hL h)
  · exact no nofun (outClustered_see hf hL h)
  · exact no nofun (outSumtiTail_see hf hL h)
  · split at h
    · exact no nofun (parted_see hf hL h)
    · exact no nofun (he h)
  · obtain ⟨b, _, h⟩ := bind_ok.1 h
    split at h
    · exact no nofun (parted_see hf hL h)
    · exact no nofun (he h)
  all_goals first
    | exact no (by assumption) (he h)
    | exact no (by decide) (outConnective_see hf hL h)

end

theorem bracketed_see (what : Show) (b : Br × Nat) (o : List Call) : vis (bracketed what b o) = if what.loj then enclose b (vis o) else vis o := by
  unfold bracketed enclose
  cases what.loj with
  | false => rfl
  | true =>
    rw [if_pos rfl, if_pos rfl, List.cons_append, vis_cons, vis_append, vis_cons, vis_nil]
    by_cases h : b.1 = .none <;> simp [seen, h]

theorem output_see (env : Env) : ∀ (fuel : Nat) (what : Show) (x : Node) (out : List Call), Whole x ∨ what.loj = false →
    output env fuel what x = .ok out → vis out = toSee env what x := by
  intro fuel
  induction fuel with
  | zero => intro _ _ _ _ h; cases h
  | succ fuel ih =>
    intro what x out hx h
    have leafc : ∀ y : Node, (∀ i, y ≠ .zei i) → vis ((if what.loj = true then [.lojban (wordText env y)] else []) ++
        ending what y.id (env.word y).2 (indic y)) = if what.loj = true then [.word (text env y)] else [] := by
      intro y hy
      rw [vis_append, ending_vis, List.append_nil, dotted_spelled env y hy]
      cases what.loj <;> rfl
    cases x with
    | nt i t cs =>
      rw [output] at h
      obtain ⟨o, h1, h⟩ := bind_ok.1 h
      cases h
      rw [bracketed_see]
      have := inner_see (env := env) (f := output env fuel) (cs := cs) (L := Whole (.nt i t cs)) (fun w y o hy ho =>
        ih w y o (hy.imp_left fun hy j ds hs => hy.2 j ds (.child hy.1 hs)) ho) hx
          (fun hl e => by subst e; exact hl _ _ .refl) h1
      rw [this, toSee, toSees]
      cases what.loj with
      | false => rfl
      | true => simp [written]
    | zei i =>
      rw [output] at h
      cases h
      rw [bracketed_see, vis_append, ending_vis, List.append_nil, toSee]
      cases what.loj <;> rfl
    | brivla i => unfold output at h; cases h; exact leafc _ nofun
    | cmavo i s w => unfold output at h; cases h; exact leafc _ nofun
    | leaf i => unfold output at h; cases h; exact leafc _ nofun

/-- **The labels stand at the start of their term.**  For every tree of the grammar and whatever the glosses, labels and brackets are: if the
output ends, then what can be seen is the tree written out, each term with its labels, once and in order, before its words and inside its
bracket; no label stands anywhere else. -/
theorem display_labels (env : Env) (top : Node) (hp : Parse .chunks top) (fuel : Nat) (out : List Call) (h : output env fuel .both top = .ok out) :
    out.filterMap seen = written (text env) env.brac env.tags top :=
  output_see env fuel .both top out (.inl (parse_whole hp)) h

end Jbo.Output.Labels

namespace Jbo.Pipeline
open Jbo.Terms Jbo.Terms.Spec Jbo.Gram Jbo.Output

/-- How a label writes a terminal node: a cmavo, a brivla, or a compound with `+` in the place of `zei`. -/
inductive Spelt : Gloss.Item → Word → Prop
  | cmavo (s : Terms.Sel) (v : Word) (e : Bool) : Spelt (.cmavo s v e) v
  | brivla (v : Word) : Spelt (.brivla v) v
  | zei (a v : Word) (ps : List Word) : Spelt (.zei a v ps) v

/-- A text with the number in the place of `%d`, if the template has just that. -/
def Filled (template : Word) (n : Nat) (text : String) : Prop :=
  ∀ a b, template = a ++ ['%', 'd'] ++ b → '%' ∉ a → '%' ∉ b → text.toList = a ++ (toString n).toList ++ b

/-- What a label says (`output.c:861-967`), given the number of each bracket. -/
def Says (w : Words) (num : Nat → Nat) (top : Node) (l : Label) (t : Tag) : Prop :=
  match l.jai, l.head with
  | some (tg, u), _ => ∃ x, t = .jai x (num u) ∧ Sub top x ∧ x.id = tg
  | none, .brivla x | none, .abstraction x => ∀ v, Spelt (w.item x) v →
    ∃ g, w.dict.adv v l.pos .tag = .ok g ∧ t = .text (String.ofList v) (toString l.pos) (String.ofList g)
  | none, .goha x => ∀ v, Spelt (w.item x) v → t = .text (String.ofList v ++ toString l.pos) "" ""
  | none, .me s => ∃ g b, w.dict.adv "me".toList l.pos .tag = .ok g ∧ t = .text "me" (toString l.pos ++ "..") b ∧ Filled g (num s) b
  | none, .nuha m => t = .text ("#" ++ toString (num m) ++ "-" ++ toString l.pos) "" ""
  | none, .numberMoi n m => ∀ v, Spelt (w.item m) v → ∃ g b, w.dict.adv v l.pos .tag = .ok g ∧
    t = .text ("#" ++ toString (num n) ++ "-" ++ String.ofList v ++ toString l.pos) "" b ∧ Filled g (num n) b
  | none, .zei z => ∀ v, Spelt (w.item z) v →
    ∃ g, w.dict.adv v l.pos .tag = .ok g ∧ t = .text ("#" ++ toString (num z) ++ "-" ++ toString l.pos) "" (String.ofList g)

theorem spelt_word {w : Words} {i : Nat} {v : Word} (h : Spelt (w.item i) v) : wordAt w i = v := by
  unfold wordAt
  generalize w.item i = it at h
  cases h <;> rfl

theorem filled_of {g b b' : Word} {n : Nat} (h : Gloss.format n false g = .ok b) (h' : Gloss.put 1024 b = .ok b') : Filled g n (String.ofList b') := by
  intro x y e hx hy
  subst e
  rw [Gloss.format_number n x y hx hy] at h
  cases h
  rw [(Gloss.put_ok h').1, String.toList_ofList]

theorem ofList_app (a b : Word) : String.ofList (a ++ b) = String.ofList a ++ String.ofList b := String.ofList_append

theorem ofList_num (n : Nat) : String.ofList (Gloss.num n) = toString n := by
  unfold Gloss.num
  rw [String.ofList_toList]

theorem tag_says {k : Logs} {w : Words} {top : Node} {l : Label} {t : Tag} (h : tagOf k w top l = some t) :
    Says w (fun i => (bracOf k.marks i).2) top l t := by
  unfold tagOf at h
  unfold Says
  cases hj : l.jai with
  | some p =>
    rw [hj] at h
    obtain ⟨x, hx, he⟩ := Option.map_eq_some_iff.1 h
    cases he
    exact ⟨x, rfl, nodeAt_sub _ _ hx⟩
  | none =>
    rw [hj] at h
    simp only at h
    split at h
    · rename_i a b c hr
      cases h
      cases hh : l.head with
      | brivla x | abstraction x =>
        intro v hv
        rw [hh, headOf, spelt_word hv, Gloss.labelText] at hr
        obtain ⟨g, h1, hr⟩ := Gloss.bind_ok.1 hr
        obtain ⟨u, h2, hr⟩ := Gloss.bind_ok.1 hr
        cases hr
        exact ⟨c, h1, by rw [(Gloss.put_ok h2).1, ofList_num]⟩
      | goha x =>
        intro v hv
        rw [hh, headOf, spelt_word hv, Gloss.labelText] at hr
        obtain ⟨u, h2, hr⟩ := Gloss.bind_ok.1 hr
        cases hr
        rw [(Gloss.put_ok h2).1, ofList_app, ofList_num]
      | me s =>
        rw [hh, headOf, Gloss.labelText] at hr
        obtain ⟨g, h1, hr⟩ := Gloss.bind_ok.1 hr
        obtain ⟨b1, h2, hr⟩ := Gloss.bind_ok.1 hr
        obtain ⟨b2, h3, hr⟩ := Gloss.bind_ok.1 hr
        obtain ⟨u, h4, hr⟩ := Gloss.bind_ok.1 hr
        cases hr
        refine ⟨g, _, h1, ?_, filled_of h2 h3⟩
        rw [(Gloss.put_ok h4).1, ofList_app, ofList_num, String.ofList_toList, String.ofList_toList]
      | nuha m =>
        rw [hh, headOf, Gloss.labelText] at hr
        obtain ⟨u, h2, hr⟩ := Gloss.bind_ok.1 hr
        cases hr
        simp only [(Gloss.put_ok h2).1, ofList_app, ofList_num, String.ofList_toList]
      | numberMoi n m =>
        intro v hv
        rw [hh, headOf, spelt_word hv, Gloss.labelText] at hr
        obtain ⟨g, h1, hr⟩ := Gloss.bind_ok.1 hr
        obtain ⟨b1, h2, hr⟩ := Gloss.bind_ok.1 hr
        obtain ⟨b2, h3, hr⟩ := Gloss.bind_ok.1 hr
        obtain ⟨u, h4, hr⟩ := Gloss.bind_ok.1 hr
        cases hr
        refine ⟨g, _, h1, ?_, filled_of h2 h3⟩
        simp only [(Gloss.put_ok h4).1, ofList_app, ofList_num, String.ofList_toList]
      | zei z =>
        intro v hv
        rw [hh, headOf, spelt_word hv, Gloss.labelText] at hr
        obtain ⟨u, h2, hr⟩ := Gloss.bind_ok.1 hr
        obtain ⟨g, h1, hr⟩ := Gloss.bind_ok.1 hr
        cases hr
        refine ⟨c, h1, ?_⟩
        simp only [(Gloss.put_ok h2).1, ofList_app, ofList_num, String.ofList_toList]
    · cases h

/-- A label that refers to a brivla or an abstraction is never left out if the dictionary gives a tag for it. -/
theorem tag_kept {k : Logs} {w : Words} {top : Node} {l : Label} {x : Nat} {v g : Word} (hj : l.jai = none) (hh : l.head = .brivla x ∨ l.head = .abstraction x)
    (hv : Spelt (w.item x) v) (hg : w.dict.adv v l.pos .tag = .ok g) (hp : l.pos < 10 ^ 15) : (tagOf k w top l).isSome = true := by
  have hlen : (Gloss.num l.pos).length < 16 := by
    have : (Nat.repr l.pos).length ≤ 15 := (Nat.length_repr_le_iff (by decide)).2 hp
    exact Nat.lt_succ_of_le this
  have : Gloss.labelText w.dict l.pos (headOf k w l.head) = .ok (v, Gloss.num l.pos, g) := by
    rcases hh with hh | hh <;>
    · rw [hh, headOf, spelt_word hv, Gloss.labelText, hg]
      show (Gloss.put 16 (Gloss.num l.pos) >>= _) = _
      rw [Gloss.put, if_pos hlen]
      rfl
  unfold tagOf
  rw [hj]
  simp only
  rw [this]
  rfl

/-- **Terms are shown with their labels.**  What can be seen of a text is the tree written out, at the start of each term the labels that `terms_processing`
hung on it, in order, each naming the word or the number of the bracket that it refers to, and the place.  A label is left out only where its text does not
fit its buffer or is not in the dictionary (C89), so never one made with `jai`, nor one of a brivla or an abstraction that has a tag. -/
theorem whole_terms (top : Node) (hp : Parse .chunks top) (hn : (ids top).Nodup) {fuel : Nat} {w : Words} {k : Logs} (hk : passes fuel top = .ok k)
    {out : List Call} (h : whole fuel w top = .ok out) :
    ∃ f : Label → Option Tag, out.filterMap Labels.seen =
        Labels.written (text (envOf k w top)) (bracOf k.marks) (fun t => (labels k.terms t).filterMap f) top ∧
      (∀ l tag, f l = some tag → Says w (fun i => (bracOf k.marks i).2) top l tag) ∧
      (∀ t l, .label t l ∈ k.terms → l.jai.isSome = true → ∃ tag, f l = some tag) ∧
      ∀ l x v g, l.jai = none → l.head = .brivla x ∨ l.head = .abstraction x → Spelt (w.item x) v → w.dict.adv v l.pos .tag = .ok g → l.pos < 10 ^ 15 →
        ∃ tag, f l = some tag := by
  obtain ⟨k', hk', ho⟩ := whole_inv h
  rw [hk] at hk'
  cases hk'
  refine ⟨tagOf k w top, Labels.display_labels _ top hp fuel out ho, fun l tag => tag_says, ?_, fun l x v g a b c d e => ?_⟩
  · intro t l hl hj
    obtain ⟨⟨tg, u⟩, hj⟩ := Option.isSome_iff_exists.1 hj
    unfold tagOf
    rw [hj]
    rcases (processing_good (passes_logs hk).1 t l hl).jai tg u hj with hno | ⟨_, _, q, ds, c, cs, hs, hc, rfl⟩
    · cases hno
    · obtain ⟨anc, hocc⟩ := sub_occ hp hs .top
      simp only
      rw [nodeAt_occ hp hn (.child hocc (by decide) hc)]
      exact ⟨_, rfl⟩
  · exact Option.isSome_iff_exists.1 (tag_kept a b c d e)

/-- What can be seen of an output with labels. -/
def sights (m : M (List Call)) : Option (List Labels.Piece) := m.toOption.map (·.filterMap Labels.seen)

set_option maxRecDepth 100000 in
/-- *mi klama da poi mi klama ke'a* with its labels; the hypotheses of `whole_terms` hold for it (above). -/
example : sights (whole 200 (wordsIn daKeha) daKeha) = some [.opened .square 1, .opened .round 2, .label "klama" "1" "go", .word "mi", .closed .round 2,
    .opened .triangle 3, .word "klama", .closed .triangle 3, .opened .round 4, .label "klama" "2" "destination thing(s)", .opened .ceil 5, .opened .ceil 6,
    .word "da", .closed .ceil 6, .opened .angle 7, .word "poi", .opened .square 8, .opened .round 9, .label "klama" "1" "go", .word "mi", .closed .round 9,
    .opened .triangle 10, .word "klama", .closed .triangle 10, .opened .round 11, .label "klama" "2" "destination thing(s)", .word "ke'a",
    .closed .round 11, .closed .square 8, .closed .angle 7, .closed .ceil 5, .closed .round 4, .closed .square 1] := by decide +kernel

/-- A label of `me` shows the number of the bracket of the sumti. -/
example (w : Words) (top : Node) (hd : w.dict = Gloss.small) (b : String) :
    Says w (fun _ => 3) top ⟨.me 7, 1, none⟩ (.text "me" "1.." b) → b = "referent of #3" := by
  rintro ⟨g, b', hg, e, hf⟩
  cases e
  rw [hd] at hg
  have hs : Gloss.small.adv "me".toList 1 .tag = .ok "referent of #%d".toList := by decide +kernel
  have e : g = "referent of #%d".toList := by
    have := hg.symm.trans hs
    cases this
    rfl
  have := hf "referent of #".toList [] (by rw [e]; decide +kernel) (by decide +kernel) nofun
  exact String.toList_injective (this.trans (by decide +kernel))

end Jbo.Pipeline
