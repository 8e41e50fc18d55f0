import Verif.OutputSpec
import Verif.GramPass
import Verif.GramEx
/-!
# The display shows every word once and in order, in brackets that mirror the tree
-/

namespace Jbo.Output
open Jbo.Terms Jbo.Gram Jbo.Output.Spec

theorem bind_ok {α β : Type} {m : M α} {f : α → M β} {b : β} : (m >>= f) = .ok b ↔ ∃ a, m = .ok a ∧ f a = .ok b := by
  cases m with
  | error e => exact ⟨nofun, fun ⟨_, h, _⟩ => by cases h⟩
  | ok a => exact ⟨fun h => ⟨a, rfl, h⟩, fun ⟨_, h1, h2⟩ => by cases h1; exact h2⟩

def vis (cs : List Call) : List Piece := cs.filterMap seen

theorem vis_nil : vis [] = [] := rfl
theorem vis_append (a b : List Call) : vis (a ++ b) = vis a ++ vis b := List.filterMap_append
theorem vis_cons (c : Call) (b : List Call) : vis (c :: b) = (seen c).toList ++ vis b := by
  rw [vis, List.filterMap_cons]
  cases seen c <;> rfl

theorem each_vis {f : Node → M (List Call)} {g : Node → List Piece} : ∀ {cs : List Node} {out : List Call},
    (∀ c ∈ cs, ∀ o, f c = .ok o → vis o = g c) → each f cs = .ok out → vis out = cs.flatMap g := by
  intro cs
  induction cs with
  | nil => intro out _ h; cases h; rfl
  | cons c cs ih =>
    intro out hf h
    rw [each] at h
    obtain ⟨a, h1, h⟩ := bind_ok.1 h
    obtain ⟨b, h2, h⟩ := bind_ok.1 h
    cases h
    rw [vis_append, List.flatMap_cons]
    rw [← hf c (List.mem_cons_self ..) a h1, ← ih (fun d hd => hf d (List.mem_cons_of_mem _ hd)) h2]

theorem writtens_flat (word : Node → String) (brac : Nat → Br × Nat) (cs : List Node) : writtens word brac cs = cs.flatMap (written word brac) := by
  induction cs with
  | nil => rfl
  | cons c cs ih => rw [writtens, ih, List.flatMap_cons]

theorem engText_vis (what : Show) (s : String) : vis (engText what s) = [] := by
  rw [engText]; split <;> rfl

theorem ending_vis (what : Show) (i : Nat) (e : String) (b : Bool) : vis (ending what i e b) = [] := by
  unfold ending
  cases what <;> cases b <;> by_cases h : e = "" <;> simp [h, vis_cons, vis_nil, seen]

theorem said_vis (what : Show) (s : String) : seen (said what s) = none := by
  rw [said]; split <;> rfl

/-- `f` shows what `g` says. -/
def Shows (f : Show → Node → M (List Call)) (g : Show → Node → List Piece) : Prop := ∀ what x o, f what x = .ok o → vis o = g what x

theorem outTags_vis {f : Show → Node → M (List Call)} (hf : ∀ x o, f .tagTrans x = .ok o → vis o = []) : ∀ {ts : List Tag} {out : List Call},
    outTags f ts = .ok out → vis out = [] := by
  intro ts
  induction ts with
  | nil => intro out h; cases h; rfl
  | cons t ts ih =>
    intro out h
    cases t with
    | text b p s =>
      rw [outTags] at h
      obtain ⟨a, h1, h⟩ := bind_ok.1 h
      cases h
      simp [vis_append, vis_cons, vis_nil, seen, ih h1]
    | jai tag n =>
      rw [outTags] at h
      obtain ⟨a, h1, h⟩ := bind_ok.1 h
      obtain ⟨b, h2, h⟩ := bind_ok.1 h
      cases h
      simp [vis_append, vis_cons, vis_nil, seen, hf _ _ h1, ih h2]

theorem meaning_vis {env : Env} {f : Show → Node → M (List Call)} (hf : ∀ w x o, w.loj = false → f w x = .ok o → vis o = []) {what : Show}
    {c : Conn} {out : List Call} (h : meaning env f what c = .ok out) : vis out = [] := by
  cases c with
  | truth p s =>
    rw [meaning] at h
    cases h
    cases hq : env.pattern p s with
    | none => rfl
    | some t => simp [vis_append, vis_cons, vis_nil, said_vis]
  | joined p js n1 n2 =>
    have hw : (if what = .tagTrans then Show.tagTrans else Show.english).loj = false := by split <;> rfl
    cases p <;> simp only [meaning] at h
    case geStag => cases h; cases n1 <;> simp [vis_cons, vis_nil, said_vis]
    case giStag =>
      obtain ⟨a, h1, h⟩ := bind_ok.1 h
      cases h
      cases n2 <;> simp [vis_append, vis_cons, vis_nil, said_vis, hf _ _ _ hw h1]
    case giJoik =>
      obtain ⟨a, h1, h⟩ := bind_ok.1 h
      cases h
      cases n2 <;> simp [vis_append, vis_cons, vis_nil, said_vis, hf _ _ _ hw h1]
    all_goals (cases h; rfl)

/-- How the words are written. -/
def text (env : Env) (x : Node) : String := spelled (env.word x).1 (compound x) (env.name x.id)

section
variable {env : Env} {f : Show → Node → M (List Call)} {cs : List Node} {L : Prop} {what : Show}

/-- What is to be seen of a node. -/
def toSee (env : Env) (what : Show) (c : Node) : List Piece := if what.loj then written (text env) env.brac c else []
def toSees (env : Env) (what : Show) (cs : List Node) : List Piece := if what.loj then writtens (text env) env.brac cs else []

theorem toSees_flat (what : Show) (cs : List Node) : cs.flatMap (toSee env what) = toSees env what cs := by
  unfold toSees toSee
  cases what.loj with
  | true => rw [if_pos rfl, writtens_flat]; rfl
  | false => simp

variable (hf : ∀ w x o, x ∈ cs ∧ L ∨ w.loj = false → f w x = .ok o → vis o = toSee env w x) (hL : L ∨ what.loj = false)
include hf hL

theorem each_see {ds : List Node} (hd : ∀ d ∈ ds, d ∈ cs) {out : List Call} (h : each (f what) ds = .ok out) :
    vis out = toSees env what ds := by
  rw [← toSees_flat]
  exact each_vis (fun c hc o ho => hf _ _ _ (hL.imp_left fun hl => ⟨hd c hc, hl⟩) ho) h

omit hL in
theorem quiet (w : Show) (x : Node) (o : List Call) (hw : w.loj = false) (h : f w x = .ok o) : vis o = [] := by
  rw [hf w x o (.inr hw) h, toSee, hw]; rfl

theorem parted_see {s : String} {out : List Call} (h : parted f what s cs = .ok out) : vis out = toSees env what cs := by
  cases cs with
  | nil => cases h
  | cons c ds =>
    rw [parted] at h
    obtain ⟨a, h1, h⟩ := bind_ok.1 h
    obtain ⟨b, h2, h⟩ := bind_ok.1 h
    cases h
    rw [vis_append, vis_append, engText_vis, hf _ _ _ (hL.imp_left fun hl => ⟨List.mem_cons_self .., hl⟩) h1, each_see hf hL (fun d hd => List.mem_cons_of_mem _ hd) h2,
      ← toSees_flat, ← toSees_flat, List.flatMap_cons, List.append_nil]

theorem ind_see {a : List Call} (h : onlyIf what.loj (each (f .lojbanInd) cs) = Except.ok a) :
    vis a = toSees env what cs := by
  unfold toSees
  cases hw : what.loj with
  | false => rw [hw] at h; cases h; rfl
  | true =>
    rw [hw] at h
    rw [each_see hf (.inl (hL.resolve_right (by rw [hw]; decide))) (fun _ h => h) h]; rfl

theorem outTerm_see {i : Nat} {out : List Call} (h : outTerm env f what i cs = .ok out) : vis out = toSees env what cs := by
  rw [outTerm] at h
  cases hb : (what.loj && !(env.tags i).isEmpty) with
  | false =>
    rw [hb] at h
    obtain ⟨a, h1, h⟩ := bind_ok.1 h
    obtain ⟨b, h2, h⟩ := bind_ok.1 h
    cases h
    cases h1
    exact each_see hf hL (fun _ h => h) h2
  | true =>
    rw [hb] at h
    obtain ⟨a, h1, h⟩ := bind_ok.1 h
    obtain ⟨b, h2, h⟩ := bind_ok.1 h
    cases h
    obtain ⟨t, h3, h4⟩ := bind_ok.1 h1
    cases h4
    rw [vis_append, each_see hf hL (fun _ h => h) h2, vis_append, vis_append, outTags_vis (fun x o => quiet hf _ x o rfl) h3]
    rfl

theorem outOffset_see {i : Nat} {out : List Call} (h : outOffset env f what i cs = .ok out) : vis out = toSees env what cs := by
  rw [outOffset] at h
  obtain ⟨p, _, h⟩ := bind_ok.1 h
  obtain ⟨p, _, h⟩ := bind_ok.1 h
  obtain ⟨a, h1, h⟩ := bind_ok.1 h
  cases h
  have : vis ((ending what i (env.offset (.nt i .timeOffset cs)) false).filter (fun c => !(what == .tagTrans) || c != .eols i)) = [] := by
    have := ending_vis what i (env.offset (.nt i .timeOffset cs)) false
    rw [vis, List.filterMap_eq_nil_iff] at this ⊢
    exact fun c hc => this c (List.mem_filter.1 hc).1
  rw [vis_append, this, ind_see hf hL h1, List.append_nil]

theorem outSumtiTail_see {out : List Call} (h : outSumtiTail f what cs = .ok out) : vis out = toSees env what cs := by
  cases cs with
  | nil => cases h
  | cons c ds =>
    rw [outSumtiTail] at h
    obtain ⟨t, _, h⟩ := bind_ok.1 h
    split at h
    · obtain ⟨a, h1, h⟩ := bind_ok.1 h
      obtain ⟨b, h2, h⟩ := bind_ok.1 h
      obtain ⟨d, h3, h⟩ := bind_ok.1 h
      cases h
      have ha : vis a = toSee env what c := by
        unfold toSee
        cases hw : what.loj with
        | false => rw [hw] at h1; cases h1; rfl
        | true =>
          rw [hw] at h1
          obtain ⟨o, h4, h5⟩ := bind_ok.1 h1
          cases h5
          rw [vis_append, hf _ _ _ (.inl ⟨List.mem_cons_self .., hL.resolve_right (by rw [hw]; decide)⟩) h4, vis_cons, vis_nil]
          exact List.append_nil _
      have hd : vis d = [] := by
        cases hw : what.eng with
        | false => rw [hw] at h3; cases h3; rfl
        | true =>
          rw [hw] at h3
          obtain ⟨o, h4, h5⟩ := bind_ok.1 h3
          cases h5
          rw [vis_append, quiet hf _ _ _ rfl h4]; rfl
      rw [vis_append, vis_append, ha, hd, each_see hf hL (fun d hd => List.mem_cons_of_mem _ hd) h2, List.append_nil,
        ← toSees_flat, ← toSees_flat, List.flatMap_cons]
    · exact each_see hf hL (fun _ h => h) h

theorem outConnective_see {i : Nat} {out : List Call} (h : outConnective env f what i cs = .ok out) : vis out = toSees env what cs := by
  rw [outConnective] at h
  obtain ⟨a, h1, h⟩ := bind_ok.1 h
  obtain ⟨b, h2, h⟩ := bind_ok.1 h
  cases h
  have hb : vis b = [] := by
    unfold onlyIf at h2
    split at h2
    · split at h2
      · cases h2
      · exact meaning_vis (fun w x o => quiet hf w x o) h2
    · cases h2; rfl
  rw [vis_append, hb, ind_see hf hL h1, List.append_nil]

theorem outClustered_see {i : Nat} {t : NT} {out : List Call} (h : outClustered env f what i t cs = .ok out) :
    vis out = toSees env what cs := by
  rw [outClustered] at h
  split at h
  · obtain ⟨a, h1, h⟩ := bind_ok.1 h
    cases h
    rw [vis_append, engText_vis, ind_see hf hL h1, List.append_nil]
  · exact each_see hf hL (fun _ h => h) h

theorem inner_see {i : Nat} {t : NT} (ht : L → t = .observativeSentence → cs.length = 1) {out : List Call}
    (h : inner env f what i t cs = .ok out) : vis out = toSees env what cs := by
  have he : ∀ {o}, each (f what) cs = .ok o → vis o = toSees env what cs := fun h => each_see hf hL (fun _ h => h) h
  unfold inner at h
  split at h
  · split at h
    · exact parted_see hf hL h
    · exact he h
  · exact outTerm_see hf hL h
  · split at h
    · exact parted_see hf hL h
    · exact he h
  · split at h
    · rename_i c ds
      rw [hf _ _ _ (hL.imp_left fun hl => ⟨List.mem_cons_self .., hl⟩) h]
      rcases hL with hl | hw
      · have : ds = [] := by simpa using ht hl rfl
        subst this
        rw [← toSees_flat]; simp
      · rw [toSee, toSees, hw]; rfl
    · cases h
  · exact outOffset_see hf hL h
  · exact outClustered_see hf hL h
  · exact outClustered_see hf hL h
  · exact outClustered_see hf hL h
  · exact outSumtiTail_see hf hL h
  · split at h
    · exact parted_see hf hL h
    · exact he h
  · obtain ⟨b, _, h⟩ := bind_ok.1 h
    split at h
    · exact parted_see hf hL h
    · exact he h
  all_goals first
    | exact outConnective_see hf hL h
    | exact he h

end

theorem dotted_spelled (env : Env) (x : Node) (hx : ∀ i, x ≠ .zei i) : wordText env x = text env x := by
  have : compound x = false := by
    cases x <;> first | rfl | exact absurd rfl (hx _)
  rw [text, this, wordText, spelled, dotted]
  cases h : (env.word x).1.toList <;> simp

theorem bracketed_see (what : Show) (b : Br × Nat) (o : List Call) : vis (bracketed what b o) = if what.loj then enclose b (vis o) else vis o := by
  unfold bracketed enclose
  cases what.loj with
  | false => rfl
  | true =>
    rw [if_pos rfl, if_pos rfl, List.cons_append, vis_cons, vis_append, vis_cons, vis_nil]
    by_cases h : b.1 = .none <;> simp [seen, h]

/-- Sentences without terms before the selbri are one node. -/
def Whole (x : Node) : Prop := ∀ i cs, Sub x (.nt i .observativeSentence cs) → cs.length = 1

theorem output_see (env : Env) : ∀ (fuel : Nat) (what : Show) (x : Node) (out : List Call), Whole x ∨ what.loj = false →
    output env fuel what x = .ok out → vis out = toSee env what x := by
  intro fuel
  induction fuel with
  | zero => intro _ _ _ _ h; cases h
  | succ fuel ih =>
    intro what x out hx h
    have leafc : ∀ y : Node, (∀ i, y ≠ .zei i) → vis ((if what.loj = true then [.lojban (wordText env y)] else []) ++
        ending what y.id (env.word y).2 (indic y)) = if what.loj = true then [.word (text env y)] else [] := by
      intro y hy
      rw [vis_append, ending_vis, List.append_nil, dotted_spelled env y hy]
      cases what.loj <;> rfl
    cases x with
    | nt i t cs =>
      rw [output] at h
      obtain ⟨o, h1, h⟩ := bind_ok.1 h
      cases h
      rw [bracketed_see]
      have := inner_see (env := env) (f := output env fuel) (cs := cs) (L := Whole (.nt i t cs)) (fun w y o hy ho =>
        ih w y o (hy.imp_left fun hy j ds hs => hy.2 j ds (.child hy.1 hs)) ho) hx
          (fun hl e => by subst e; exact hl _ _ .refl) h1
      rw [this, toSee, toSees]
      cases what.loj <;> rfl
    | zei i =>
      rw [output] at h
      cases h
      rw [bracketed_see, vis_append, ending_vis, List.append_nil, toSee]
      cases what.loj <;> rfl
    | brivla i => unfold output at h; cases h; exact leafc _ nofun
    | cmavo i s w => unfold output at h; cases h; exact leafc _ nofun
    | leaf i => unfold output at h; cases h; exact leafc _ nofun

theorem observative_one : on .observativeSentence (fun its => its == [.n .bridiTail]) = true := by decide +kernel

theorem parse_whole {top : Node} (hp : Parse .chunks top) : Whole top := by
  intro i cs hs
  have h := sub_parse hp hs (by decide)
  obtain ⟨_, its, _, e, h1, hk⟩ := on_use observative_one h
  cases e
  rw [beq_iff_eq] at h1
  subst h1
  obtain ⟨c, rfl, _⟩ := only hk
  rfl

theorem enclose_text (b : Br × Nat) (ps : List Piece) : (enclose b ps).filterMap Piece.text? = ps.filterMap Piece.text? := by
  unfold enclose
  split
  · rfl
  · rw [List.filterMap_append, List.filterMap_append]
    exact List.append_nil _

mutual
theorem written_words (word : Node → String) (brac : Nat → Br × Nat) : ∀ x, (written word brac x).filterMap Piece.text? = (words x).map word
  | .nt i t cs => by rw [written, enclose_text, writtens_words, words]
  | .zei i => by rw [written, enclose_text]; rfl
  | .brivla i => rfl
  | .cmavo i s w => rfl
  | .leaf i => rfl
theorem writtens_words (word : Node → String) (brac : Nat → Br × Nat) : ∀ cs, (writtens word brac cs).filterMap Piece.text? = (wordss cs).map word
  | [] => rfl
  | c :: cs => by rw [writtens, List.filterMap_append, written_words, writtens_words, wordss, List.map_append]
end

theorem nested_enclose {b : Br × Nat} {ps : List Piece} (h : ∀ st r, nested st (ps ++ r) = nested st r) (st : List (Br × Nat)) (r : List Piece) :
    nested st (enclose b ps ++ r) = nested st r := by
  unfold enclose
  split
  · exact h st r
  · rw [List.append_assoc, List.append_assoc, List.singleton_append, nested, h, List.singleton_append, nested]
    simp

mutual
theorem written_nested (word : Node → String) (brac : Nat → Br × Nat) : ∀ x st r, nested st (written word brac x ++ r) = nested st r
  | .nt i t cs, st, r => by rw [written]; exact nested_enclose (writtens_nested word brac cs) st r
  | .zei i, st, r => by rw [written]; exact nested_enclose (fun st r => by cases st <;> rfl) st r
  | .brivla i, st, r => by cases st <;> rfl
  | .cmavo i s w, st, r => by cases st <;> rfl
  | .leaf i, st, r => by cases st <;> rfl
theorem writtens_nested (word : Node → String) (brac : Nat → Br × Nat) : ∀ cs st r, nested st (writtens word brac cs ++ r) = nested st r
  | [], _, _ => rfl
  | c :: cs, st, r => by rw [writtens, List.append_assoc, written_nested, writtens_nested]
end

/-- **The display shows the tree.**  For every tree of the grammar and whatever the glosses, labels and brackets are: if the output ends,
then what can be seen of the Lojban text is the tree written out, each word once and in its place. -/
theorem display (env : Env) (top : Node) (hp : Parse .chunks top) (fuel : Nat) (out : List Call) (h : output env fuel .both top = .ok out) :
    out.filterMap seen = written (text env) env.brac top :=
  output_see env fuel .both top out (.inl (parse_whole hp)) h

/-- The words shown are the words of the text, each once and in order. -/
theorem display_words (env : Env) (top : Node) (hp : Parse .chunks top) (fuel : Nat) (out : List Call) (h : output env fuel .both top = .ok out) :
    (out.filterMap seen).filterMap Piece.text? = (words top).map (text env) := by
  rw [display env top hp fuel out h, written_words]

/-- Every bracket that is opened is closed, in the reverse order, with its own number. -/
theorem display_nested (env : Env) (top : Node) (hp : Parse .chunks top) (fuel : Nat) (out : List Call) (h : output env fuel .both top = .ok out) :
    nested [] (out.filterMap seen) = true := by
  rw [display env top hp fuel out h]
  have := written_nested (text env) env.brac top [] []
  rw [List.append_nil] at this
  rw [this]; rfl

end Jbo.Output
