import Verif.FlowSpec
import Verif.TextBlkOut
/-!
# Theorems about `textout.c`, `htmlout.c` and `latex.c`: the pieces
-/

namespace Jbo.Flow
open Jbo.Output (Br Call)
open Jbo.Flow.Spec
open Jbo.Terms (Node)
open Jbo.Gram (Parse)

/-! ## Texts are kept apart -/

/-- The last text is followed by a blank. -/
def Clear (ts : List Tok) : Prop := ∀ a x b, ts = a ++ [x] ++ b → isText x → ∃ z ∈ b, isBlank z

theorem snoc_split {α : Type} {ts a b : List α} {t x : α} (h : ts ++ [t] = a ++ [x] ++ b) :
    (b = [] ∧ t = x ∧ ts = a) ∨ ∃ b', b = b' ++ [t] ∧ ts = a ++ [x] ++ b' := by
  rcases List.eq_nil_or_concat b with rfl | ⟨b', u, rfl⟩
  · rw [List.append_nil] at h
    have := List.append_inj' h rfl
    exact .inl ⟨rfl, by simpa using this.2, this.1⟩
  · rw [List.concat_eq_append, ← List.append_assoc] at h
    have := List.append_inj' h rfl
    have e : t = u := by simpa using this.2
    subst e
    exact .inr ⟨b', by rw [List.concat_eq_append], this.1⟩

theorem clear_nil : Clear [] := by
  intro a x b h
  simp at h

theorem clear_blank (ts : List Tok) {s : String} (hs : isBlank (.blank s) = true) : Clear (ts ++ [.blank s]) := by
  intro a x b h hx
  rcases snoc_split h with ⟨_, rfl, _⟩ | ⟨b', rfl, _⟩
  · cases hx
  · exact ⟨.blank s, by simp, hs⟩

theorem clear_snoc {ts : List Tok} {t : Tok} (h : Clear ts) (ht : isText t = false) : Clear (ts ++ [t]) := by
  intro a x b e hx
  rcases snoc_split e with ⟨_, rfl, _⟩ | ⟨b', rfl, e'⟩
  · rw [ht] at hx; cases hx
  · obtain ⟨z, hz, hb⟩ := h a x b' e' hx
    exact ⟨z, by simp [hz], hb⟩

theorem apart_nil : Apart [] := by
  intro a x b y c h
  simp at h

theorem apart_snoc {ts : List Tok} {t : Tok} (h : Apart ts) (ht : isText t = false ∨ Clear ts) : Apart (ts ++ [t]) := by
  intro a x b y c e hx hy
  rcases snoc_split (a := a ++ [x] ++ b) (x := y) (b := c) e with ⟨rfl, rfl, e'⟩ | ⟨c', rfl, e'⟩
  · rcases ht with ht | ht
    · rw [ht] at hy; cases hy
    · exact ht a x b e' hx
  · exact h a x b y c' e' hx hy

/-- Outside of a bracket just opened a text may stand last. -/
def Ph.fresh : Ph → Bool
  | .start | .opened => true
  | _ => false

structure Inv (s : St) : Prop where
  apart : Apart s.out
  clear : s.state.fresh = true → Clear s.out

theorem eol_blank (d : Driver) (n : Nat) : isBlank (.blank (eolText d n)) = true := by
  cases d with
  | latex => by_cases h : 1 < n <;> simp only [eolText, h, if_true, if_false] <;> decide
  | text => show isBlank (.blank "\n\n") = true; decide
  | html => show isBlank (.blank "\n<P><P>\n") = true; decide

theorem sep_blank (d : Driver) : isBlank (.blank (textSep d)) = true := by cases d <;> decide

theorem inv_eols {d : Driver} {s : St} (h : Inv s) : Inv (clearEols d s) := by
  unfold clearEols
  split
  · exact ⟨apart_snoc h.apart (.inl rfl), fun _ => clear_blank _ (eol_blank d _)⟩
  · exact h

/-- After `apart` the texts so far are clear of what comes. -/
theorem inv_apart {sep : String} {s : St} (hs : isBlank (.blank sep) = true) (h : Inv s) : Apart (apart sep s).out ∧ Clear (apart sep s).out := by
  have k := h.clear
  unfold Flow.apart
  cases e : s.state with
  | start => exact ⟨h.apart, k (by rw [e]; rfl)⟩
  | opened => exact ⟨h.apart, k (by rw [e]; rfl)⟩
  | text => exact ⟨apart_snoc h.apart (.inl rfl), clear_blank _ hs⟩
  | closed => exact ⟨apart_snoc h.apart (.inl rfl), clear_blank _ hs⟩

theorem inv_give {s : St} {t : Tok} (h : Inv s) (ht : isText t = false) : Inv (s.give t) :=
  ⟨apart_snoc h.apart (.inl ht), fun e => clear_snoc (h.clear e) ht⟩

theorem inv_step {d : Driver} {eolsOf : Nat → Nat} {s : St} (h : Inv s) (c : Call) : Inv (step d eolsOf s c) := by
  cases c with
  | opened b n =>
    have k := inv_apart (sep := " ") (by decide) (inv_eols (d := d) h)
    unfold step writeOpen
    by_cases hb : b = .none
    · simp only [hb, if_true]; exact ⟨k.1, fun _ => k.2⟩
    · simp only [hb, if_false]; exact ⟨apart_snoc k.1 (.inl rfl), fun _ => clear_snoc k.2 rfl⟩
  | closed b n =>
    unfold step writeClose
    have k : Apart (closeGap s).out := by
      unfold closeGap
      cases s.state with
      | opened => exact apart_snoc h.apart (.inl rfl)
      | _ => exact h.apart
    by_cases hb : b = .none
    · simp only [hb, if_true]; exact ⟨k, nofun⟩
    · simp only [hb, if_false]; exact ⟨apart_snoc k (.inl rfl), nofun⟩
  | lojban t =>
    have k := inv_apart (sep_blank d) h
    exact ⟨apart_snoc k.1 (.inr k.2), nofun⟩
  | translation t =>
    have k := inv_apart (sep_blank d) h
    exact ⟨apart_snoc k.1 (.inr k.2), nofun⟩
  | eols w => exact ⟨h.apart, h.clear⟩
  | startTags => exact ⟨(inv_give (t := .tagsStart) h rfl).apart, (inv_give (t := .tagsStart) h rfl).clear⟩
  | endTags =>
    have k := inv_give (t := .tagsEnd) h rfl
    refine ⟨k.apart, fun e => ?_⟩
    unfold step at e
    by_cases hd : d = .text
    · simp only [hd, if_true] at e; cases e
    · simp only [hd, if_false] at e; exact k.clear e
  | startTag =>
    have k := inv_give (t := .tagsNext) h rfl
    unfold step
    cases s.first with
    | true => exact ⟨h.apart, h.clear⟩
    | false => exact ⟨k.apart, k.clear⟩
  | tagText a b c e => exact inv_give h rfl
  | tagPart t => exact inv_give h rfl

theorem inv_steps {d : Driver} {eolsOf : Nat → Nat} : ∀ (cs : List Call) (s : St), Inv s → Inv (cs.foldl (step d eolsOf) s)
  | [], _, h => h
  | c :: cs, _, h => inv_steps cs _ (inv_step h c)

/-- **Texts do not run together.**  Whatever is asked of a driver, there is a blank between any two words or glosses. -/
theorem texts_apart (d : Driver) (eolsOf : Nat → Nat) (cs : List Call) : Apart (pieces d eolsOf cs) :=
  (inv_steps cs _ ⟨apart_nil, fun _ => clear_nil⟩).apart

/-! ## The pieces are those that were asked for -/

/-- A way to look at pieces that sees no blanks and no marks of labels, and what it sees of a call. -/
structure View (α : Type) where
  tok : Tok → Option α
  call : Call → Option α
  blank : ∀ s, tok (.blank s) = none
  tagsStart : tok .tagsStart = none
  tagsEnd : tok .tagsEnd = none
  tagsNext : tok .tagsNext = none
  opened : ∀ b n, call (.opened b n) = if b = .none then none else tok (.opened b n)
  closed : ∀ b n, call (.closed b n) = if b = .none then none else tok (.closed b n)
  word : ∀ s, call (.lojban s) = tok (.word s)
  gloss : ∀ s, call (.translation s) = tok (.gloss s)
  text : ∀ a b c e, call (.tagText a b c e) = tok (.tagText a b c e)
  part : ∀ s, call (.tagPart s) = tok (.tagPart s)
  others : ∀ w, call (.eols w) = none
  starts : call .startTags = none
  ends : call .endTags = none
  next : call .startTag = none

theorem view_give {α : Type} (v : View α) (s : St) (t : Tok) :
    (s.give t).out.filterMap v.tok = s.out.filterMap v.tok ++ (v.tok t).toList := by
  simp only [St.give, List.filterMap_append]
  cases h : v.tok t <;> simp [h]

theorem view_apart {α : Type} (v : View α) (sep : String) (s : St) :
    (apart sep s).out.filterMap v.tok = s.out.filterMap v.tok := by
  unfold apart
  split <;> simp [view_give, v.blank]

theorem view_eols {α : Type} (v : View α) (d : Driver) (s : St) :
    (clearEols d s).out.filterMap v.tok = s.out.filterMap v.tok := by
  unfold clearEols
  split
  · have := view_give v s (.blank (eolText d s.pending))
    rw [v.blank] at this
    simpa using this
  · rfl

theorem view_step {α : Type} (v : View α) (d : Driver) (eolsOf : Nat → Nat) (s : St) (c : Call) :
    (step d eolsOf s c).out.filterMap v.tok = s.out.filterMap v.tok ++ (v.call c).toList := by
  cases c with
  | opened b n =>
    rw [v.opened]
    unfold step writeOpen
    by_cases hb : b = .none
    · simp only [hb, if_true, view_apart, view_eols]; simp
    · simp only [hb, if_false, view_give, view_apart, view_eols]
  | closed b n =>
    rw [v.closed]
    have k : (closeGap s).out.filterMap v.tok = s.out.filterMap v.tok := by
      unfold closeGap
      cases s.state <;> simp [view_give, v.blank]
    unfold step writeClose
    by_cases hb : b = .none
    · simp only [hb, if_true, k]; simp
    · simp only [hb, if_false, view_give, k]
  | lojban t => rw [v.word]; simp only [step, writeText, view_give, view_apart]
  | translation t => rw [v.gloss]; simp only [step, writeText, view_give, view_apart]
  | eols w => rw [v.others]; simp [step]
  | startTags => rw [v.starts]; simp [step, view_give, v.tagsStart]
  | endTags => rw [v.ends]; simp [step, view_give, v.tagsEnd]
  | startTag =>
    rw [v.next]
    unfold step
    cases s.first <;> simp [view_give, v.tagsNext]
  | tagText a b c e => rw [v.text]; simp only [step, view_give]
  | tagPart t => rw [v.part]; simp only [step, view_give]

theorem view_steps {α : Type} (v : View α) (d : Driver) (eolsOf : Nat → Nat) : ∀ (cs : List Call) (s : St),
    (cs.foldl (step d eolsOf) s).out.filterMap v.tok = s.out.filterMap v.tok ++ cs.filterMap v.call
  | [], s => by simp
  | c :: cs, s => by
    rw [List.foldl_cons, view_steps v d eolsOf cs, view_step, List.append_assoc, List.filterMap_cons]
    cases v.call c <;> simp

theorem view_all {α : Type} (v : View α) (d : Driver) (eolsOf : Nat → Nat) (cs : List Call) :
    (pieces d eolsOf cs).filterMap v.tok = cs.filterMap v.call := by
  rw [pieces, view_steps]; rfl

/-- Words and brackets are those asked for, in order. -/
theorem pieces_seen (d : Driver) (eolsOf : Nat → Nat) (cs : List Call) :
    (pieces d eolsOf cs).filterMap piece = cs.filterMap Output.Spec.seen :=
  view_all ⟨piece, Output.Spec.seen, fun _ => rfl, rfl, rfl, rfl, fun _ _ => rfl, fun _ _ => rfl, fun _ => rfl,
    fun _ => rfl, fun _ _ _ _ => rfl, fun _ => rfl, fun _ => rfl, rfl, rfl, rfl⟩ d eolsOf cs

/-- Glosses are those asked for, in order. -/
theorem pieces_glosses (d : Driver) (eolsOf : Nat → Nat) (cs : List Call) :
    (pieces d eolsOf cs).filterMap glossOf = cs.filterMap glossSaid :=
  view_all ⟨glossOf, glossSaid, fun _ => rfl, rfl, rfl, rfl, fun _ _ => by simp [glossOf, glossSaid],
    fun _ _ => by simp [glossOf, glossSaid], fun _ => rfl,
    fun _ => rfl, fun _ _ _ _ => rfl, fun _ => rfl, fun _ => rfl, rfl, rfl, rfl⟩ d eolsOf cs

/-- Texts of labels are those asked for, in order. -/
theorem pieces_labels (d : Driver) (eolsOf : Nat → Nat) (cs : List Call) :
    (pieces d eolsOf cs).filterMap labelOf = cs.filterMap labelSaid :=
  view_all ⟨labelOf, labelSaid, fun _ => rfl, rfl, rfl, rfl, fun _ _ => by simp [labelOf, labelSaid],
    fun _ _ => by simp [labelOf, labelSaid], fun _ => rfl,
    fun _ => rfl, fun _ _ _ _ => rfl, fun _ => rfl, fun _ => rfl, rfl, rfl, rfl⟩ d eolsOf cs

/-- **The display in running text shows the tree.**  For every tree of the grammar and each of the three drivers: if the
output ends, then the words and brackets given out are the tree written out, the glosses and labels are those asked
for, and a blank is between any two texts. -/
theorem flow_shows_tree (env : Output.Env) (top : Node) (hp : Parse .chunks top) (fuel : Nat) (calls : List Call)
    (h : Output.output env fuel .both top = .ok calls) (d : Driver) (eolsOf : Nat → Nat) :
    (pieces d eolsOf calls).filterMap piece = Output.Spec.written (Output.text env) env.brac top ∧
      (pieces d eolsOf calls).filterMap glossOf = calls.filterMap glossSaid ∧
      (pieces d eolsOf calls).filterMap labelOf = calls.filterMap labelSaid ∧
      Apart (pieces d eolsOf calls) :=
  ⟨by rw [pieces_seen, Output.display env top hp fuel calls h], pieces_glosses .., pieces_labels .., texts_apart d eolsOf calls⟩

/-- The example *joi gi mi gi nai do klama* meets the hypotheses of `flow_shows_tree`. -/
def joiCalls : List Call := ((Output.output (Output.envOf (fun _ => false) Output.joiExample) 100 .both Output.joiExample).toOption).getD []

example : Parse .chunks Output.joiExample ∧
    Output.output (Output.envOf (fun _ => false) Output.joiExample) 100 .both Output.joiExample = .ok joiCalls ∧
    ((pieces .text (fun _ => 0) joiCalls).filterMap piece).length = 15 :=
  ⟨Gram.parse_of (by decide +kernel), by decide +kernel, by decide +kernel⟩

/-- A word, its gloss and another word. -/
example : (display .text (fun _ => 0) [.opened .round 1, .lojban "mi", .translation "I", .lojban "klama", .closed .round 1]).map
    String.ofList = .ok "(mi /I/ klama)" := by decide +kernel

/-- **The display in plain text does not show the kind of a bracket.**  In plain text a bracket for `ceil` and one for
`floor`, opened or closed, are printed in the same way. -/
theorem text_marks_alike (n m : Nat) (b c : Br) (hb : b = .ceil ∨ b = .floor) (hc : c = .ceil ∨ c = .floor) :
    printed .text (.opened b n) = printed .text (.closed c m) := by
  rcases hb with rfl | rfl <;> rcases hc with rfl | rfl <;> rfl

/-- In HTML the brackets for `ceil`, `floor` and `round` are printed in the same way, apart from the number. -/
theorem html_marks_alike (n : Nat) : printed .html (.opened .ceil n) = printed .html (.opened .round n) ∧
    printed .html (.opened .floor n) = printed .html (.opened .round n) := ⟨rfl, rfl⟩

/-- In LaTeX an opening bracket is told from all others. -/
theorem latex_marks_differ (b c : Br) (h : openMark .latex b = openMark .latex c) : b = c := by
  revert h; cases b <;> cases c <;> decide

/-- **An end of line before a word is lost or late.**  In all three drivers a word clears no pending ends of line. -/
theorem word_keeps_eols (d : Driver) (eolsOf : Nat → Nat) (s : St) (t : String) :
    (step d eolsOf s (.lojban t)).pending = s.pending := by
  unfold step writeText apart
  cases h : s.state <;> rfl

end Jbo.Flow
