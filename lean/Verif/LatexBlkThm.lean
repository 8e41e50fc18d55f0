import Verif.LatexBlkSpec
import Verif.FlowMark
/-!
# Theorems about `latexblk.c`
-/

namespace Jbo.LatexBlk
open Jbo.Output (Br Call)
open Jbo.Flow (Text Ph bufSize)
open Jbo.LatexBlk.Spec

deriving instance DecidableEq for Except

theorem bind_ok {α β : Type} {m : M α} {f : α → M β} {b : β} (h : (m >>= f) = .ok b) : ∃ a, m = .ok a ∧ f a = .ok b := by
  cases m with
  | error e => cases h
  | ok a => exact ⟨a, rfl, h⟩

theorem cat_ok {a t u : Text} (h : cat a t = .ok u) : u = a ++ t := by
  unfold cat at h
  split at h
  · cases h; rfl
  · cases h

theorem addTag_ok {a t u : Text} (h : addTag a t = .ok u) : u = a ++ t ∨ u = a ++ '\n' :: t := by
  unfold addTag at h
  split at h
  · cases h
  · exact .inl (cat_ok h)
  · exact .inr (cat_ok h)

/-- Lojban, English and labels, printed and still in the buffers. -/
def lojAll (s : St) : List Sym := s.out.flatMap lojShown ++ s.loj.map .ch
def engAll (s : St) : List Sym := s.out.flatMap engShown ++ s.eng.map .ch
def tagAll (s : St) : Text := s.out.flatMap tagShown ++ s.tag

/-- The texts are the same. -/
structure Same (s u : St) : Prop where
  loj : lojAll u = lojAll s
  eng : engAll u = engAll s
  tag : tagAll u = tagAll s
  first : u.first = s.first

theorem Same.trans {s u v : St} (h : Same s u) (k : Same u v) : Same s v :=
  ⟨k.loj.trans h.loj, k.eng.trans h.eng, k.tag.trans h.tag, k.first.trans h.first⟩

theorem same_refl (s : St) : Same s s := ⟨rfl, rfl, rfl, rfl⟩

theorem same_flush (s : St) : Same s (flushBlock s) := by
  refine ⟨?_, ?_, ?_, rfl⟩ <;> simp [flushBlock, lojAll, engAll, tagAll, lojShown, engShown, tagShown]

theorem same_eols (s : St) : Same s (clearEols s) := by
  unfold clearEols
  split
  · refine ⟨?_, ?_, ?_, rfl⟩ <;> simp [lojAll, engAll, tagAll, lojShown, engShown, tagShown]
  · exact same_refl s

theorem same_texts (s : St) : Same s (flushTexts s) := by
  unfold flushTexts
  split
  · exact same_flush s
  · exact same_refl s

theorem same_openGap (s : St) : Same s (openGap s) := by
  unfold openGap
  cases s.state <;> first
    | exact same_refl s
    | (refine ⟨?_, ?_, ?_, rfl⟩ <;> simp [lojAll, engAll, tagAll, lojShown, engShown, tagShown])

theorem same_closeGap (s : St) : Same s (closeGap s) := by
  unfold closeGap
  cases s.state <;> first
    | exact same_refl s
    | (refine ⟨?_, ?_, ?_, rfl⟩ <;> simp [lojAll, engAll, tagAll, lojShown, engShown, tagShown])

theorem texts_empty (s : St) : (flushTexts s).loj = [] ∧ (flushTexts s).eng = [] := by
  unfold flushTexts
  split
  · exact ⟨rfl, rfl⟩
  · rename_i h
    simpa using h

theorem openGap_texts (s : St) : (openGap s).loj = s.loj ∧ (openGap s).eng = s.eng := by
  unfold openGap; cases s.state <;> exact ⟨rfl, rfl⟩
theorem closeGap_texts (s : St) : (closeGap s).loj = s.loj ∧ (closeGap s).eng = s.eng := by
  unfold closeGap; cases s.state <;> exact ⟨rfl, rfl⟩
theorem eols_texts (s : St) : (clearEols s).loj = s.loj ∧ (clearEols s).eng = s.eng := by
  unfold clearEols; split <;> exact ⟨rfl, rfl⟩

/-- What a call adds. -/
def lojSaid (c : Call) : List Sym := (Output.Spec.seen c).toList.flatMap wrote

theorem joined_append (a b : Text) : joined (a ++ b) = joined a ++ joined b := List.filter_append ..

/-- All that is said so far is printed or in the buffers. -/
theorem step_says {eolsOf : Nat → Nat} {s u : St} {c : Call} (h : step eolsOf s c = .ok u) :
    lojAll u = lojAll s ++ lojSaid c ∧ engAll u = engAll s ++ english c ∧
      ∀ cs, joined (tagAll u) ++ joined (labels u.first cs) = joined (tagAll s) ++ joined (labels s.first (c :: cs)) := by
  cases c with
  | opened b n =>
    cases h
    unfold writeOpen
    by_cases hb : b = .none
    · simp [hb, lojSaid, Output.Spec.seen, english, labels]
    · have k := ((same_texts s).trans (same_eols _)).trans (same_openGap _)
      have e : (openGap (clearEols (flushTexts s))).loj = [] ∧ (openGap (clearEols (flushTexts s))).eng = [] := by
        rw [(openGap_texts _).1, (openGap_texts _).2, (eols_texts _).1, (eols_texts _).2]; exact texts_empty s
      simp only [hb, if_false]
      generalize openGap (clearEols (flushTexts s)) = v at k e
      refine ⟨?_, ?_, fun cs => ?_⟩
      · rw [← k.loj]; simp [lojAll, e, lojShown, lojSaid, Output.Spec.seen, hb, wrote]
      · rw [← k.eng]; simp [engAll, e, engShown, english, hb]
      · rw [← k.tag, ← k.first]; simp [tagAll, tagShown, labels]
  | closed b n =>
    cases h
    unfold writeClose
    by_cases hb : b = .none
    · simp [hb, lojSaid, Output.Spec.seen, english, labels]
    · have k := (same_texts s).trans (same_closeGap _)
      have e : (closeGap (flushTexts s)).loj = [] ∧ (closeGap (flushTexts s)).eng = [] := by
        rw [(closeGap_texts _).1, (closeGap_texts _).2]; exact texts_empty s
      simp only [hb, if_false]
      generalize closeGap (flushTexts s) = v at k e
      refine ⟨?_, ?_, fun cs => ?_⟩
      · rw [← k.loj]; simp [lojAll, e, lojShown, lojSaid, Output.Spec.seen, hb, wrote]
      · rw [← k.eng]; simp [engAll, e, engShown, english, hb]
      · rw [← k.tag, ← k.first]; simp [tagAll, tagShown, labels]
  | lojban t =>
    have k : Same s (clearEols (if s.eng ≠ [] then flushBlock s else s)) := by
      split
      · exact (same_flush s).trans (same_eols _)
      · exact same_eols s
    obtain ⟨a, h1, h⟩ := bind_ok h
    cases h
    have e := cat_ok h1
    generalize clearEols (if s.eng ≠ [] then flushBlock s else s) = v at k e
    subst e
    refine ⟨?_, ?_, fun cs => ?_⟩
    · rw [← k.loj]; simp [lojAll, lojSaid, Output.Spec.seen, wrote]
    · rw [← k.eng]; simp [engAll, english]
    · rw [← k.tag, ← k.first]; simp [tagAll, labels]
  | translation t =>
    obtain ⟨a, h1, h⟩ := bind_ok h
    obtain ⟨b, h2, h⟩ := bind_ok h
    cases h
    have e := cat_ok h2
    subst e
    refine ⟨?_, ?_, fun cs => ?_⟩
    · simp [lojAll, lojSaid, Output.Spec.seen]
    · simp [engAll, english, h1, Except.toOption]
    · simp [tagAll, labels]
  | eols w =>
    cases h
    refine ⟨?_, ?_, fun cs => ?_⟩
    · simp [lojAll, lojSaid, Output.Spec.seen]
    · simp [engAll, english]
    · simp [tagAll, labels]
  | startTags =>
    have k := (same_texts s).trans (same_eols _)
    obtain ⟨a, h1, h⟩ := bind_ok h
    cases h
    have e := cat_ok h1
    generalize clearEols (flushTexts s) = v at k e
    subst e
    refine ⟨?_, ?_, fun cs => ?_⟩
    · rw [← k.loj]; simp [lojAll, lojSaid, Output.Spec.seen]
    · rw [← k.eng]; simp [engAll, english]
    · rw [← k.tag]; simp [tagAll, labels, joined]
  | endTags =>
    obtain ⟨a, h1, h⟩ := bind_ok h
    cases h
    have e := cat_ok h1
    subst e
    refine ⟨?_, ?_, fun cs => ?_⟩
    · simp [lojAll, lojSaid, Output.Spec.seen]
    · simp [engAll, english]
    · simp [tagAll, labels, joined]
  | startTag =>
    obtain ⟨a, h1, h⟩ := bind_ok h
    cases h
    have e := cat_ok h1
    subst e
    refine ⟨?_, ?_, fun cs => ?_⟩
    · simp [lojAll, lojSaid, Output.Spec.seen]
    · simp [engAll, english]
    · cases s.first <;> simp [tagAll, labels, joined]
  | tagText a b c d =>
    obtain ⟨x, h1, h⟩ := bind_ok h
    obtain ⟨y, h2, h⟩ := bind_ok h
    cases h
    refine ⟨?_, ?_, fun cs => ?_⟩
    · simp [lojAll, lojSaid, Output.Spec.seen]
    · simp [engAll, english]
    · rcases addTag_ok h2 with rfl | rfl <;> simp [tagAll, labels, joined, h1, Except.toOption]
  | tagPart t =>
    obtain ⟨x, h1, h⟩ := bind_ok h
    obtain ⟨y, h2, h⟩ := bind_ok h
    cases h
    have e := cat_ok h1
    refine ⟨?_, ?_, fun cs => ?_⟩
    · simp [lojAll, lojSaid, Output.Spec.seen]
    · simp [engAll, english]
    · rcases addTag_ok h2 with rfl | rfl <;> simp [tagAll, labels, joined, e]

theorem steps_say {eolsOf : Nat → Nat} : ∀ {cs : List Call} {s u : St}, cs.foldlM (step eolsOf) s = .ok u →
    lojAll u = lojAll s ++ cs.flatMap lojSaid ∧ engAll u = engAll s ++ cs.flatMap english ∧
      joined (tagAll u) = joined (tagAll s) ++ joined (labels s.first cs)
  | [], s, u, h => by cases h; simp [labels, joined]
  | c :: cs, s, u, h => by
    rw [List.foldlM_cons] at h
    obtain ⟨v, h1, h2⟩ := bind_ok h
    obtain ⟨a1, a2, a3⟩ := step_says h1
    obtain ⟨b1, b2, b3⟩ := steps_say h2
    refine ⟨?_, ?_, ?_⟩
    · rw [b1, a1, List.flatMap_cons, List.append_assoc]
    · rw [b2, a2, List.flatMap_cons, List.append_assoc]
    · rw [b3, a3]

theorem said_seen (cs : List Call) : cs.flatMap lojSaid = (cs.filterMap Output.Spec.seen).flatMap wrote := by
  induction cs with
  | nil => rfl
  | cons c cs ih =>
    rw [List.flatMap_cons, ih, List.filterMap_cons, lojSaid]
    cases Output.Spec.seen c <;> simp

/-- **Nothing is lost on the way.**  Whatever is asked of the driver: what it has printed, and after it what is still in
its buffers, is all that it was given, in order. -/
theorem conserved (eolsOf : Nat → Nat) (cs : List Call) (s : St) (h : run eolsOf cs = .ok s) :
    s.out.flatMap lojShown ++ s.loj.map .ch = (cs.filterMap Output.Spec.seen).flatMap wrote ∧
      s.out.flatMap engShown ++ s.eng.map .ch = cs.flatMap english ∧
      joined (s.out.flatMap tagShown ++ s.tag) = joined (labels false cs) := by
  obtain ⟨h1, h2, h3⟩ := steps_say h
  rw [← said_seen]
  exact ⟨h1, h2, h3⟩

/-- Neither a word nor a gloss. -/
def Silent : Call → Prop
  | .lojban _ | .translation _ => False
  | _ => True

theorem silent_step {eolsOf : Nat → Nat} {s u : St} {c : Call} (hc : Silent c) (h : step eolsOf s c = .ok u)
    (e : s.loj = [] ∧ s.eng = []) : u.loj = [] ∧ u.eng = [] := by
  cases c with
  | opened b n =>
    cases h
    unfold writeOpen
    split
    · exact e
    · simp only [openGap_texts, eols_texts]; exact texts_empty s
  | closed b n =>
    cases h
    unfold writeClose
    split
    · exact e
    · simp only [closeGap_texts]; exact texts_empty s
  | lojban t => exact hc.elim
  | translation t => exact hc.elim
  | eols w => cases h; exact e
  | startTags =>
    obtain ⟨a, h1, h⟩ := bind_ok h
    cases h
    simp only [eols_texts]; exact texts_empty s
  | endTags => obtain ⟨a, h1, h⟩ := bind_ok h; cases h; exact e
  | startTag => obtain ⟨a, h1, h⟩ := bind_ok h; cases h; exact e
  | tagText a b c d =>
    obtain ⟨x, h1, h⟩ := bind_ok h
    obtain ⟨y, h2, h⟩ := bind_ok h
    cases h; exact e
  | tagPart t =>
    obtain ⟨x, h1, h⟩ := bind_ok h
    obtain ⟨y, h2, h⟩ := bind_ok h
    cases h; exact e

theorem silent_steps {eolsOf : Nat → Nat} : ∀ {cs : List Call} {s u : St}, (∀ c ∈ cs, Silent c) →
    cs.foldlM (step eolsOf) s = .ok u → s.loj = [] ∧ s.eng = [] → u.loj = [] ∧ u.eng = []
  | [], s, u, _, h, e => by cases h; exact e
  | c :: cs, s, u, hc, h, e => by
    rw [List.foldlM_cons] at h
    obtain ⟨v, h1, h2⟩ := bind_ok h
    exact silent_steps (fun d hd => hc d (by simp [hd])) h2 (silent_step (hc c (by simp)) h1 e)

/-- **The display shows the text.**  Full statement: for every tree of the grammar the Lojban lines are the tree written
out, and the English lines are all glosses.  Here: if no word or gloss comes after the last bracket.  Missing: texts
after the last bracket are never printed (`trailing_word_lost`, `last_i_lost`). -/
theorem shows_tree_partial (env : Output.Env) (top : Terms.Node) (hp : Gram.Parse .chunks top) (fuel : Nat)
    (calls cs rest : List Call) (b : Br) (n : Nat) (hb : b ≠ .none) (hc : calls = cs ++ .closed b n :: rest)
    (hr : ∀ c ∈ rest, Silent c) (h : Output.output env fuel .both top = .ok calls) (eolsOf : Nat → Nat)
    (out : List Item) (hd : display eolsOf calls = .ok out) :
    out.flatMap lojShown = (Output.Spec.written (Output.text env) env.brac top).flatMap wrote ∧
      out.flatMap engShown = calls.flatMap english := by
  obtain ⟨s, h1, h2⟩ := bind_ok hd
  cases h2
  obtain ⟨k1, k2, _⟩ := conserved eolsOf _ s h1
  have e : s.loj = [] ∧ s.eng = [] := by
    rw [hc] at h1
    unfold run at h1
    rw [List.foldlM_append] at h1
    obtain ⟨v, _, h3⟩ := bind_ok h1
    rw [List.foldlM_cons] at h3
    obtain ⟨w, h4, h5⟩ := bind_ok h3
    refine silent_steps hr h5 ?_
    cases h4
    unfold writeClose
    simp only [hb, if_false, closeGap_texts]
    exact texts_empty v
  rw [e.1, List.map_nil, List.append_nil, Output.display env top hp fuel _ h] at k1
  rw [e.2, List.map_nil, List.append_nil] at k2
  exact ⟨k1, k2⟩

/-- Calls that end no block: brackets that are not seen, glosses and ends of line. -/
def Trailing : Call → Prop
  | .opened b _ | .closed b _ => b = .none
  | .translation _ | .eols _ => True
  | _ => False

theorem trailing_steps {eolsOf : Nat → Nat} : ∀ {cs : List Call} {s u : St}, (∀ c ∈ cs, Trailing c) →
    cs.foldlM (step eolsOf) s = .ok u → u.loj = s.loj
  | [], s, u, _, h => by cases h; rfl
  | c :: cs, s, u, hc, h => by
    rw [List.foldlM_cons] at h
    obtain ⟨v, h1, h2⟩ := bind_ok h
    rw [trailing_steps (fun d hd => hc d (by simp [hd])) h2]
    have k := hc c (by simp)
    cases c with
    | opened b n => cases h1; rw [writeOpen, if_pos (show b = .none from k)]
    | closed b n => cases h1; rw [writeClose, if_pos (show b = .none from k)]
    | translation t =>
      obtain ⟨a, _, h1⟩ := bind_ok h1
      obtain ⟨d, _, h1⟩ := bind_ok h1
      cases h1; rfl
    | eols w => cases h1; rfl
    | _ => exact k.elim

/-- **A word at the end is never printed.**  If no bracket that can be seen comes after the last word, then what is
printed is not the text. -/
theorem trailing_word_lost (eolsOf : Nat → Nat) (cs rest : List Call) (t : String) (hr : ∀ c ∈ rest, Trailing c)
    (out : List Item) (hd : display eolsOf (cs ++ .lojban t :: rest) = .ok out) :
    out.flatMap lojShown ≠ ((cs ++ Call.lojban t :: rest).filterMap Output.Spec.seen).flatMap wrote := by
  obtain ⟨s, h1, h2⟩ := bind_ok hd
  cases h2
  obtain ⟨k1, _, _⟩ := conserved eolsOf _ s h1
  have e : s.loj ≠ [] := by
    unfold run at h1
    rw [List.foldlM_append] at h1
    obtain ⟨v, _, h3⟩ := bind_ok h1
    rw [List.foldlM_cons] at h3
    obtain ⟨w, h4, h5⟩ := bind_ok h3
    rw [trailing_steps hr h5]
    obtain ⟨a, h6, h7⟩ := bind_ok h4
    cases h7
    rw [cat_ok h6]
    simp
  intro e'
  rw [← k1] at e'
  have := congrArg List.length e'
  simp at this
  exact e this

/-- A word after a bracket, and its gloss. -/
example : (display (fun _ => 0) [.opened .square 1, .lojban "mi", .closed .square 1, .lojban ".i", .translation "and"]) =
    .ok [.opened .square 1, .block " mi".toList [] [], .space, .closed .square 1] := by decide +kernel

/-! ## Texts of the grammar -/

instance (c : Call) : Decidable (Silent c) := by unfold Silent; split <;> infer_instance

/-- The calls up to the last bracket that can be seen. -/
def upTo : Nat := Flow.joiCalls.length - 1 - (Flow.joiCalls.reverse.findIdx (· = .closed .square 1))

/-- The example *joi gi mi gi nai do klama* meets the hypotheses of `shows_tree_partial`. -/
example : Gram.Parse .chunks Output.joiExample ∧
    Flow.joiCalls = Flow.joiCalls.take upTo ++ .closed .square 1 :: Flow.joiCalls.drop (upTo + 1) ∧
    (∀ c ∈ Flow.joiCalls.drop (upTo + 1), Silent c) ∧
    Output.output (Output.envOf (fun _ => false) Output.joiExample) 100 .both Output.joiExample = .ok Flow.joiCalls ∧
    (display (fun _ => 0) Flow.joiCalls).toOption.isSome = true :=
  ⟨Gram.parse_of (by decide +kernel), by decide +kernel, by decide +kernel, by decide +kernel, by decide +kernel⟩

open Jbo.Gram in
/-- *mi klama .i* -/
def klamaI : Terms.Node := (Output.number 0 (.nt 0 .chunks (up [.text, .text1, .paragraphs] [.nt 0 .paragraph
  (up [.paragraph, .statement, .innerStatement, .statement1, .statement2, .statement3, .sentence, .noCuSentence]
    (up [.terms, .terms1, .terms2] [kohaTerm 0 "mi"] ++ tailOf' [.brivla 0] []) ++
    up [.iOptFreeSeq] [.cmavo 0 .I "i"])]))).1

/-- The calls for it. -/
def klamaICalls : List Call := ((Output.output (Output.envOf (fun _ => false) klamaI) 100 .both klamaI).toOption).getD []

/-- **The last `.i` of a text is lost.**  *mi klama .i* is a text of the grammar and its output ends; the words shown end
with *klama*. -/
theorem last_i_lost : Gram.Parse .chunks klamaI ∧
    Output.output (Output.envOf (fun _ => false) klamaI) 100 .both klamaI = .ok klamaICalls ∧
    (Output.Spec.words klamaI).length = 3 ∧
    ∃ out, display (fun _ => 0) klamaICalls = .ok out ∧
      out.flatMap lojShown ++ " .i".toList.map .ch = (klamaICalls.filterMap Output.Spec.seen).flatMap wrote :=
  ⟨Gram.parse_of (by decide +kernel), by decide +kernel, by decide +kernel,
    ((display (fun _ => 0) klamaICalls).toOption).getD [], by decide +kernel, by decide +kernel⟩

end Jbo.LatexBlk
