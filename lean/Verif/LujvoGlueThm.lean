import Verif.LujvoValidThm
/-!
# The words the lujvo maker glues together are lujvo (C23)
-/

namespace Jbo.Lujvo

open Jbo Spec

variable {a b c d e : Char} {t : Word} {n : Nat} {st : Bool}

/-- A component that may stand before another one. -/
def MidOk (r : Word) : Prop :=
  Rafsi .cvcc r ∨ Rafsi .ccvc r ∨ Rafsi .cvc r ∨ Rafsi .cvv r ∨ Rafsi .cvhv r ∨ Rafsi .ccv r

/-- A component that may stand at the end. -/
def LastOk (r : Word) : Prop :=
  Rafsi .cvccv r ∨ Rafsi .ccvcv r ∨ Rafsi .cvv r ∨ Rafsi .cvhv r ∨ Rafsi .ccv r

/-- A list of components, each fit for its place. -/
inductive Parts : List Word → Prop
  | last {r} : LastOk r → Parts [r]
  | cons {r rs} : MidOk r → Parts rs → Parts (r :: rs)

/-- The first three letters of any component. -/
def Head (r : Word) : Prop := ∃ x y z u, r = x :: y :: z :: u ∧ C x ∧
  ((C y ∧ Initial x y) ∨ V y) ∧ z ≠ 'y'

theorem head_of_mid {r : Word} (h : MidOk r) : Head r := by
  rcases h with h | h | h | h | h | h
  · obtain ⟨a, b, c, d, rfl, ha, hb, hc, _⟩ := shape_cvcc h
    exact ⟨_, _, _, _, rfl, ha, .inr hb, hc.ne_y⟩
  · obtain ⟨a, b, c, d, rfl, ha, hb, hc, _, hi⟩ := shape_ccvc h
    exact ⟨_, _, _, _, rfl, ha, .inl ⟨hb, hi⟩, hc.ne_y⟩
  · obtain ⟨a, b, c, rfl, ha, hb, hc⟩ := shape_cvc h
    exact ⟨_, _, _, _, rfl, ha, .inr hb, hc.ne_y⟩
  · obtain ⟨a, b, c, rfl, ha, hb, hc⟩ := shape_cvv h
    exact ⟨_, _, _, _, rfl, ha, .inr hb, hc.ne_y⟩
  · obtain ⟨a, b, c, rfl, ha, hb, hc⟩ := shape_cvhv h
    exact ⟨_, _, _, _, rfl, ha, .inr hb, by decide⟩
  · obtain ⟨a, b, c, rfl, ha, hb, hc, hi⟩ := shape_ccv h
    exact ⟨_, _, _, _, rfl, ha, .inl ⟨hb, hi⟩, hc.ne_y⟩

theorem head_of_last {r : Word} (h : LastOk r) : Head r := by
  rcases h with h | h | h | h | h
  · obtain ⟨a, b, c, d, e, rfl, ha, hb, hc, _⟩ := shape_cvccv h
    exact ⟨_, _, _, _, rfl, ha, .inr hb, hc.ne_y⟩
  · obtain ⟨a, b, c, d, e, rfl, ha, hb, hc, _, _, hi⟩ := shape_ccvcv h
    exact ⟨_, _, _, _, rfl, ha, .inl ⟨hb, hi⟩, hc.ne_y⟩
  · obtain ⟨a, b, c, rfl, ha, hb, hc⟩ := shape_cvv h
    exact ⟨_, _, _, _, rfl, ha, .inr hb, hc.ne_y⟩
  · obtain ⟨a, b, c, rfl, ha, hb, hc⟩ := shape_cvhv h
    exact ⟨_, _, _, _, rfl, ha, .inr hb, by decide⟩
  · obtain ⟨a, b, c, rfl, ha, hb, hc, hi⟩ := shape_ccv h
    exact ⟨_, _, _, _, rfl, ha, .inl ⟨hb, hi⟩, hc.ne_y⟩

theorem Parts.head {r : Word} {rs : List Word} (h : Parts (r :: rs)) : Head r := by
  cases h with
  | last h => exact head_of_last h
  | cons h _ => exact head_of_mid h

/-- The glued rest of the word behind the first component. -/
def rest (rs : List Word) : Word := glueWord rs (glueFrom none rs)

theorem rest_single (r : Word) : rest [r] = r := by simp [rest, glueFrom, glueWord]

theorem rest_cons (r b : Word) (rs : List Word) :
    rest (r :: b :: rs) = r ++ (yGlue none r b).toList ++ rest (b :: rs) := by
  simp [rest, glueFrom, glueWord]

theorem rest_prefix (r : Word) (rs : List Word) : ∃ u, rest (r :: rs) = r ++ u := by
  cases rs with
  | nil => exact ⟨[], by simp [rest_single]⟩
  | cons b rs => exact ⟨_, by rw [rest_cons, List.append_assoc]⟩

theorem joins_head {b u : Word} (hc : C c) (hb : Head b) :
    Joins c (b ++ u) ↔ Joins c b := by
  obtain ⟨x, y, z, v, rfl, _⟩ := hb
  simp [Joins]

/-- A consonant may stand before `b` exactly when `can_join` says so. -/
theorem canJoin_cons {p b : Word} (hc : C c) (hb : Head b) :
    canJoin (p ++ [c]) b = decide (Joins c b) := by
  obtain ⟨x, y, z, v, rfl, hx, hy, _⟩ := hb
  have hl : (p ++ [c]).getLastD '\x00' = c := by simp [List.getLastD_eq_getLast?]
  unfold canJoin
  simp only [hl, chr, List.getD_cons_zero, List.getD_cons_succ]
  rw [pairok_iff hc hx]
  rcases hy with ⟨hyc, hi⟩ | hyv
  · rw [hyc.isC, if_pos rfl, initialok_iff hx hyc]
    by_cases hm : Medial c x <;> by_cases hb : [c, x, y] ∈ badTriples <;>
      simp [Joins, hm, hb, hi]
    · revert hb
      simp only [badTriples, List.mem_cons, List.cons.injEq, List.not_mem_nil, or_false, and_true]
      rintro (⟨rfl, rfl, rfl⟩ | ⟨rfl, rfl, rfl⟩ | ⟨rfl, rfl, rfl⟩ | ⟨rfl, rfl, rfl⟩) <;> decide
    · by_cases hn : c = 'n'
      · right
        subst hn
        simp only [badTriples, List.mem_cons, List.cons.injEq, List.not_mem_nil, or_false, and_true,
          true_and, not_or] at hb
        simpa [pairIs, and_assoc] using hb
      · exact .inl hn
  · rw [hyv.isC, if_neg (by simp)]
    have hb : [c, x, y] ∉ badTriples := by
      simp only [badTriples, List.mem_cons, List.cons.injEq, List.not_mem_nil, or_false, and_true]
      rintro (⟨_, _, rfl⟩ | ⟨_, _, rfl⟩ | ⟨_, _, rfl⟩ | ⟨_, _, rfl⟩) <;> revert hyv <;> decide
    by_cases hm : Medial c x <;> simp [Joins, hm, hb]

theorem V.ne_n {a : Char} (h : V a) : a ≠ 'n' := by revert a; unfold V; decide

/-- After a vowel anything can follow. -/
theorem canJoin_vowel {p b : Word} (hc : V c) (hb : Head b) : canJoin (p ++ [c]) b = true := by
  obtain ⟨x, y, z, v, rfl, hx, hy, _⟩ := hb
  have hl : (p ++ [c]).getLastD '\x00' = c := by simp [List.getLastD_eq_getLast?]
  unfold canJoin
  simp only [hl, chr, List.getD_cons_zero, List.getD_cons_succ]
  rw [pairok_vowel hc hx]
  rcases hy with ⟨hyc, hi⟩ | hyv
  · rw [hyc.isC, if_pos rfl, initialok_iff hx hyc]
    simp [hi, V.ne_n hc]
  · rw [hyv.isC, if_neg (by simp)]

/-! ## The glue between components -/

theorem yGlue_cvc (hc : C c) {b' : Word} (hb : Head b') :
    yGlue none [a, b, c] b' = if Joins c b' then none else some 'y' := by
  have := canJoin_cons (p := [a, b]) hc hb
  simp only [List.cons_append, List.nil_append] at this
  by_cases hj : Joins c b' <;> simp [yGlue, this, hj]

theorem yGlue_3v (hc : V c) {b' : Word} (hb : Head b') : yGlue none [a, b, c] b' = none := by
  have := canJoin_vowel (p := [a, b]) hc hb
  simp only [List.cons_append, List.nil_append] at this
  simp [yGlue, this]

theorem yGlue_cvhv (hc : V c) {b' : Word} (hb : Head b') :
    yGlue none [a, b, '\'', c] b' = none := by
  have := canJoin_vowel (p := [a, b, '\'']) hc hb
  simp only [List.cons_append, List.nil_append] at this
  simp [yGlue, this, chr]

theorem yGlue_4 {g : Option Char} (h : c ≠ '\'') (b' : Word) :
    yGlue g [a, b, c, d] b' = some 'y' := by
  simp [yGlue, chr, h]

/-- The glued components behind the first one are the tail of a lujvo. -/
theorem rest_tail {rs : List Word} (h : Parts rs) : Tail true rs.length (rest rs) := by
  induction h with
  | @last r h =>
    rw [rest_single]
    rcases h with h | h | h | h | h
    · exact .cvccv h
    · obtain ⟨a, b, c, d, e, rfl, ha, hb, hc, hd, he, hi⟩ := shape_ccvcv h
      exact .ccvcv h.1 (Initial.medial hi) (fun _ => hi)
    · exact .cvv h
    · exact .cvhv h
    · exact .ccv h
  | @cons r rs h hrs ih =>
    cases rs with
    | nil => cases hrs
    | cons b' rs =>
    have hb := hrs.head
    rw [rest_cons]
    obtain ⟨u, hu⟩ := rest_prefix b' rs
    rcases h with h | h | h | h | h | h
    · obtain ⟨a, b, c, d, rfl, ha, hb', hc, hd, _⟩ := shape_cvcc h
      rw [yGlue_4 hc.ne_apos]
      simpa using Tail.cvccy h ih
    · obtain ⟨a, b, c, d, rfl, ha, hb', hc, hd, _⟩ := shape_ccvc h
      rw [yGlue_4 hc.ne_apos]
      simpa using Tail.ccvcy h ih
    · obtain ⟨a, b, c, rfl, ha, hb', hc⟩ := shape_cvc h
      rw [yGlue_cvc hc hb]
      by_cases hj : Joins c b'
      · rw [if_pos hj]
        exact Tail.cvcJoin ha hb' hc ih (by rw [hu]; exact (joins_head hc hb).2 hj)
      · rw [if_neg hj]
        exact Tail.cvcy ha hb' hc ih (by rw [hu]; exact fun hn => hj ((joins_head hc hb).1 hn))
    · obtain ⟨a, b, c, rfl, ha, hb', hc⟩ := shape_cvv h
      rw [yGlue_3v hc hb]
      exact Tail.cvvMore h ih
    · obtain ⟨a, b, c, rfl, ha, hb', hc⟩ := shape_cvhv h
      rw [yGlue_cvhv hc hb]
      exact Tail.cvhvMore h ih
    · obtain ⟨a, b, c, rfl, ha, hb', hc, hi⟩ := shape_ccv h
      rw [yGlue_3v hc hb]
      exact Tail.ccvMore h ih

/-! ## Strictness -/

theorem tail_mono (h : Tail true n t) : Tail false n t := by
  induction h with
  | cvccv h => exact .cvccv h
  | ccvcv h hm _ => exact .ccvcv h hm (by simp)
  | cvv h => exact .cvv h
  | cvhv h => exact .cvhv h
  | ccv h => exact .ccv h
  | cvccy h _ ih => exact .cvccy h ih
  | ccvcy h _ ih => exact .ccvcy h ih
  | cvcJoin ha hb hc _ hj ih => exact .cvcJoin ha hb hc ih hj
  | cvcy ha hb hc _ hj ih => exact .cvcy ha hb hc ih hj
  | cvvMore h _ ih => exact .cvvMore h ih
  | cvhvMore h _ ih => exact .cvhvMore h ih
  | ccvMore h _ ih => exact .ccvMore h ih

theorem cc_mono {w : Word} (h : CcLujvo true w) : CcLujvo false w := by
  cases h with
  | single h => exact .single h
  | ccv h ht => exact .ccv h (tail_mono ht)
  | ccvcy h ht => exact .ccvcy h (tail_mono ht)

/-- If the last five letters look like CCVCV, they start with a permitted initial pair. -/
def GoodEnd (w : Word) : Prop :=
  ∀ p a b c d e, w = p ++ [a, b, c, d, e] → HasShape .ccvcv [a, b, c, d, e] → Initial a b

theorem GoodEnd.suffix {p w : Word} (h : GoodEnd (p ++ w)) : GoodEnd w := by
  intro q a b c d e hw hs
  exact h (p ++ q) a b c d e (by rw [hw, List.append_assoc]) hs

theorem GoodEnd.cons {w : Word} (h : GoodEnd (a :: w)) : GoodEnd w :=
  GoodEnd.suffix (p := [a]) h

theorem tail_strict (h : Tail false n t) (hg : GoodEnd t) : Tail true n t := by
  induction h with
  | cvccv h => exact .cvccv h
  | @ccvcv a b w h hm _ =>
    match w, h with
    | [c, d, e], h => exact .ccvcv h hm (fun _ => hg [] a b c d e rfl h)
  | cvv h => exact .cvv h
  | cvhv h => exact .cvhv h
  | ccv h => exact .ccv h
  | cvccy h _ ih => exact .cvccy h (ih hg.suffix.cons)
  | ccvcy h _ ih => exact .ccvcy h (ih hg.suffix.cons)
  | cvcJoin ha hb hc _ hj ih => exact .cvcJoin ha hb hc (ih hg.cons.cons.cons) hj
  | cvcy ha hb hc _ hj ih => exact .cvcy ha hb hc (ih hg.cons.cons.cons.cons) hj
  | cvvMore h _ ih => exact .cvvMore h (ih hg.suffix)
  | cvhvMore h _ ih => exact .cvhvMore h (ih hg.suffix)
  | ccvMore h _ ih => exact .ccvMore h (ih hg.suffix)

theorem cc_strict {w : Word} (h : CcLujvo false w) (hg : GoodEnd w) : CcLujvo true w := by
  cases h with
  | single h => exact .single h
  | ccv h ht => exact .ccv h (tail_strict ht hg.suffix)
  | ccvcy h ht => exact .ccvcy h (tail_strict ht hg.suffix.cons)

theorem append_inj_of_len {p q u v : Word} (h : p ++ u = q ++ v) (hl : u.length = v.length) : u = v :=
  (List.append_inj' h hl).2

theorem goodEnd_of_tail (h : Tail true n t) : ∀ p, GoodEnd (p ++ t) := by
  induction h with
  | cvccv h =>
    obtain ⟨a, b, c, d, e, rfl, ha, hb, hc, hd, he, _⟩ := shape_cvccv h
    intro p q a' b' c' d' e' he' hs
    have := append_inj_of_len he' rfl
    simp only [List.cons.injEq, and_true] at this
    obtain ⟨rfl, rfl, rfl, rfl, rfl⟩ := this
    exact absurd hb hs.2.1.not_V
  | @ccvcv a b w h hm hi =>
    match w, h with
    | [c, d, e], h =>
    intro p q a' b' c' d' e' he' hs
    have := append_inj_of_len he' rfl
    simp only [List.cons.injEq, and_true] at this
    obtain ⟨rfl, rfl, rfl, rfl, rfl⟩ := this
    exact hi rfl
  | cvv h =>
    obtain ⟨a, b, c, rfl, ha, hb, hc⟩ := shape_cvv h
    intro p q a' b' c' d' e' he' hs
    have := append_inj_of_len (u := [a, b, c]) (v := [c', d', e']) (q := q ++ [a', b'])
      (by simpa using he') rfl
    simp only [List.cons.injEq, and_true] at this
    obtain ⟨rfl, rfl, rfl⟩ := this
    exact absurd hb hs.2.2.2.1.not_V
  | cvhv h =>
    obtain ⟨a, b, c, rfl, ha, hb, hc⟩ := shape_cvhv h
    intro p q a' b' c' d' e' he' hs
    have := append_inj_of_len (u := [a, b, '\'', c]) (v := [b', c', d', e']) (q := q ++ [a'])
      (by simpa using he') rfl
    simp only [List.cons.injEq, and_true] at this
    obtain ⟨rfl, rfl, rfl, rfl⟩ := this
    exact absurd rfl hs.2.2.2.1.ne_apos
  | ccv h =>
    obtain ⟨a, b, c, rfl, ha, hb, hc, _⟩ := shape_ccv h
    intro p q a' b' c' d' e' he' hs
    have := append_inj_of_len (u := [a, b, c]) (v := [c', d', e']) (q := q ++ [a', b'])
      (by simpa using he') rfl
    simp only [List.cons.injEq, and_true] at this
    obtain ⟨rfl, rfl, rfl⟩ := this
    exact absurd ha hs.2.2.1.not_C
  | @cvccy w t n h _ ih => intro p; simpa using ih (p ++ w ++ ['y'])
  | @ccvcy w t n h _ ih => intro p; simpa using ih (p ++ w ++ ['y'])
  | @cvcJoin a b c t n ha hb hc _ hj ih => intro p; simpa using ih (p ++ [a, b, c])
  | @cvcy a b c t n ha hb hc _ hj ih => intro p; simpa using ih (p ++ [a, b, c, 'y'])
  | @cvvMore w t n h _ ih => intro p; simpa using ih (p ++ w)
  | @cvhvMore w t n h _ ih => intro p; simpa using ih (p ++ w)
  | @ccvMore w t n h _ ih => intro p; simpa using ih (p ++ w)

/-! ## The whole word -/

theorem startsCv_of {s : Shape} {r : Word} (hs : s = .cvv ∨ s = .cvhv) (h : Rafsi s r) :
    startsCv r = true := by
  rcases hs with rfl | rfl
  · obtain ⟨a, b, c, rfl, ha, hb, hc⟩ := shape_cvv h
    simp [startsCv, isCvv, chr, ha.isC, hb.isV, hc.isV]
  · obtain ⟨a, b, c, rfl, ha, hb, hc⟩ := shape_cvhv h
    simp [startsCv, isCvav, chr, ha.isC, hb.isV, hc.isV]

theorem rn_eq {b : Word} (hb : Head b) (u : Word) : rn b = rnHyphen (b ++ u) := by
  obtain ⟨x, y, z, v, rfl, _⟩ := hb
  simp [rn, rnHyphen, chr]

theorem yGlue_some {s : Shape} {r : Word} (hs : s = .cvv ∨ s = .cvhv) (h : Rafsi s r) (g : Char)
    (b : Word) : yGlue (some g) r b = some g := by
  rcases hs with rfl | rfl
  · obtain ⟨a, b, c, rfl, ha, hb, hc⟩ := shape_cvv h
    simp [yGlue]
  · obtain ⟨a, b, c, rfl, ha, hb, hc⟩ := shape_cvhv h
    simp [yGlue, chr]

theorem yGlue_none {s : Shape} {r : Word} (hs : s = .cvv ∨ s = .cvhv) (h : Rafsi s r)
    {b : Word} (hb : Head b) : yGlue none r b = none := by
  rcases hs with rfl | rfl
  · obtain ⟨a, b, c, rfl, _, _, hc⟩ := shape_cvv h
    exact yGlue_3v hc hb
  · obtain ⟨a, b, c, rfl, _, _, hc⟩ := shape_cvhv h
    exact yGlue_cvhv hc hb

theorem isCvc_cv {s : Shape} {r : Word} (hs : s = .cvv ∨ s = .cvhv) (h : Rafsi s r) :
    isCvc r = false := by
  rcases hs with rfl | rfl
  · obtain ⟨a, b, c, rfl, ha, hb, hc⟩ := shape_cvv h
    simp [isCvc, chr, hc.isC]
  · obtain ⟨a, b, c, rfl, ha, hb, hc⟩ := shape_cvhv h
    simp [isCvc, chr, isC_apos]

/-- The word glued from the components with glue `g` after the first. -/
theorem glueWord_first (r b : Word) (rs : List Word) (g : Option Char) :
    glueWord (r :: b :: rs) (g :: glueFrom none (b :: rs)) = r ++ g.toList ++ rest (b :: rs) := by
  simp [glueWord, rest]

/-- What `glues` computes: the first glue is one of these, the others are as in `rest`. -/
theorem glues_cases {r b : Word} {rs : List Word} (h : Parts (r :: b :: rs)) :
    ∃ g, glues (r :: b :: rs) = .ok (g :: glueFrom none (b :: rs)) ∧
      Valid true (r ++ g.toList ++ rest (b :: rs)) ∧
      (g = none ∨ g = some 'y' ∨ g = some 'r' ∨ g = some 'n') ∧
      (∀ s, (s = .cvv ∨ s = .cvhv) → Rafsi s r → g = some (rn b) ∨ (g = none ∧ rs = [] ∧ Rafsi .ccv b)) ∧
      (Rafsi .cvcc r ∨ Rafsi .ccvc r → g = some 'y') ∧
      (Rafsi .cvc r → g = none ∨ g = some 'y') ∧
      (Rafsi .ccv r → g = none) := by
  cases h with
  | cons hr hrs =>
  have hb := hrs.head
  have ht := rest_tail hrs
  obtain ⟨u, hu⟩ := rest_prefix b rs
  have key : ∀ s, (s = .cvv ∨ s = .cvhv) → Rafsi s r →
      ∃ g, glues (r :: b :: rs) = .ok (g :: glueFrom none (b :: rs)) ∧
      Valid true (r ++ g.toList ++ rest (b :: rs)) ∧
      (g = some (rn b) ∨ (g = none ∧ rs = [] ∧ Rafsi .ccv b)) := by
    intro s hs h
    have e1 := startsCv_of hs h
    have e2 := isCvc_cv hs h
    by_cases hc : rs = [] ∧ isCcv b = true ∧ isCcvcv b = false
    · obtain ⟨rfl, h1, h2⟩ := hc
      have hbr : Rafsi .ccv b := by
        cases hrs with
        | last hl =>
          rcases hl with h | h | h | h | h
          · obtain ⟨a, b, c, d, e, rfl, ha, hb, _⟩ := shape_cvccv h
            simp [isCcv, chr, hb.isC] at h1
          · obtain ⟨a, b, c, d, e, rfl, ha, hb, hc, hd, he, _⟩ := shape_ccvcv h
            simp [isCcvcv, chr, ha.isC, hb.isC, hc.isV, hd.isC, he.isV] at h2
          · obtain ⟨a, b, c, rfl, ha, hb, hc⟩ := shape_cvv h
            simp [isCcv, chr, hb.isC] at h1
          · obtain ⟨a, b, c, rfl, ha, hb, hc⟩ := shape_cvhv h
            simp [isCcv, chr, hb.isC] at h1
          · exact h
        | cons _ h => cases h
      refine ⟨none, ?_, ?_, .inr ⟨rfl, rfl, hbr⟩⟩
      · simp [glues, firstGlue, glueFrom, h1, h2, e1, e2, yGlue_none hs h hb]
      · rw [rest_single]
        simpa using Valid.cvCcv hs h hbr
    · have hf : firstGlue (r :: b :: rs) = some (rn b) := by
        simp only [firstGlue, e1, Bool.and_true]
        cases rs with
        | cons => simp
        | nil =>
          simp only [true_and] at hc
          by_cases h1 : isCcv b = true
          · have : isCcvcv b = true := by
              cases h2 : isCcvcv b with
              | true => rfl
              | false => exact absurd ⟨h1, h2⟩ hc
            simp [this]
          · simp [h1]
      refine ⟨some (rn b), ?_, ?_, .inl rfl⟩
      · simp [glues, glueFrom, hf, yGlue_some hs h, e2]
      · rw [rn_eq hb u, ← hu]
        simpa using Valid.cvHyphen hs h ht
  have nv : ∀ s, (s = .cvv ∨ s = .cvhv) → Rafsi s r → ¬ Rafsi .cvcc r ∧ ¬ Rafsi .ccvc r ∧
      ¬ Rafsi .cvc r ∧ ¬ Rafsi .ccv r := by
    intro s hs h
    rcases hs with rfl | rfl
    · obtain ⟨a, b, c, rfl, ha, hb, hc⟩ := shape_cvv h
      refine ⟨fun h => h.1, fun h => h.1, fun h => hc.not_C h.1.2.2, fun h => hb.not_C h.1.2.1⟩
    · obtain ⟨a, b, c, rfl, ha, hb, hc⟩ := shape_cvhv h
      refine ⟨fun h => h.1.2.2.1.ne_apos rfl, fun h => hb.not_C h.1.2.1, fun h => h.1, fun h => h.1⟩
  have rnc : rn b = 'r' ∨ rn b = 'n' := by unfold rn; split <;> simp
  have fin1 : ∀ s, (s = .cvv ∨ s = .cvhv) → Rafsi s r →
      ∃ g, glues (r :: b :: rs) = .ok (g :: glueFrom none (b :: rs)) ∧
      Valid true (r ++ g.toList ++ rest (b :: rs)) ∧
      (g = none ∨ g = some 'y' ∨ g = some 'r' ∨ g = some 'n') ∧
      (∀ s, (s = .cvv ∨ s = .cvhv) → Rafsi s r → g = some (rn b) ∨ (g = none ∧ rs = [] ∧ Rafsi .ccv b)) ∧
      (Rafsi .cvcc r ∨ Rafsi .ccvc r → g = some 'y') ∧
      (Rafsi .cvc r → g = none ∨ g = some 'y') ∧
      (Rafsi .ccv r → g = none) := by
    intro s hs h
    obtain ⟨g, h1, h2, h3⟩ := key s hs h
    obtain ⟨n1, n2, n3, n4⟩ := nv s hs h
    refine ⟨g, h1, h2, ?_, fun _ _ _ => h3, fun h => (h.elim n1 n2).elim, fun h => (n3 h).elim,
      fun h => (n4 h).elim⟩
    rcases h3 with rfl | ⟨rfl, _⟩
    · rcases rnc with e | e <;> simp [e]
    · exact .inl rfl
  have nocv : ∀ {P : Prop}, (∀ s, (s = .cvv ∨ s = .cvhv) → ¬ Rafsi s r) →
      ∀ s, (s = .cvv ∨ s = .cvhv) → Rafsi s r → P := fun h s hs hr => (h s hs hr).elim
  rcases hr with h | h | h | h | h | h
  · obtain ⟨a, b', c, d, rfl, ha, hb', hc, hd, _⟩ := shape_cvcc h
    have e1 : startsCv [a, b', c, d] = false := by
      simp [startsCv, isCvv, isCvav, chr, hc.isV, hc.ne_apos]
    have hf : firstGlue ([a, b', c, d] :: b :: rs) = none := by simp [firstGlue, e1]
    refine ⟨some 'y', ?_, ?_, .inr (.inl rfl), nocv ?_, fun _ => rfl, fun _ => .inr rfl, ?_⟩
    · simp [glues, hf, glueFrom, yGlue_4 hc.ne_apos]
    · simpa using Valid.cvccy h ht
    · rintro s (rfl | rfl) hr
      · exact hr.1
      · exact hc.ne_apos hr.1.2.2.1
    · exact fun h => h.1.elim
  · obtain ⟨a, b', c, d, rfl, ha, hb', hc, hd, _⟩ := shape_ccvc h
    have e1 : startsCv [a, b', c, d] = false := by
      simp [startsCv, isCvv, isCvav, chr, hb'.isV]
    have hf : firstGlue ([a, b', c, d] :: b :: rs) = none := by simp [firstGlue, e1]
    refine ⟨some 'y', ?_, ?_, .inr (.inl rfl), nocv ?_, fun _ => rfl, fun _ => .inr rfl, ?_⟩
    · simp [glues, hf, glueFrom, yGlue_4 hc.ne_apos]
    · simpa using Valid.cc (CcLujvo.ccvcy h ht)
    · rintro s (rfl | rfl) hr
      · exact hr.1
      · exact hb'.not_V hr.1.2.1
    · exact fun h => h.1.elim
  · obtain ⟨a, b', c, rfl, ha, hb', hc⟩ := shape_cvc h
    have e1 : startsCv [a, b', c] = false := by
      simp [startsCv, isCvv, isCvav, chr, hc.isV]
    have e2 : isCvc [a, b', c] = true := by simp [isCvc, chr, ha.isC, hb'.isV, hc.isC]
    have hf : firstGlue ([a, b', c] :: b :: rs) = none := by simp [firstGlue, e1]
    have nc : ∀ s, (s = .cvv ∨ s = .cvhv) → ¬ Rafsi s [a, b', c] := by
      rintro s (rfl | rfl) hr
      · exact hc.not_V hr.1.2.2
      · exact hr.1
    have n4 : Rafsi .cvcc [a, b', c] ∨ Rafsi .ccvc [a, b', c] → False :=
      fun h => h.elim (fun h => h.1) (fun h => h.1)
    have n5 : ¬ Rafsi .ccv [a, b', c] := fun h => hb'.not_C h.1.2.1
    have hjr : Joins c (rest (b :: rs)) ↔ Joins c b := by rw [hu]; exact joins_head hc hb
    by_cases hj : Joins c b
    · by_cases hcc : CcLujvo false (c :: rest (b :: rs))
      · have hv := (smabru_iff hc ht).1.2 hcc
        refine ⟨some 'y', ?_, ?_, .inr (.inl rfl), nocv nc, fun h => (n4 h).elim, fun _ => .inr rfl,
          fun h => (n5 h).elim⟩
        · simp only [glues, hf, glueFrom, yGlue_cvc hc hb, if_pos hj, e2, Option.isNone_none,
            Bool.and_self, if_true, chr, List.getD_cons_succ, List.getD_cons_zero]
          change (do let v ← isValidLujvo (c :: rest (b :: rs)); _) = _
          rw [isValidLujvo, hv]
          rfl
        · exact Valid.cvcy ha hb' hc ht (.inr (cc_strict hcc (goodEnd_of_tail ht [c])))
      · have hv := (smabru_iff hc ht).2.2 hcc
        refine ⟨none, ?_, ?_, .inl rfl, nocv nc, fun h => (n4 h).elim, fun _ => .inl rfl,
          fun h => (n5 h).elim⟩
        · simp only [glues, hf, glueFrom, yGlue_cvc hc hb, if_pos hj, e2, Option.isNone_none,
            Bool.and_self, if_true, chr, List.getD_cons_succ, List.getD_cons_zero]
          change (do let v ← isValidLujvo (c :: rest (b :: rs)); _) = _
          rw [isValidLujvo, hv]
          rfl
        · exact Valid.cvcJoin ha hb' hc ht (hjr.2 hj) (fun h => hcc (cc_mono h))
    · refine ⟨some 'y', ?_, ?_, .inr (.inl rfl), nocv nc, fun h => (n4 h).elim, fun _ => .inr rfl,
        fun h => (n5 h).elim⟩
      · simp [glues, hf, glueFrom, yGlue_cvc hc hb, hj]
      · exact Valid.cvcy ha hb' hc ht (.inl (fun h => hj (hjr.1 h)))
  · exact fin1 .cvv (.inl rfl) h
  · exact fin1 .cvhv (.inr rfl) h
  · obtain ⟨a, b', c, rfl, ha, hb', hc, hi⟩ := shape_ccv h
    have e1 : startsCv [a, b', c] = false := by
      simp [startsCv, isCvv, isCvav, chr, hb'.isV]
    have e2 : isCvc [a, b', c] = false := by simp [isCvc, chr, hb'.isV]
    have hf : firstGlue ([a, b', c] :: b :: rs) = none := by simp [firstGlue, e1]
    refine ⟨none, ?_, ?_, .inl rfl, nocv ?_, ?_, fun _ => .inl rfl, fun _ => rfl⟩
    · simp [glues, hf, glueFrom, yGlue_3v hc hb, e2]
    · simpa using Valid.cc (CcLujvo.ccv h ht)
    · rintro s (rfl | rfl) hr
      · exact hb'.not_V hr.1.2.1
      · exact hr.1
    · exact fun h => h.elim (fun h => h.1.elim) (fun h => h.1.elim)

end Jbo.Lujvo
