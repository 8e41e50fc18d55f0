import Verif.MorfFe
/-!
# The scanner on the text since the beginning of a word

Nothing that the scanner computes on the text since the beginning of a word depends on what stands before.
-/

namespace Jbo.Morf
open Jbo.Dfasyn

theorem noComma_append {x y : List Char} : NoComma (x ++ y) ↔ NoComma x ∧ NoComma y := by
  constructor
  · exact fun h => ⟨fun c hc => h c (List.mem_append_left _ hc), fun c hc => h c (List.mem_append_right _ hc)⟩
  · rintro ⟨h1, h2⟩ c hc
    rcases List.mem_append.1 hc with h | h
    · exact h1 c h
    · exact h2 c h

/-- What a beginning is. -/
theorem isStart_iff {c : Char} {b : List Char} :
    isStart c b = true ↔ b = [] ∨ (((fe b).entry c).2.2.1 = true ∧ inhibited (c :: b) = false) := by
  unfold isStart
  simp only [Bool.or_eq_true, Bool.and_eq_true, Bool.not_eq_true', List.isEmpty_iff]
  exact Or.comm

theorem start_inhibited {c : Char} {b : List Char} (h : isStart c b = true) : inhibited b = false := by
  rcases isStart_iff.1 h with rfl | ⟨_, h⟩
  · rfl
  · rw [inhibited, Bool.or_eq_false_iff] at h
    exact h.1

section
variable {b : List Char} {c : Char} (hc : isStart c b = true)
include hc

theorem cut_entry (hb : NoComma b) : (fe b).entry c = Fe.start.entry c ∧ (fe b).tok c = Fe.start.tok c ∧
    ((fe b).next c).Same (Fe.start.next c) := by
  rcases isStart_iff.1 hc with rfl | ⟨h, _⟩
  · exact ⟨rfl, rfl, rfl, rfl, rfl, rfl, fun _ => rfl⟩
  · exact reset (feOk hb) h

theorem cut_fe (hb : NoComma b) (x : List Char) : (fe (x ++ c :: b)).Same (fe (x ++ [c])) := by
  induction x with
  | nil => exact (cut_entry hc hb).2.2
  | cons d x ih => exact same_next ih d

theorem cut_toks (hb : NoComma b) (x : List Char) : toks (x ++ c :: b) = toks (x ++ [c]) ++ toks b := by
  induction x with
  | nil => simp only [List.nil_append, toks, List.cons_append]; rw [(cut_entry hc hb).2.1]; rfl
  | cons d x ih =>
    simp only [List.cons_append, toks]
    rw [ih, same_tok (cut_fe hc hb x)]

theorem cut_inhibited (hb : NoComma b) (x : List Char) : inhibited (x ++ c :: b) = inhibited (x ++ [c]) := by
  induction x with
  | nil =>
    simp only [List.nil_append, inhibited]
    rw [start_inhibited hc, (cut_entry hc hb).1]; rfl
  | cons d x ih =>
    simp only [List.cons_append, inhibited]
    rw [ih, same_entry (cut_fe hc hb x)]

theorem cut_isStart (hb : NoComma b) (d : Char) (x : List Char) :
    isStart d (x ++ c :: b) = isStart d (x ++ [c]) := by
  unfold isStart
  rw [same_entry (cut_fe hc hb x)]
  have := cut_inhibited hc hb (d :: x)
  rw [List.cons_append, List.cons_append] at this
  rw [this]
  cases x <;> rfl

theorem cut_isCstart (hb : NoComma b) (d : Char) (x : List Char) :
    isCstart d (x ++ c :: b) = isCstart d (x ++ [c]) := by
  unfold isCstart
  rw [same_entry (cut_fe hc hb x), (cut_fe hc hb x).act]

end

theorem isStart_nil (c : Char) : isStart c [] = true := by simp [isStart]

theorem chars_append (x y : List At) : chars (x ++ y) = chars x ++ chars y := by simp [chars]
theorem chars_cons (a : At) (y : List At) : chars (a :: y) = a.2 :: chars y := rfl
theorem chars_length (x : List At) : (chars x).length = x.length := by simp [chars]

/-- The beginnings before and since a beginning. -/
theorem cut_starts {b : List At} {a : At} (hc : isStart a.2 (chars b) = true) (hb : NoComma (chars b)) (x : List At) :
    starts (x ++ a :: b) = starts (x ++ [a]) ++ starts b := by
  induction x with
  | nil =>
    simp only [List.nil_append, starts]
    rw [if_pos hc, if_pos (by exact isStart_nil _)]
    rfl
  | cons d x ih =>
    simp only [List.cons_append, starts]
    have := cut_isStart hc hb d.2 (chars x)
    rw [chars_append, chars_append, chars_cons, chars_cons, this, ih]
    rw [show chars [] = ([] : List Char) from rfl]
    split <;> rfl

theorem upper_append (x y : List Char) : upper (x ++ y) = (upper x || upper y) := by
  simp [upper]

/-- Numbers of exit values and names. -/
theorem attr_lt_check : morfCert.classes.all (fun k => Nat.ble k.attr 4) = true := by decide +kernel

theorem attr_lt (i : Nat) : (morfCert.cls i).attr ≤ 4 := by
  unfold Cert.cls
  rw [List.getD_eq_getElem?_getD]
  cases hk : morfCert.classes[(morfCert.node i).cls]? with
  | none => simp
  | some k => exact Nat.le_of_ble_eq_true (List.all_eq_true.1 attr_lt_check k (List.mem_of_getElem? hk))

end Jbo.Morf
