import Verif.DfaCert
/-!
# Checked sets of states

A set of states, written out as a list of numbers, that a transition function never leaves.  Nothing
here is a model of the program: it is how invariants of a particular automaton are proved.
-/

namespace Jbo.Dfasyn
variable {α : Type}

/-- Equality of truth values, for the kernel. -/
def boolSame (a b : Bool) : Bool := match a, b with
  | true, true => true
  | false, false => true
  | _, _ => false

theorem boolSame_eq {a b : Bool} (h : boolSame a b = true) : a = b := by cases a <;> cases b <;> first | rfl | cases h

/-- The tokens below a number lead from entry `e` to entries: those that its row (the bits from `B` on,
fields of `W` bits, 0 for none, otherwise the index plus 1) names. -/
noncomputable def rowOkP (dec : Nat → α) (same : α → α → Bool) (step : α → Nat → Option α) (C : BT Nat)
    (e0 W B e : Nat) : Nat → Bool
  | 0 => true
  | t + 1 => (match step (dec e) t with
    | none => true
    | some y => match destOf W (e >>> B) t with
      | 0 => false
      | d + 1 => same (dec (C.getD d e0)) y) && rowOkP dec same step C e0 W B e t

/-- The entries are closed under the step. -/
noncomputable def closedP (dec : Nat → α) (same : α → α → Bool) (step : α → Nat → Option α) (entries : List Nat)
    (W B depth nt : Nat) : Bool :=
  BT.of depth entries (fun C => entries.all (fun e => rowOkP dec same step C (entries.headD 0) W B e nt)) &&
  decide (entries.length ≤ 2 ^ depth)

theorem rowOkP_step {dec : Nat → α} {same : α → α → Bool} (hsame : ∀ x y, same x y = true → x = y)
    {step : α → Nat → Option α} {C : BT Nat} {e0 W B e : Nat} : ∀ {nt : Nat},
    rowOkP dec same step C e0 W B e nt = true → ∀ {t : Nat}, t < nt → ∀ {y : α}, step (dec e) t = some y →
    ∃ d, dec (C.getD d e0) = y
  | 0, _, t, ht, _, _ => absurd ht (by omega)
  | nt + 1, h, t, ht, y, hy => by
    rw [rowOkP, Bool.and_eq_true] at h
    rcases Nat.lt_or_ge t nt with h' | h'
    · exact rowOkP_step hsame h.2 h' hy
    · have : t = nt := by omega
      subst this
      have h1 := h.1
      rw [hy] at h1
      simp only at h1
      cases hd : destOf W (e >>> B) t with
      | zero => rw [hd] at h1; simp at h1
      | succ d =>
        rw [hd] at h1
        exact ⟨d, hsame _ _ h1⟩

theorem closedP_step {dec : Nat → α} {same : α → α → Bool} (hsame : ∀ x y, same x y = true → x = y)
    {step : α → Nat → Option α} {entries : List Nat} {W B depth nt : Nat} (hne : entries ≠ [])
    (h : closedP dec same step entries W B depth nt = true) {e t : Nat} (he : e ∈ entries) (ht : t < nt) {y : α}
    (hy : step (dec e) t = some y) : ∃ e' ∈ entries, dec e' = y := by
  rw [closedP, Bool.and_eq_true, BT.of_eq, decide_eq_true_eq] at h
  have h1 := List.all_eq_true.1 h.1 e he
  obtain ⟨d, hd⟩ := rowOkP_step hsame h1 ht hy
  rw [BT.getD_ofL _ _ h.2] at hd
  refine ⟨_, ?_, hd⟩
  rw [List.getD_eq_getElem?_getD]
  cases hx : entries[d]? with
  | some x => exact List.mem_of_getElem? hx
  | none =>
    cases entries with
    | nil => exact absurd rfl hne
    | cons a l => exact List.mem_cons_self

end Jbo.Dfasyn
