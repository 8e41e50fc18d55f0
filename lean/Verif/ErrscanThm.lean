import Verif.Errscan
import Verif.GramLook
import Verif.GramEx
/-!
# Warnings about sentences without selbri

Property C74.
-/

namespace Jbo.Errscan
open Jbo.Terms Jbo.Terms.Spec Jbo.Gram

/-- A text of terms without a selbri: terms, and perhaps `vau` and free modifiers. -/
def Spec.TermsOnly (x : Node) : Prop :=
  ∃ i j ts rest, x = .nt i .fragment (.nt j .terms ts :: rest) ∧ ∀ c ∈ rest, c.isNT .freeSeq = true ∨ ∃ k w, Word c k .VAU w

theorem fragment_rules : on .fragment (fun its => match its with
    | .n .terms :: r => r.all fun it => it == .t .VAU || it == .e .VAU || it == .n .freeSeq
    | .n _ :: _ => true
    | .t _ :: _ => true
    | _ => false) = true := by decide +kernel

/-- **Warnings.**  On every tree of the grammar the scan ends, and warns of exactly the fragments that are terms only. -/
theorem warned (top : Node) (hp : Parse .chunks top) :
    ∃ log, errorScan top = .ok log ∧ ∀ n, n ∈ log ↔ ∃ anc x, Occ top anc x ∧ Spec.TermsOnly x ∧ x.id = n := by
  refine pass_logs (Q := fun _ x n => Spec.TermsOnly x ∧ x.id = n) top fun anc x ho => ⟨occ_augOk hp ho, ?_⟩
  by_cases hx : ∃ i cs, x = .nt i .fragment cs
  · obtain ⟨i, cs, rfl⟩ := hx
    have pf := (occ_nt hp ho (by decide)).1
    obtain ⟨_, its, _, e, hf, hk⟩ := on_use fragment_rules pf
    cases e
    have go : ∀ {c ds}, cs = c :: ds → node anc (.nt i .fragment cs) = .ok (if c.isNT .terms then [i] else []) := by
      rintro c ds rfl
      change (if c.isNT .terms = true then Except.ok [i] else Except.ok []) = _
      split <;> rfl
    have other : ∀ {c ds}, cs = c :: ds → c.isNT .terms = false →
        ∃ es, node anc (.nt i .fragment cs) = .ok es ∧ ∀ n, n ∈ es ↔ Spec.TermsOnly (.nt i .fragment cs) ∧ (Node.nt i .fragment cs).id = n := by
      rintro c ds rfl h
      refine ⟨_, go rfl, fun n => ?_⟩
      rw [h]
      refine ⟨nofun, ?_⟩
      rintro ⟨⟨_, _, _, _, e, _⟩, _⟩
      cases e
      simp [Node.isNT] at h
    split at hf
    · obtain ⟨c, ds, rfl, hc, hk2⟩ := first hk
      obtain ⟨j, ts, _, rfl, _⟩ := parse_inv hc
      refine ⟨_, go rfl, fun n => ?_⟩
      have : (Node.nt j .terms ts).isNT .terms = true := by simp [Node.isNT]
      rw [this, if_pos rfl, List.mem_singleton]
      constructor
      · rintro rfl
        refine ⟨⟨_, j, ts, ds, rfl, fun d hd => ?_⟩, rfl⟩
        rcases kid_cases hk2 hd with ⟨t, h1, h2⟩ | ⟨it, h1, h2⟩ | ⟨s, k, w, h1, h2, rfl⟩
        · have := List.all_eq_true.1 hf _ h1
          have : t = .freeSeq := by simpa using this
          subst this
          left
          rw [parse_isNT h2]; simp
        · have := List.all_eq_true.1 hf _ h1
          simp only [Bool.or_eq_true, beq_iff_eq] at this
          right
          rcases this with (rfl | rfl) | rfl
          · obtain ⟨k, w, _, hw⟩ := word_word h2 (by decide)
            exact ⟨k, w, hw⟩
          · cases h2 with
            | alone h => cases h
            | marked _ h _ => cases h
          · cases h2 with
            | alone h => cases h
            | marked _ h _ => cases h
        · have := List.all_eq_true.1 hf _ h1
          have : s = .VAU := by simpa using this
          subst this
          exact .inr ⟨k, w, .alone⟩
      · rintro ⟨_, rfl⟩; rfl
    · rename_i u r hne
      obtain ⟨c, ds, e, hc, hk⟩ := first hk
      refine other e ?_
      rw [parse_isNT hc]
      simp only [decide_eq_false_iff_not]
      rintro rfl
      exact hne rfl
    · obtain ⟨c, ds, e, hc, hk⟩ := firstT hk
      exact other e (word_isNT hc (by decide))
    · cases hf
  · refine ⟨[], ?_, fun n => ⟨nofun, ?_⟩⟩
    · have : x.isNT .fragment = false := by
        cases x with
        | nt i t cs =>
          simp only [Node.isNT, beq_eq_false_iff_ne]
          rintro rfl
          exact hx ⟨_, _, rfl⟩
        | _ => rfl
      rw [node, this]; rfl
    · rintro ⟨⟨i, _, _, _, rfl, _⟩, _⟩
      exact absurd ⟨_, _, rfl⟩ hx

/-- The text *mi*. -/
def miOnly : Node := .nt 0 .chunks (up [.text, .text1, .paragraphs, .paragraph] [.nt 5 .fragment (koha 10 "mi")])

example : Parse .chunks miOnly ∧ errorScan miOnly = .ok [5] := ⟨parse_of (by decide +kernel), rfl⟩

/-- A sentence with a selbri is not warned about. -/
example : Parse .chunks seExample ∧ errorScan seExample = .ok [] := ⟨parse_of (by decide +kernel), rfl⟩

end Jbo.Errscan
