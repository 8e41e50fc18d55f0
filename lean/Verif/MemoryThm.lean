import Verif.Memory

/-! # Memory statistics are exact (C34) -/

namespace Jbo.MemorySpec
open Memory

/-- The client's view: which blocks it holds, with the sizes it asked for. -/
def holds (blocks : List (Nat × Nat)) : Call → List (Nat × Nat)
  | .malloc n (some p) => (p, n) :: blocks
  | .realloc old n (some p) => (p, n) :: blocks.filter (fun b => b.1 != old)
  | .free p => blocks.filter (fun b => b.1 != p)
  | _ => blocks

/-- Total size requested for the blocks held. -/
def total (blocks : List (Nat × Nat)) : Nat := (blocks.map (·.2)).sum

/-- The contract between client and allocator: blocks passed in are held, the address
handed out is not in use (after releasing `old` for `realloc`), sizes are 64-bit numbers. -/
def Legal (blocks : List (Nat × Nat)) : Call → Prop
  | .malloc n res => n < 2 ^ 64 ∧ ∃ p, res = some p ∧ ∀ b ∈ blocks, b.1 ≠ p
  | .realloc old n res => n < 2 ^ 64 ∧ (∃ b ∈ blocks, b.1 = old) ∧
      ∃ p, res = some p ∧ ∀ b ∈ blocks, b.1 ≠ old → b.1 ≠ p
  | .free p => ∃ b ∈ blocks, b.1 = p

/-- A legal history starting with the given blocks. -/
def LegalRun (blocks : List (Nat × Nat)) : List Call → Prop
  | [] => True
  | c :: cs => Legal blocks c ∧ LegalRun (holds blocks c) cs

/-- The blocks held at the end. -/
def atEnd (blocks : List (Nat × Nat)) (cs : List Call) : List (Nat × Nat) := cs.foldl holds blocks

/-- The largest total over all moments of the history. -/
def peak (blocks : List (Nat × Nat)) : List Call → Nat
  | [] => total blocks
  | c :: cs => max (total blocks) (peak (holds blocks c) cs)

end Jbo.MemorySpec

namespace Jbo.Memory
open MemorySpec

theorem lookup_of_mem {blocks : List (Nat × Nat)} {p n : Nat}
    (hd : blocks.Pairwise (fun a b => a.1 ≠ b.1)) (h : (p, n) ∈ blocks) :
    blocks.lookup p = some n := by
  induction blocks with
  | nil => simp at h
  | cons b bs ih =>
    obtain ⟨q, m⟩ := b
    rw [List.lookup_cons]
    rcases List.mem_cons.1 h with h1 | h1
    · injection h1 with h1 h2; subst h1; subst h2; simp
    · have hne : q ≠ p := (List.pairwise_cons.1 hd).1 (p, n) h1
      have : (p == q) = false := by simpa using fun h => hne h.symm
      rw [this]
      exact ih (List.pairwise_cons.1 hd).2 h1

theorem total_filter {blocks : List (Nat × Nat)} {p n : Nat}
    (hd : blocks.Pairwise (fun a b => a.1 ≠ b.1)) (h : (p, n) ∈ blocks) :
    total (blocks.filter (fun b => b.1 != p)) + n = total blocks := by
  induction blocks with
  | nil => simp at h
  | cons b bs ih =>
    obtain ⟨q, m⟩ := b
    have h0 := List.pairwise_cons.1 hd
    rcases List.mem_cons.1 h with h1 | h1
    · injection h1 with h1 h2; subst h1; subst h2
      have : bs.filter (fun b => b.1 != p) = bs := by
        rw [List.filter_eq_self]; intro b hb; simpa using fun h : b.1 = p => h0.1 b hb h.symm
      simp [total, this]; omega
    · have hne : q ≠ p := h0.1 (p, n) h1
      have := ih h0.2 h1
      simp [total, hne] at this ⊢; omega

/-- Invariant: the model's block list is the client's, the in-use counter is the wrapped total. -/
structure Inv (s : State) (blocks : List (Nat × Nat)) : Prop where
  live : s.live = blocks
  nodup : blocks.Pairwise (fun a b => a.1 ≠ b.1)
  use : s.inUse = wrap (total blocks)
  small : ∀ b ∈ blocks, b.2 < 2 ^ 64

theorem filter_pairwise {blocks : List (Nat × Nat)} (p : Nat)
    (hd : blocks.Pairwise (fun a b => a.1 ≠ b.1)) :
    (blocks.filter (fun b => b.1 != p)).Pairwise (fun a b => a.1 ≠ b.1) :=
  hd.sublist List.filter_sublist

theorem step_inv (s : State) (blocks : List (Nat × Nat)) (c : Call) (hi : Inv s blocks)
    (hl : Legal blocks c) :
    ∃ s', step s c = .ok s' ∧ Inv s' (holds blocks c) ∧
      s'.maxUse = (match c with | .free _ => s.maxUse | _ => max s.maxUse (wrap (total (holds blocks c)))) := by
  have bump_max : ∀ a b, bump a b = max a b := by intro a b; unfold bump; split <;> omega
  cases c with
  | malloc n res =>
    obtain ⟨hn, p, rfl, hp⟩ := hl
    refine ⟨_, rfl, ⟨?_, ?_, ?_, ?_⟩, ?_⟩
    · simp [holds, hi.live]
    · exact List.pairwise_cons.2 ⟨fun b hb h => hp b hb h.symm, hi.nodup⟩
    · simp [holds, total, hi.use, wrap]; congr 1; exact Nat.add_comm _ _
    · intro b hb
      rcases List.mem_cons.1 hb with h | h
      · subst h; exact hn
      · exact hi.small b h
    · simp only [bump_max, holds]
      congr 1
      simp [total, hi.use, wrap]; congr 1; exact Nat.add_comm _ _
  | realloc old n res =>
    obtain ⟨hn, ⟨b, hb, hbo⟩, p, rfl, hp⟩ := hl
    obtain ⟨q, x⟩ := b
    simp only at hbo; subst hbo
    have hlk := lookup_of_mem hi.nodup hb
    have hx := hi.small _ hb
    have htf := total_filter hi.nodup hb
    simp only [step, header, hi.live, hlk]
    have hu : wrap (wrap (s.inUse + 2 ^ 64 - x) + n) = wrap (total (holds blocks (.realloc q n (some p)))) := by
      have e : total (holds blocks (.realloc q n (some p))) = n + total (blocks.filter (fun b => b.1 != q)) := by
        simp [holds, total]
      rw [e, hi.use, ← htf]
      generalize total (blocks.filter (fun b => b.1 != q)) = T
      simp only [wrap] at hx ⊢
      omega
    refine ⟨_, rfl, ⟨rfl, ?_, hu, ?_⟩, ?_⟩
    · refine List.pairwise_cons.2 ⟨?_, filter_pairwise q hi.nodup⟩
      intro b hb h
      have hm := List.mem_filter.1 hb
      exact hp b hm.1 (by simpa using hm.2) h.symm
    · intro b hb
      rcases List.mem_cons.1 hb with h | h
      · subst h; exact hn
      · exact hi.small b (List.mem_filter.1 h).1
    · simp only [bump_max, hu]
  | free p =>
    obtain ⟨b, hb, hbo⟩ := hl
    obtain ⟨q, x⟩ := b
    simp only at hbo; subst hbo
    have hlk := lookup_of_mem hi.nodup hb
    have hx := hi.small _ hb
    have htf := total_filter hi.nodup hb
    simp only [step, header, hi.live, hlk]
    refine ⟨_, rfl, ⟨rfl, filter_pairwise q hi.nodup, ?_, ?_⟩, rfl⟩
    · simp only [holds, hi.use, ← htf]
      generalize total (blocks.filter (fun b => b.1 != q)) = T
      simp only [wrap] at hx ⊢
      omega
    · intro b hb
      exact hi.small b (List.mem_filter.1 hb).1

theorem total_free_le (blocks : List (Nat × Nat)) (p : Nat) :
    total (holds blocks (.free p)) ≤ total blocks := by
  simp only [holds]
  induction blocks with
  | nil => simp [total]
  | cons b bs ih =>
    rw [List.filter_cons]
    split
    · simp [total] at ih ⊢; exact ih
    · simp [total] at ih ⊢; omega

theorem run_inv (cs : List Call) (s : State) (blocks : List (Nat × Nat)) (hi : Inv s blocks)
    (hl : LegalRun blocks cs) (hp : peak blocks cs < 2 ^ 64) (hm : total blocks ≤ s.maxUse) :
    ∃ s', run s cs = .ok s' ∧ Inv s' (atEnd blocks cs) ∧ s'.maxUse = max s.maxUse (peak blocks cs) := by
  induction cs generalizing s blocks with
  | nil => exact ⟨s, rfl, hi, by simp [peak]; omega⟩
  | cons c cs ih =>
    obtain ⟨s1, h1, h2, h3⟩ := step_inv s blocks c hi hl.1
    have hp' : peak (holds blocks c) cs < 2 ^ 64 := by simp only [peak] at hp; omega
    have hle : total (holds blocks c) ≤ peak (holds blocks c) cs := by
      cases cs <;> simp [peak]; omega
    have hw : wrap (total (holds blocks c)) = total (holds blocks c) :=
      Nat.mod_eq_of_lt (Nat.lt_of_le_of_lt hle hp')
    have hm1 : total (holds blocks c) ≤ s1.maxUse := by
      rw [h3]; cases c with
      | free p => simp only; exact Nat.le_trans (total_free_le blocks p) hm
      | malloc n r => simp only [hw]; omega
      | realloc o n r => simp only [hw]; omega
    obtain ⟨s2, g1, g2, g3⟩ := ih s1 (holds blocks c) h2 hl.2 hp' hm1
    refine ⟨s2, by simp [run, h1, g1], g2, ?_⟩
    rw [g3, h3]
    simp only [peak]
    cases c with
    | free p => simp only; omega
    | malloc n r => simp only [hw]; omega
    | realloc o n r => simp only [hw]; omega

/-- **C34** After every legal history (whose totals stay below 2^64) the reported figures are
the total size of the blocks held and the largest total ever held. -/
theorem statistics_exact (cs : List Call) (hl : LegalRun [] cs) (hp : peak [] cs < 2 ^ 64) :
    ∃ s, run {} cs = .ok s ∧ s.inUse = total (atEnd [] cs) ∧ s.maxUse = peak [] cs := by
  obtain ⟨s, h1, h2, h3⟩ := run_inv cs {} [] ⟨rfl, .nil, rfl, by simp⟩ hl hp (by simp [total])
  refine ⟨s, h1, ?_, by rw [h3]; simp⟩
  have hle : ∀ (cs : List Call) (b : List (Nat × Nat)), total (atEnd b cs) ≤ peak b cs := by
    intro cs
    induction cs with
    | nil => intro b; simp [atEnd, peak]
    | cons c cs ih =>
      intro b
      have := ih (holds b c)
      have e : atEnd b (c :: cs) = atEnd (holds b c) cs := rfl
      rw [e]; simp only [peak]; omega
  rw [h2.use]
  exact Nat.mod_eq_of_lt (Nat.lt_of_le_of_lt (hle cs []) hp)

/-- **C34** Without the size restriction the in-use figure is still right modulo 2^64. -/
theorem inUse_mod (cs : List Call) (s : State) (blocks : List (Nat × Nat)) (hi : Inv s blocks)
    (hl : LegalRun blocks cs) :
    ∃ s', run s cs = .ok s' ∧ s'.inUse = total (atEnd blocks cs) % 2 ^ 64 := by
  induction cs generalizing s blocks with
  | nil => exact ⟨s, rfl, hi.use⟩
  | cons c cs ih =>
    obtain ⟨s1, h1, h2, _⟩ := step_inv s blocks c hi hl.1
    obtain ⟨s2, g1, g2⟩ := ih s1 _ h2 hl.2
    exact ⟨s2, by simp [run, h1, g1], g2⟩

example : LegalRun [] [.malloc 10 (some 100), .malloc 20 (some 200), .realloc 100 40 (some 300),
    .free 200] ∧ peak [] [.malloc 10 (some 100), .malloc 20 (some 200), .realloc 100 40 (some 300),
    .free 200] = 60 := by
  constructor
  · simp [LegalRun, Legal, holds]
  · decide

end Jbo.Memory
