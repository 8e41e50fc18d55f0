import Verif.LujvoLemmas
/-!
# The lujvo validity test against the grammar (C24)
-/

namespace Jbo.Lujvo

open Jbo Spec

variable {a b c d e : Char} {t : Word} {n : Nat} {sc hr fc : Bool} {st : Bool}

theorem Lower.tail (h : Lower (a :: t)) : Lower t := fun c hc => h c (List.mem_cons_of_mem _ hc)

theorem fin_ok (h : fin n sc hr fc = .ok true) : sc = true → if n = 2 then fc = true else hr = true := by
  intro hs
  subst hs
  unfold fin at h
  simp only [if_true] at h
  split at h
  · split at h
    · simp_all
    · simp at h
  · simp_all

/-- What acceptance of the rest `t` after `m` components means. -/
def TailOk (t : Word) (m : Nat) (sc hr : Bool) : Prop :=
  ∃ n, Tail false n t ∧ (sc = true → if m + n = 2 then Rafsi .ccv t else hr = true)

theorem TailOk.step {m : Nat} {w : Word} (h : TailOk t (m + 1) sc hr) (hm : 0 < m)
    (hw : ∀ n, Tail false n t → Tail false (n + 1) w) : TailOk w m sc hr := by
  obtain ⟨n, ht, h⟩ := h
  refine ⟨n + 1, hw n ht, fun hs => ?_⟩
  have := Tail_pos ht
  have h' := h hs
  rw [if_neg (by omega)] at h' ⊢
  exact h'

theorem ivl_sound : ∀ (k : Nat) (t : Word), t.length ≤ k → ∀ (m : Nat) (sc hr : Bool), 0 < m → Lower t →
    ivl t m sc hr false = .ok true → TailOk t m sc hr := by
  intro k
  induction k with
  | zero =>
    intro t hk m sc hr hm hl h
    have : t = [] := List.length_eq_zero_iff.1 (by omega)
    subst this
    rw [ivl.eq_def] at h
    simp [isCvccv, isCcvcv, isCvccy, isCcvcy, isCvc, isCvv, isCvav, isCcv] at h
  | succ k ih =>
    intro t hk m sc hr hm hl h
    have hm0 : ¬ m = 0 := by omega
    have e0 : (m == 0) = false := by simpa using hm0
    by_cases h1 : t.length = 5 ∧ isCvccv t
    · obtain ⟨a, b, c, d, e, rfl, ha, hb, hc, hd, he⟩ := of_cvccv hl h1.1 h1.2
      rw [ivl_cvccv ha hb hc hd he, pairok_iff hc hd, if_neg hm0] at h
      split at h
      · rename_i hp
        refine ⟨1, .cvccv ⟨⟨ha, hb, hc, hd, he⟩, of_decide_eq_true hp⟩, fun hs => ?_⟩
        have := fin_ok h hs
        split at this
        · simp at this
        · rename_i h2; rw [if_neg h2]; exact this
      · simp at h
    by_cases h2 : t.length = 5 ∧ isCcvcv t
    · obtain ⟨a, b, c, d, e, rfl, ha, hb, hc, hd, he⟩ := of_ccvcv hl h2.1 h2.2
      rw [ivl_ccvcv ha hb hc hd he, pairok_iff ha hb, if_neg hm0] at h
      split at h
      · rename_i hp
        refine ⟨1, .ccvcv ⟨ha, hb, hc, hd, he⟩ (of_decide_eq_true hp) (by simp), fun hs => ?_⟩
        have := fin_ok h hs
        split at this
        · simp at this
        · rename_i h2; rw [if_neg h2]; exact this
      · simp at h
    by_cases h3 : isCvccy t
    · obtain ⟨a, b, c, d, t, rfl, ha, hb, hc, hd⟩ := of_cvccy hl h3
      rw [ivl_cvccy ha hb hc hd, pairok_iff hc hd] at h
      split at h
      · simp at h
      split at h
      · rename_i hp
        refine (ih t (by simp at hk; omega) (m + 1) sc hr (by omega)
          hl.tail.tail.tail.tail.tail h).step hm (fun n ht => ?_)
        exact .cvccy (w := [a, b, c, d]) ⟨⟨ha, hb, hc, hd⟩, of_decide_eq_true hp⟩ ht
      · simp at h
    by_cases h4 : isCcvcy t
    · obtain ⟨a, b, c, d, t, rfl, ha, hb, hc, hd⟩ := of_ccvcy hl h4
      rw [ivl_ccvcy ha hb hc hd, initialok_iff ha hb] at h
      split at h
      · simp at h
      split at h
      · rename_i hp
        refine (ih t (by simp at hk; omega) (m + 1) sc hr (by omega)
          hl.tail.tail.tail.tail.tail h).step hm (fun n ht => ?_)
        exact .ccvcy (w := [a, b, c, d]) ⟨⟨ha, hb, hc, hd⟩, of_decide_eq_true hp⟩ ht
      · simp at h
    by_cases h5 : isCvc t
    · rw [ivl.eq_def] at h
      simp only [h1, h2, h3, h4, h5, Bool.false_eq_true, dite_false, dite_true, hm0, if_false, e0, Bool.false_and,
        Bool.or_false] at h
      obtain ⟨a, b, c, t, rfl, ha, hb, hc⟩ := of_cvc hl h5
      have l3 := hl.tail.tail.tail
      split at h
      · simp at h
      simp only [chr, List.getD_cons_zero, List.getD_cons_succ, List.drop_succ_cons, List.drop_zero,
        bind, Except.bind] at h
      split at h
      · -- hyphen y
        rename_i hy
        match t, hy with
        | y :: t, hy =>
        simp only [List.getD_cons_zero] at hy
        subst hy
        simp only [List.getD_cons_zero, List.getD_cons_succ, List.drop_succ_cons, List.drop_zero] at h
        split at h
        · simp at h
        rename_i hnp
        have hne : t ≠ [] := by rintro rfl; simp at *
        rw [if_neg hne] at h
        have ok := ih t (by simp at hk; omega) (m + 1) sc hr (by omega) l3.tail h
        refine ok.step hm (fun n ht => .cvcy ha hb hc ht (fun hj => hnp ?_))
        have j := joins_iff hc (Tail_start ht)
        simp only [hj, decide_true] at j
        simpa [chr] using j
      · split at h
        · simp at h
        rename_i hnp
        have hne : t ≠ [] := by rintro rfl; simp at *
        rw [if_neg hne] at h
        have ok := ih t (by simp at hk; omega) (m + 1) sc hr (by omega) l3 h
        refine ok.step hm (fun n ht => .cvcJoin ha hb hc ht ?_)
        have j := joins_iff hc (Tail_start ht)
        refine of_decide_eq_true (j ▸ ?_)
        simpa [chr] using hnp
    by_cases h6 : isCvv t
    · obtain ⟨a, b, c, t, rfl, ha, hb, hc⟩ := of_cvv hl h6
      obtain ⟨m, rfl⟩ : ∃ k, m = k + 1 := ⟨m - 1, by omega⟩
      rw [ivl_cvv ha hb hc] at h
      unfold more at h
      split at h
      · subst t
        refine ⟨1, .cvv ⟨⟨ha, hb, hc⟩, trivial⟩, fun hs => ?_⟩
        have := fin_ok h hs
        split at this
        · simp at this
        · rw [if_neg (by omega)]; exact this
      · refine (ih t (by simp at hk; omega) (m + 2) sc hr (by omega) hl.tail.tail.tail h).step hm
          (fun n ht => ?_)
        exact .cvvMore (w := [a, b, c]) ⟨⟨ha, hb, hc⟩, trivial⟩ ht
    by_cases h7 : isCvav t
    · obtain ⟨a, b, c, t, rfl, ha, hb, hc⟩ := of_cvav hl h7
      obtain ⟨m, rfl⟩ : ∃ k, m = k + 1 := ⟨m - 1, by omega⟩
      rw [ivl_cvhv ha hb hc] at h
      unfold more at h
      split at h
      · subst t
        refine ⟨1, .cvhv ⟨⟨ha, hb, rfl, hc⟩, trivial⟩, fun hs => ?_⟩
        have := fin_ok h hs
        split at this
        · simp at this
        · rw [if_neg (by omega)]; exact this
      · refine (ih t (by simp at hk; omega) (m + 2) sc hr (by omega) hl.tail.tail.tail.tail h).step hm
          (fun n ht => ?_)
        exact .cvhvMore (w := [a, b, '\'', c]) ⟨⟨ha, hb, rfl, hc⟩, trivial⟩ ht
    by_cases h8 : isCcv t
    · rw [ivl.eq_def] at h
      simp only [h1, h2, h3, h4, h5, h6, h7, h8, Bool.false_eq_true, dite_false, dite_true] at h
      obtain ⟨a, b, c, t, rfl, ha, hb, hc⟩ := of_ccv hl h8
      simp only [chr, List.getD_cons_zero, List.getD_cons_succ, List.drop_succ_cons, List.drop_zero,
        initialok_iff ha hb] at h
      split at h
      · simp at h
      rename_i hi
      have hi : Initial a b := by simpa using hi
      split at h
      · subst t
        refine ⟨1, .ccv ⟨⟨ha, hb, hc⟩, hi⟩, fun hs => ?_⟩
        split
        · exact ⟨⟨ha, hb, hc⟩, hi⟩
        · rename_i hne
          have := fin_ok (fc := true) (hr := hr) (sc := sc) (n := m + 1) (by simpa [fin] using h) hs
          rw [if_neg hne] at this
          exact this
      · rename_i hne
        have e3 : ((a :: b :: c :: t).length == 3) = false := by
          cases t with
          | nil => simp at hne
          | cons => simp
        rw [e3] at h
        simp only [Bool.or_false] at h
        refine (ih t (by simp at hk; omega) (m + 1) sc hr (by omega) hl.tail.tail.tail h).step hm
          (fun n ht => ?_)
        exact .ccvMore (w := [a, b, c]) ⟨⟨ha, hb, hc⟩, hi⟩ ht
    · rw [ivl.eq_def] at h
      simp only [h1, h2, h3, h4, h5, h6, h7, h8, Bool.false_eq_true, dite_false] at h
      simp at h

theorem ex_dite {p : Prop} [Decidable p] {f : p → Except Crash Bool} {g : ¬ p → Except Crash Bool}
    (hf : ∀ h, ∃ v, f h = .ok v) (hg : ∀ h, ∃ v, g h = .ok v) : ∃ v, dite p f g = .ok v := by
  by_cases h : p
  · rw [dif_pos h]; exact hf h
  · rw [dif_neg h]; exact hg h

theorem ex_ite {p : Prop} [Decidable p] {f g : Except Crash Bool}
    (hf : p → ∃ v, f = .ok v) (hg : ¬ p → ∃ v, g = .ok v) : ∃ v, ite p f g = .ok v := by
  by_cases h : p
  · rw [if_pos h]; exact hf h
  · rw [if_neg h]; exact hg h

/-- After the first component, and without an initial CVV, the unassigned flag is never read. -/
theorem ivl_total : ∀ (k : Nat) (t : Word), t.length ≤ k → ∀ (m : Nat) (hr fc : Bool), 0 < m →
    ∃ v, ivl t m false hr fc = .ok v := by
  intro k
  induction k with
  | zero =>
    intro t hk m hr fc hm
    have : t = [] := List.length_eq_zero_iff.1 (by omega)
    subst this
    rw [ivl.eq_def]
    simp [isCvccv, isCcvcv, isCvccy, isCcvcy, isCvc, isCvv, isCvav, isCcv]
  | succ k ih =>
    intro t hk m hr fc hm
    have hm0 : ¬ m = 0 := by omega
    have nx : ∀ (j : Nat) (fc : Bool), 0 < j → j ≤ t.length →
        ∃ v, (if t.drop j = [] then
          if false = true then
            if m + 1 = 2 then if fc then .ok true else .error .uninit
            else .ok hr
          else .ok true
        else ivl (t.drop j) (m + 1) false hr fc) = .ok v := by
      intro j fc hj hjt
      split
      · exact ⟨true, rfl⟩
      · exact ih _ (by simp; omega) _ _ _ (by omega)
    rw [ivl.eq_def]
    refine ex_dite (fun h => ?_) (fun _ => ex_dite (fun h => ?_) (fun _ => ex_dite (fun h => ?_)
      (fun _ => ex_dite (fun h => ?_) (fun _ => ex_dite (fun h => ?_) (fun _ => ex_dite (fun h => ?_)
      (fun _ => ex_dite (fun h => ?_) (fun _ => ex_dite (fun h => ?_) (fun _ => ⟨_, rfl⟩))))))))
    · exact ex_ite (fun _ => ⟨_, rfl⟩) (fun _ => ex_ite (fun _ => ⟨_, rfl⟩)
        (fun _ => nx _ _ (by omega) (by omega)))
    · exact ex_ite (fun _ => ⟨_, rfl⟩) (fun _ => ex_ite (fun _ => ⟨_, rfl⟩)
        (fun _ => nx _ _ (by omega) (by omega)))
    · have : 5 ≤ t.length := by simp [isCvccy] at h; omega
      exact ex_ite (fun _ => ⟨_, rfl⟩) (fun _ => ex_ite (fun _ => ⟨_, rfl⟩)
        (fun _ => nx _ _ (by omega) (by omega)))
    · have : 5 ≤ t.length := by simp [isCcvcy] at h; omega
      exact ex_ite (fun _ => ⟨_, rfl⟩) (fun _ => ex_ite (fun _ => ⟨_, rfl⟩)
        (fun _ => nx _ _ (by omega) (by omega)))
    · refine ex_dite (fun _ => ⟨_, rfl⟩) (fun h6 => ?_)
      rw [if_neg hm0, if_neg hm0]
      exact ex_ite (fun _ => ex_ite (fun _ => ⟨_, rfl⟩) (fun _ => nx _ _ (by omega) (by omega)))
        (fun _ => ex_ite (fun _ => ⟨_, rfl⟩) (fun _ => nx _ _ (by omega) (by omega)))
    · have : 3 ≤ t.length := by simp [isCvv] at h; omega
      rw [if_neg hm0]
      exact nx _ _ (by omega) (by omega)
    · have : 4 ≤ t.length := by simp [isCvav] at h; omega
      rw [if_neg hm0]
      exact nx _ _ (by omega) (by omega)
    · have : 3 ≤ t.length := by simp [isCcv] at h; omega
      exact ex_ite (fun _ => ⟨_, rfl⟩) (fun _ => nx _ _ (by omega) (by omega))

theorem ivl_tail_false (h : Tail st n t) {m : Nat} (hm : 0 < m) : ivl t m false hr fc = .ok true := by
  obtain ⟨_, e⟩ := ivl_tail h m false hr fc hm
  rw [e]; rfl

/-- The test applied to a word that starts with two consonants. -/
theorem cc_complete {w : Word} (h : CcLujvo st w) : isValidLujvo w = .ok true := by
  unfold isValidLujvo
  cases h with
  | single h =>
    obtain ⟨a, b, c, rfl, ha, hb, hc, hi⟩ := shape_ccv h
    rw [ivl_ccv_end ha hb hc, initialok_iff ha hb]
    simp [hi, fin]
  | ccv h ht =>
    obtain ⟨a, b, c, rfl, ha, hb, hc, hi⟩ := shape_ccv h
    simp only [List.cons_append, List.nil_append]
    rw [ivl_ccv ha hb hc (Tail_start ht), initialok_iff ha hb, ivl_tail_false ht (by omega)]
    simp [hi]
  | ccvcy h ht =>
    obtain ⟨a, b, c, d, rfl, ha, hb, hc, hd, hi⟩ := shape_ccvc h
    simp only [List.cons_append, List.nil_append]
    rw [ivl_ccvcy ha hb hc hd, initialok_iff ha hb, if_neg (Tail_start ht).ne_nil,
      ivl_tail_false ht (by omega)]
    simp [hi]

theorem ivl_sound' {m : Nat} (hm : 0 < m) (hl : Lower t) (h : ivl t m sc hr false = .ok true) :
    TailOk t m sc hr := ivl_sound t.length t (Nat.le_refl _) m sc hr hm hl h

theorem cc_sound {a b : Char} {u : Word} (ha : C a) (hb : C b) (hl : Lower (a :: b :: u)) :
    (isValidLujvo (a :: b :: u) = .ok true → CcLujvo false (a :: b :: u)) ∧
    ∃ v, isValidLujvo (a :: b :: u) = .ok v := by
  unfold isValidLujvo
  have h1 : isCvccv (a :: b :: u) = false := by simp [isCvccv, chr, hb.isV]
  have h3 : isCvccy (a :: b :: u) = false := by simp [isCvccy, chr, hb.isV]
  have h5 : isCvc (a :: b :: u) = false := by simp [isCvc, chr, hb.isV]
  have h6 : isCvv (a :: b :: u) = false := by simp [isCvv, chr, hb.isV]
  have h7 : isCvav (a :: b :: u) = false := by simp [isCvav, chr, hb.isV]
  rw [ivl.eq_def]
  simp only [h1, h3, h5, h6, h7, Bool.false_eq_true, and_false, dite_false, if_true, if_false]
  split
  · exact ⟨fun h => by simp at h, _, rfl⟩
  split
  · rename_i h4
    obtain ⟨a, b, c, d, t, e, ha, hb, hc, hd⟩ := of_ccvcy hl h4
    rw [e] at hl ⊢
    simp only [chr, List.getD_cons_zero, List.getD_cons_succ, List.drop_succ_cons, List.drop_zero,
        initialok_iff ha hb]
    split
    · exact ⟨fun h => by simp at h, _, rfl⟩
    rename_i h5
    split
    · exact ⟨fun h => by simp at h, _, rfl⟩
    rename_i hi
    have hi : Initial a b := by simpa using hi
    split
    · rename_i e; simp [e] at h5
    · refine ⟨fun h => ?_, ivl_total _ _ (Nat.le_refl _) _ _ _ (by omega)⟩
      obtain ⟨n, ht, _⟩ := ivl_sound' (by omega) hl.tail.tail.tail.tail.tail h
      exact .ccvcy (w := [a, b, c, d]) ⟨⟨ha, hb, hc, hd⟩, hi⟩ ht
  split
  · rename_i h8
    obtain ⟨a, b, c, t, e, ha, hb, hc⟩ := of_ccv hl h8
    rw [e] at hl ⊢
    simp only [chr, List.getD_cons_zero, List.getD_cons_succ, List.drop_succ_cons, List.drop_zero,
        initialok_iff ha hb]
    split
    · exact ⟨fun h => by simp at h, _, rfl⟩
    rename_i hi
    have hi : Initial a b := by simpa using hi
    split
    · subst t
      exact ⟨fun _ => .single ⟨⟨ha, hb, hc⟩, hi⟩, _, rfl⟩
    · rename_i hne
      refine ⟨fun h => ?_, ivl_total _ _ (Nat.le_refl _) _ _ _ (by omega)⟩
      have e3 : ((a :: b :: c :: t).length == 3) = false := by
        cases t with
        | nil => simp at hne
        | cons => simp
      rw [e3] at h
      obtain ⟨n, ht, _⟩ := ivl_sound' (by omega) hl.tail.tail.tail h
      exact .ccv (w := [a, b, c]) ⟨⟨ha, hb, hc⟩, hi⟩ ht
  · exact ⟨fun h => by simp at h, _, rfl⟩

/-- C24, for words that start with two consonants: the test gives a definite answer, and accepts
exactly the words of the grammar. -/
theorem cc_iff {a b : Char} {u : Word} (ha : C a) (hb : C b) (hl : Lower (a :: b :: u)) :
    (isValidLujvo (a :: b :: u) = .ok true ↔ CcLujvo false (a :: b :: u)) ∧
    (isValidLujvo (a :: b :: u) = .ok false ↔ ¬ CcLujvo false (a :: b :: u)) := by
  obtain ⟨h1, v, h2⟩ := cc_sound ha hb hl
  refine ⟨⟨h1, cc_complete⟩, fun h hc => ?_, fun h => ?_⟩
  · rw [cc_complete hc] at h; simp at h
  · cases v with
    | false => exact h2
    | true => exact absurd (h1 h2) h

/-! ## Letters of well-formed words -/

theorem C.mem (h : C a) : a ∈ letters := by revert a; unfold C; decide
theorem V.mem (h : V a) : a ∈ letters := by revert a; unfold V; decide

theorem lower_append {u w : Word} (hu : Lower u) (hw : Lower w) : Lower (u ++ w) := by
  intro c hc
  rcases List.mem_append.1 hc with h | h
  · exact hu c h
  · exact hw c h

theorem lower_cons {w : Word} (ha : a ∈ letters) (hw : Lower w) : Lower (a :: w) := by
  intro c hc
  rcases List.mem_cons.1 hc with rfl | h
  · exact ha
  · exact hw c h

theorem shape_lower {s : Shape} {w : Word} (h : HasShape s w) : Lower w := by
  have hapos : '\'' ∈ letters := by decide
  have hnil : Lower [] := by simp [Lower]
  unfold HasShape at h
  split at h
  · exact lower_cons (C.mem h.1) (lower_cons (V.mem h.2.1) (lower_cons (C.mem h.2.2.1)
      (lower_cons (C.mem h.2.2.2.1) (lower_cons (V.mem h.2.2.2.2) hnil))))
  · exact lower_cons (C.mem h.1) (lower_cons (V.mem h.2.1) (lower_cons (C.mem h.2.2.1)
      (lower_cons (C.mem h.2.2.2) hnil)))
  · exact lower_cons (C.mem h.1) (lower_cons (C.mem h.2.1) (lower_cons (V.mem h.2.2.1)
      (lower_cons (C.mem h.2.2.2.1) (lower_cons (V.mem h.2.2.2.2) hnil))))
  · exact lower_cons (C.mem h.1) (lower_cons (C.mem h.2.1) (lower_cons (V.mem h.2.2.1)
      (lower_cons (C.mem h.2.2.2) hnil)))
  · exact lower_cons (C.mem h.1) (lower_cons (V.mem h.2.1) (lower_cons (C.mem h.2.2) hnil))
  · exact lower_cons (C.mem h.1) (lower_cons (V.mem h.2.1) (lower_cons (h.2.2.1 ▸ hapos)
      (lower_cons (V.mem h.2.2.2) hnil)))
  · exact lower_cons (C.mem h.1) (lower_cons (C.mem h.2.1) (lower_cons (V.mem h.2.2) hnil))
  · exact lower_cons (C.mem h.1) (lower_cons (V.mem h.2.1) (lower_cons (V.mem h.2.2) hnil))
  · contradiction

theorem tail_lower (h : Tail st n t) : Lower t := by
  have hy : 'y' ∈ letters := by decide
  induction h with
  | cvccv h => exact shape_lower h.1
  | ccvcv h _ _ => exact shape_lower h
  | cvv h => exact shape_lower h.1
  | cvhv h => exact shape_lower h.1
  | ccv h => exact shape_lower h.1
  | cvccy h _ ih => exact lower_append (shape_lower h.1) (lower_cons hy ih)
  | ccvcy h _ ih => exact lower_append (shape_lower h.1) (lower_cons hy ih)
  | cvcJoin ha hb hc _ _ ih => exact lower_cons (C.mem ha) (lower_cons (V.mem hb) (lower_cons (C.mem hc) ih))
  | cvcy ha hb hc _ _ ih =>
    exact lower_cons (C.mem ha) (lower_cons (V.mem hb) (lower_cons (C.mem hc) (lower_cons hy ih)))
  | cvvMore h _ ih => exact lower_append (shape_lower h.1) ih
  | cvhvMore h _ ih => exact lower_append (shape_lower h.1) ih
  | ccvMore h _ ih => exact lower_append (shape_lower h.1) ih

/-- The test of `c` put in front of the rest of a lujvo decides the tosmabru rule. -/
theorem smabru_iff (hc : C c) (ht : Tail st n t) :
    (ivl (c :: t) 0 false false false = .ok true ↔ CcLujvo false (c :: t)) ∧
    (ivl (c :: t) 0 false false false = .ok false ↔ ¬ CcLujvo false (c :: t)) := by
  have hl := lower_cons (C.mem hc) (tail_lower ht)
  obtain ⟨x, y, z, u, rfl, hx, _⟩ := Tail_start ht
  exact cc_iff hc hx hl

/-! ## The whole test -/

theorem cv_sound {s : Shape} {w : Word} (hs : s = .cvv ∨ s = .cvhv) (hw : Rafsi s w) (hl : Lower t)
    (h : (if t.length < 3 then .ok false
      else if (chr t 0 == 'r' && (isC (chr t 1) && chr t 1 != 'r')) ||
          (chr t 0 == 'n' && chr t 1 == 'r') then more (t.drop 1) 1 true true false
      else more t 1 true false false) = .ok true) : Valid false (w ++ t) := by
  split at h
  · simp at h
  rename_i h3
  match t, h3, h with
  | [], h3, _ | [_], h3, _ | [_, _], h3, _ => simp at h3
  | x :: y :: z :: u, _, h =>
  simp only [chr, List.getD_cons_zero, List.getD_cons_succ, List.drop_succ_cons, List.drop_zero] at h
  split at h
  · rename_i hx
    have hm : more (y :: z :: u) 1 true true false = ivl (y :: z :: u) 1 true true false := by simp [more]
    rw [hm] at h
    obtain ⟨n, ht, _⟩ := ivl_sound' (by omega) hl.tail h
    have e : x = rnHyphen (y :: z :: u) := by
      simp only [rnHyphen, List.head?_cons, Option.some.injEq]
      simp only [Bool.or_eq_true, Bool.and_eq_true, beq_iff_eq, bne_iff_ne] at hx
      rcases hx with ⟨rfl, _, h⟩ | ⟨rfl, rfl⟩
      · rw [if_neg h]
      · rfl
    rw [e]
    exact .cvHyphen hs hw ht
  · have hm : more (x :: y :: z :: u) 1 true false false = ivl (x :: y :: z :: u) 1 true false false := by
      simp [more]
    rw [hm] at h
    obtain ⟨n, ht, hn⟩ := ivl_sound' (by omega) hl h
    have := hn rfl
    split at this
    · exact .cvCcv hs hw this
    · simp at this

/-- C24, first half: a word that the test accepts is a lujvo. -/
theorem valid_sound {w : Word} (hl : Lower w) (h : isValidLujvo w = .ok true) : Valid false w := by
  unfold isValidLujvo at h
  by_cases h1 : w.length = 5 ∧ isCvccv w
  · obtain ⟨a, b, c, d, e, rfl, ha, hb, hc, hd, he⟩ := of_cvccv hl h1.1 h1.2
    rw [ivl_cvccv ha hb hc hd he] at h
    simp at h
  by_cases h2 : w.length = 5 ∧ isCcvcv w
  · obtain ⟨a, b, c, d, e, rfl, ha, hb, hc, hd, he⟩ := of_ccvcv hl h2.1 h2.2
    rw [ivl_ccvcv ha hb hc hd he] at h
    simp at h
  by_cases h3 : isCvccy w
  · obtain ⟨a, b, c, d, t, rfl, ha, hb, hc, hd⟩ := of_cvccy hl h3
    rw [ivl_cvccy ha hb hc hd, pairok_iff hc hd] at h
    split at h
    · simp at h
    split at h
    · rename_i hp
      obtain ⟨n, ht, _⟩ := ivl_sound' (by omega) hl.tail.tail.tail.tail.tail h
      exact .cvccy (w := [a, b, c, d]) ⟨⟨ha, hb, hc, hd⟩, of_decide_eq_true hp⟩ ht
    · simp at h
  by_cases h5 : isCvc w
  · have h4 : isCcvcy w = false := by
      obtain ⟨a, b, c, t, rfl, ha, hb, hc⟩ := of_cvc hl h5
      simp [isCcvcy, chr, hb.isC]
    rw [ivl.eq_def] at h
    simp only [h1, h2, h3, h4, h5, Bool.false_eq_true, dite_false, dite_true, if_true, bind,
      Except.bind] at h
    obtain ⟨a, b, c, t, rfl, ha, hb, hc⟩ := of_cvc hl h5
    have l3 := hl.tail.tail.tail
    split at h
    · simp at h
    simp only [chr, List.getD_cons_zero, List.getD_cons_succ, List.drop_succ_cons, List.drop_zero] at h
    split at h
    · rename_i hy
      match t, hy with
      | y :: t, hy =>
      simp only [List.getD_cons_zero] at hy
      subst hy
      simp only [List.getD_cons_zero, List.getD_cons_succ, List.drop_succ_cons, List.drop_zero] at h
      split at h
      · simp at h
      rename_i v hv
      split at h
      · simp at h
      rename_i hnp
      have hne : t ≠ [] := by rintro rfl; simp at *
      rw [if_neg hne] at h
      obtain ⟨n, ht, _⟩ := ivl_sound' (by omega) l3.tail h
      refine .cvcy ha hb hc ht ?_
      by_cases hj : Joins c t
      · right
        have j := joins_iff hc (Tail_start ht)
        simp only [hj, decide_true] at j
        cases v with
        | true => exact (smabru_iff hc ht).1.1 hv
        | false => exact absurd (by simpa [chr] using j) hnp
      · exact .inl hj
    · split at h
      · simp at h
      rename_i v hv
      split at h
      · simp at h
      rename_i hnp
      have hne : t ≠ [] := by rintro rfl; simp at *
      rw [if_neg hne] at h
      obtain ⟨n, ht, _⟩ := ivl_sound' (by omega) l3 h
      have j := joins_iff hc (Tail_start ht)
      cases v with
      | true => simp at hnp
      | false =>
        refine .cvcJoin ha hb hc ht ?_ ((smabru_iff hc ht).2.1 hv)
        refine of_decide_eq_true (j ▸ ?_)
        simpa [chr] using hnp
  by_cases h6 : isCvv w
  · obtain ⟨a, b, c, t, rfl, ha, hb, hc⟩ := of_cvv hl h6
    rw [ivl_cvv_first ha hb hc] at h
    have l3 := hl.tail.tail.tail
    have hr : Rafsi .cvv [a, b, c] := ⟨⟨ha, hb, hc⟩, trivial⟩
    exact cv_sound (s := .cvv) (.inl rfl) hr l3 h
  by_cases h7 : isCvav w
  · obtain ⟨a, b, c, t, rfl, ha, hb, hc⟩ := of_cvav hl h7
    rw [ivl_cvhv_first ha hb hc] at h
    have l3 := hl.tail.tail.tail.tail
    have hr : Rafsi .cvhv [a, b, '\'', c] := ⟨⟨ha, hb, rfl, hc⟩, trivial⟩
    exact cv_sound (s := .cvhv) (.inr rfl) hr l3 h
  by_cases h4 : isCcvcy w
  · obtain ⟨a, b, c, d, t, rfl, ha, hb, _, _⟩ := of_ccvcy hl h4
    exact .cc ((cc_sound ha hb hl).1 h)
  by_cases h8 : isCcv w
  · obtain ⟨a, b, c, t, rfl, ha, hb, _⟩ := of_ccv hl h8
    exact .cc ((cc_sound ha hb hl).1 h)
  · rw [ivl.eq_def] at h
    simp only [h1, h2, h3, h4, h5, h6, h7, h8, Bool.false_eq_true, dite_false] at h
    simp at h

theorem ivl_ccv_tail (h : Rafsi .ccv t) (m : Nat) : ivl t m sc hr fc = fin (m + 1) sc hr true := by
  obtain ⟨a, b, c, rfl, ha, hb, hc, hi⟩ := shape_ccv h
  rw [ivl_ccv_end ha hb hc, initialok_iff ha hb]
  simp [hi]

theorem cv_first {s : Shape} {w : Word} (hs : s = .cvv ∨ s = .cvhv) (hw : Rafsi s w) (t : Word) :
    ivl (w ++ t) 0 false false false = (if t.length < 3 then .ok false
      else if (chr t 0 == 'r' && (isC (chr t 1) && chr t 1 != 'r')) ||
          (chr t 0 == 'n' && chr t 1 == 'r') then more (t.drop 1) 1 true true false
      else more t 1 true false false) := by
  rcases hs with rfl | rfl
  · obtain ⟨a, b, c, rfl, ha, hb, hc⟩ := shape_cvv hw
    exact ivl_cvv_first ha hb hc
  · obtain ⟨a, b, c, rfl, ha, hb, hc⟩ := shape_cvhv hw
    exact ivl_cvhv_first ha hb hc

theorem initial_ne_rn (h : Initial a b) : a ≠ 'r' ∧ a ≠ 'n' := by
  have : ∀ p ∈ initialPairs, p.1 ≠ 'r' ∧ p.1 ≠ 'n' := by decide
  exact this _ h

/-- An initial CVV or CV'V with its hyphen. -/
theorem cvHyphen_eq {s : Shape} {w : Word} (hs : s = .cvv ∨ s = .cvhv) (hw : Rafsi s w)
    (ht : Tail st n t) :
    isValidLujvo (w ++ rnHyphen t :: t) = ivl t 1 true true false := by
  unfold isValidLujvo
  rw [cv_first hs hw]
  obtain ⟨x, y, z, u, rfl, hx, _⟩ := Tail_start ht
  have e : ((rnHyphen (x :: y :: z :: u) == 'r' && (isC x && x != 'r')) ||
      (rnHyphen (x :: y :: z :: u) == 'n' && x == 'r')) = true := by
    by_cases h : x = 'r' <;> simp [rnHyphen, h, hx.isC]
  simp only [chr, List.getD_cons_zero, List.getD_cons_succ, List.drop_succ_cons, List.drop_zero, e,
    if_true, List.length_cons]
  rw [if_neg (by omega)]
  simp [more]

/-- C24, second half: every lujvo is accepted, except that the verdict on some lujvo with two
components, the first a hyphenated CVV or CV'V and the second not a CCV, depends on the unassigned
`final_ccv`. -/
theorem valid_complete {w : Word} (h : Valid false w) :
    isValidLujvo w = .ok true ∨
    (isValidLujvo w = .error .uninit ∧ ∃ s u t, (s = .cvv ∨ s = .cvhv) ∧ Rafsi s u ∧
      w = u ++ rnHyphen t :: t ∧ Tail false 1 t ∧ ¬ Rafsi .ccv t) := by
  cases h with
  | cc h => exact .inl (cc_complete h)
  | cvccy h ht =>
    obtain ⟨a, b, c, d, rfl, ha, hb, hc, hd, hp⟩ := shape_cvcc h
    left
    unfold isValidLujvo
    simp only [List.cons_append, List.nil_append]
    rw [ivl_cvccy ha hb hc hd, pairok_iff hc hd, if_neg (Tail_start ht).ne_nil,
      ivl_tail_false ht (by omega)]
    simp [hp]
  | @cvcJoin a b c t n ha hb hc ht hj hs =>
    left
    unfold isValidLujvo
    have j := joins_iff hc (Tail_start ht)
    simp only [hj, decide_true, Bool.and_eq_true, Bool.not_eq_true'] at j
    rw [ivl_cvc ha hb hc (Tail_start ht), if_pos rfl, (smabru_iff hc ht).2.2 hs,
      ivl_tail_false ht (by omega)]
    simp [bind, Except.bind, j.1, j.2]
  | @cvcy a b c t n ha hb hc ht hs =>
    left
    unfold isValidLujvo
    have j := joins_iff hc (Tail_start ht)
    rw [ivl_cvcy ha hb hc (Tail_start ht), if_pos rfl, ivl_tail_false ht (by omega)]
    by_cases hcc : CcLujvo false (c :: t)
    · rw [(smabru_iff hc ht).1.2 hcc]
      simp [bind, Except.bind]
    · rw [(smabru_iff hc ht).2.2 hcc]
      have hj := hs.resolve_right hcc
      simp only [hj, decide_false] at j
      simp only [bind, Except.bind, Bool.and_false, Bool.or_false, j]
      simp
  | @cvHyphen s w t n hs hw ht =>
    rw [cvHyphen_eq hs hw ht]
    obtain ⟨fc', e⟩ := ivl_tail ht 1 true true false (by omega)
    by_cases hn : n = 1
    · subst hn
      by_cases hccv : Rafsi .ccv t
      · left; rw [ivl_ccv_tail hccv]; rfl
      · cases fc' with
        | true => left; rw [e]; rfl
        | false => right; exact ⟨by rw [e]; rfl, s, w, t, hs, hw, rfl, ht, hccv⟩
    · left
      rw [e, fin, if_pos rfl, if_neg (by omega)]
  | @cvCcv s w t hs hw ht =>
    left
    unfold isValidLujvo
    rw [cv_first hs hw]
    have hi := ivl_ccv_tail (sc := true) (hr := false) (fc := false) ht 1
    obtain ⟨x, y, z, rfl, hx, hy, hz, hxy⟩ := shape_ccv ht
    obtain ⟨h1, h2⟩ := initial_ne_rn hxy
    simp [chr, h1, h2, more, hi, fin]

/-! ## What the validity test gets wrong -/

/-- Reading `final_ccv` before it is assigned is reachable: the ordinary lujvo `soirsai` (sonci sanmi)
is one case. -/
theorem valid_uninit : isValidLujvo "soirsai".toList = .error .uninit ∧
    Valid true "soirsai".toList := by
  refine ⟨by decide +kernel, ?_⟩
  exact .cvHyphen (s := .cvv) (w := ['s', 'o', 'i']) (t := ['s', 'a', 'i']) (.inl rfl)
    (by decide) (.cvv (by decide))

/-- In a final CCVCV the test only asks for a permitted medial pair: it accepts `blarkabe`, whose
last part starts with the pair rk that no word can start with. -/
theorem valid_accepts_bad_initial : isValidLujvo "blarkabe".toList = .ok true ∧
    ¬ Initial 'r' 'k' := by
  constructor <;> decide +kernel

/-! ## Concrete cases -/

example : CcLujvo false "smabru".toList :=
  .ccv (w := ['s', 'm', 'a']) (t := ['b', 'r', 'u']) (by decide) (.ccv (by decide))

example : isValidLujvo "tosmabru".toList = .ok false ∧ isValidLujvo "tosymabru".toList = .ok true ∧
    isValidLujvo "jbobau".toList = .ok true ∧ isValidLujvo "xekskapi".toList = .ok true ∧
    isValidLujvo "voivla".toList = .ok true ∧ isValidLujvo "brivlatai".toList = .ok true ∧
    isValidLujvo "fu'ivla".toList = .ok true ∧ isValidLujvo "fu'irvla".toList = .ok true := by
  decide +kernel

example : Valid false "tosymabru".toList :=
  valid_sound (by unfold Lower; decide) (by decide +kernel)

example : Valid false "xekskapi".toList :=
  valid_sound (by unfold Lower; decide) (by decide +kernel)

end Jbo.Lujvo
