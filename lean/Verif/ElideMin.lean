import Verif.ElideSpec
/-!
# The minimal patterns
-/

namespace Jbo.Elide

theorem canShiftAt_none {f : Nat → Bool} {k : Nat} : canShiftAt f k = none ↔ ∀ j < k, f j = false := by
  induction k with
  | zero => simp [canShiftAt]
  | succ k ih =>
    rw [canShiftAt]
    by_cases h : f k = true
    · rw [if_pos h]
      simp only [reduceCtorEq, false_iff]
      intro hh
      have := hh k (by omega)
      rw [h] at this; cases this
    · rw [if_neg h, ih]
      constructor
      · intro hh j hj
        by_cases hjk : j = k
        · subst hjk; simpa using h
        · exact hh j (by omega)
      · exact fun hh j hj => hh j (by omega)

theorem canShiftAt_some {f : Nat → Bool} {k c : Nat} (h : canShiftAt f k = some c) :
    c < k ∧ f c = true ∧ ∀ j < k, f j = true → j ≤ c := by
  induction k with
  | zero => simp [canShiftAt] at h
  | succ k ih =>
    rw [canShiftAt] at h
    by_cases hk : f k = true
    · rw [if_pos hk] at h
      injection h with h
      subst h
      exact ⟨by omega, hk, fun j hj _ => by omega⟩
    · rw [if_neg hk] at h
      obtain ⟨h1, h2, h3⟩ := ih h
      refine ⟨by omega, h2, fun j hj hf => ?_⟩
      by_cases hjk : j = k
      · subst hjk; exact absurd hf hk
      · exact h3 j (by omega) hf

/-- The patterns, without the words already chosen. -/
def ext (set : Nat → Nat → Bool) (tok : Nat) (prev : Nat) : List (List Nat) :=
  match canShiftAt (set tok) tok with
  | none => [[]]
  | some c => (List.range' c (min tok prev - c)).flatMap fun i =>
      if _h : i < tok then (ext set i c).map (· ++ [i]) else []
termination_by tok

theorem showMinimal_eq (set : Nat → Nat → Bool) (n : Nat) (tok : Nat) : ∀ (later : List Nat) (prev : Nat),
    showMinimal set n tok later prev =
      ((ext set tok prev).map (· ++ later)).filter (fun p => decide (p.length < n - 1)) := by
  induction tok using Nat.strongRecOn with
  | ind tok ih =>
    intro later prev
    rw [showMinimal.eq_def, ext.eq_def]
    cases hc : canShiftAt (set tok) tok with
    | none => simp [List.filter_cons]
    | some c =>
      simp only
      rw [List.map_flatMap, List.filter_flatMap]
      congr 1
      funext i
      by_cases hi : i < tok
      · rw [dif_pos hi, dif_pos hi, ih i hi, List.map_map]
        congr 2
        funext p
        simp
      · rw [dif_neg hi, dif_neg hi]
        rfl

section
variable {haz : Nat → Nat → Prop}

theorem guarded_nil {tok : Nat} : Guarded haz tok [] ↔ ∀ j < tok, ¬ haz tok j := by
  constructor
  · intro h j hj hh
    obtain ⟨g, hg, _⟩ := h tok (Or.inr rfl) j hj hh
    cases hg
  · intro h k hk j hj hh
    rcases hk with hk | rfl
    · cases hk
    · exact absurd hh (h j hj)

theorem choice_snoc {tok i : Nat} {q : List Nat} : Choice tok (q ++ [i]) ↔ i < tok ∧ Choice i q := by
  unfold Choice
  rw [List.pairwise_append]
  constructor
  · rintro ⟨⟨h1, _, h3⟩, h4⟩
    exact ⟨h4 i (by simp), h1, fun k hk => h3 k hk i (by simp)⟩
  · rintro ⟨h1, h2, h3⟩
    refine ⟨⟨h2, by simp, fun a ha b hb => ?_⟩, fun k hk => ?_⟩
    · rw [List.mem_singleton] at hb; subst hb; exact h3 a ha
    · rcases List.mem_append.1 hk with hk | hk
      · exact Nat.lt_trans (h3 k hk) h1
      · rw [List.mem_singleton] at hk; subst hk; exact h1

theorem guarded_snoc {tok i : Nat} {q : List Nat} (hc : Choice tok (q ++ [i])) :
    Guarded haz tok (q ++ [i]) ↔ Guarded haz i q ∧ ∀ j < tok, haz tok j → j ≤ i := by
  obtain ⟨h1, h2, h3⟩ := choice_snoc.1 hc
  constructor
  · intro h
    refine ⟨fun k hk j hj hh => ?_, fun j hj hh => ?_⟩
    · have hk' : k ∈ q ++ [i] := by
        rcases hk with hk | rfl
        · exact List.mem_append_left _ hk
        · simp
      have hki : k ≤ i := by
        rcases hk with hk | rfl
        · exact Nat.le_of_lt (h3 k hk)
        · exact Nat.le_refl _
      obtain ⟨g, g1, g2, g3⟩ := h k (Or.inl hk') j hj hh
      rcases List.mem_append.1 g1 with g1 | g1
      · exact ⟨g, g1, g2, g3⟩
      · rw [List.mem_singleton] at g1; subst g1; omega
    · obtain ⟨g, g1, g2, g3⟩ := h tok (Or.inr rfl) j hj hh
      rcases List.mem_append.1 g1 with g1 | g1
      · have := h3 g g1; omega
      · rw [List.mem_singleton] at g1; subst g1; exact g2
  · rintro ⟨h, h'⟩ k hk j hj hh
    rcases hk with hk | rfl
    · have : k ∈ q ∨ k = i := by simpa using hk
      obtain ⟨g, g1, g2, g3⟩ := h k this j hj hh
      exact ⟨g, List.mem_append_left _ g1, g2, g3⟩
    · exact ⟨i, by simp, h' j hj hh, h1⟩

/-- A minimal choice, with its last word set apart. -/
theorem minimal_snoc {tok i : Nat} {q : List Nat} : Minimal haz tok (q ++ [i]) ↔
    i < tok ∧ Minimal haz i q ∧ (∀ j < tok, haz tok j → j ≤ i) ∧ ∃ c < tok, haz tok c ∧ ∀ k ∈ q, k < c := by
  constructor
  · rintro ⟨hc, hg, hm⟩
    obtain ⟨h1, h2⟩ := choice_snoc.1 hc
    obtain ⟨h3, h4⟩ := (guarded_snoc hc).1 hg
    refine ⟨h1, ⟨h2, h3, fun less hl hne hgl => ?_⟩, h4, ?_⟩
    · apply hm (less ++ [i]) (List.Sublist.append hl (List.Sublist.refl _)) (fun h => hne (List.append_cancel_right h))
      refine (guarded_snoc (choice_snoc.2 ⟨h1, ?_⟩)).2 ⟨hgl, h4⟩
      exact ⟨List.Pairwise.sublist hl h2.1, fun k hk => h2.2 k (hl.subset hk)⟩
    · -- otherwise `q` would do
      apply Classical.byContradiction
      intro hno
      apply hm q (List.sublist_append_left _ _) (by intro h; have := congrArg List.length h; simp at this)
      intro k hk j hj hh
      rcases hk with hk | rfl
      · exact h3 k (Or.inl hk) j hj hh
      · apply Classical.byContradiction
        intro hno'
        apply hno
        refine ⟨j, hj, hh, fun g hg => ?_⟩
        apply Classical.byContradiction
        intro hlt
        exact hno' ⟨g, hg, by omega, Nat.lt_trans (h2.2 g hg) h1⟩
  · rintro ⟨h1, ⟨h2, h3, h4⟩, h5, c, hc1, hc2, hc3⟩
    have hcho : Choice tok (q ++ [i]) := choice_snoc.2 ⟨h1, h2⟩
    refine ⟨hcho, (guarded_snoc hcho).2 ⟨h3, h5⟩, fun less hl hne hgl => ?_⟩
    rw [List.sublist_append_iff] at hl
    obtain ⟨l1, l2, rfl, hl1, hl2⟩ := hl
    cases hl2 with
    | cons _ hl2 =>
      rw [List.sublist_nil] at hl2
      subst hl2
      rw [List.append_nil] at hgl
      obtain ⟨g, g1, g2, _⟩ := hgl tok (Or.inr rfl) c hc1 hc2
      have := hc3 g (hl1.subset g1)
      omega
    | cons_cons _ hl2 =>
      rw [List.sublist_nil] at hl2
      subst hl2
      refine h4 l1 hl1 (fun h => hne (by rw [h])) ?_
      have : Choice tok (l1 ++ [i]) :=
        choice_snoc.2 ⟨h1, List.Pairwise.sublist hl1 h2.1, fun k hk => h2.2 k (hl1.subset hk)⟩
      exact ((guarded_snoc this).1 hgl).1

theorem minimal_nil {tok : Nat} : Minimal haz tok [] ↔ ∀ j < tok, ¬ haz tok j := by
  constructor
  · exact fun h => guarded_nil.1 h.2.1
  · intro h
    exact ⟨⟨.nil, by simp⟩, guarded_nil.2 h, fun less hl hne => absurd (List.sublist_nil.1 hl) hne⟩

end

/-- The recursion finds the minimal choices, with a limit for the last word. -/
theorem ext_minimal {set : Nat → Nat → Bool} {haz : Nat → Nat → Prop} (tok : Nat) :
    ∀ (prev : Nat), (∀ k j, j < k → k ≤ tok → (set k j = true ↔ haz k j)) → ∀ p,
    p ∈ ext set tok prev ↔ Minimal haz tok p ∧ ∀ k ∈ p, k < prev := by
  induction tok using Nat.strongRecOn with
  | ind tok ih =>
    intro prev hset p
    rw [ext.eq_def]
    cases hc : canShiftAt (set tok) tok with
    | none =>
      rw [canShiftAt_none] at hc
      have hno : ∀ j < tok, ¬ haz tok j := fun j hj hh => by
        have := hc j hj
        rw [(hset tok j hj (Nat.le_refl _)).2 hh] at this; cases this
      simp only [List.mem_singleton]
      constructor
      · rintro rfl
        exact ⟨minimal_nil.2 hno, by simp⟩
      · rintro ⟨hm, _⟩
        rcases List.eq_nil_or_concat p with h | ⟨q, i, h⟩
        · exact h
        · rw [List.concat_eq_append] at h
          subst h
          obtain ⟨_, _, _, c, hc1, hc2, _⟩ := minimal_snoc.1 hm
          exact absurd hc2 (hno c hc1)
    | some c =>
      obtain ⟨c1, c2, c3⟩ := canShiftAt_some hc
      have hcz : haz tok c := (hset tok c c1 (Nat.le_refl _)).1 c2
      simp only [List.mem_flatMap, List.mem_range'_1]
      constructor
      · rintro ⟨i, ⟨h1, h2⟩, h3⟩
        have hi : i < tok := by omega
        rw [dif_pos hi, List.mem_map] at h3
        obtain ⟨q, hq, rfl⟩ := h3
        obtain ⟨e1, e2⟩ := (ih i hi c (fun k j hj hk => hset k j hj (by omega)) q).1 hq
        refine ⟨minimal_snoc.2 ⟨hi, e1, fun j hj hh => ?_, c, c1, hcz, e2⟩, fun k hk => ?_⟩
        · have := c3 j hj ((hset tok j hj (Nat.le_refl _)).2 hh)
          omega
        · rcases List.mem_append.1 hk with hk | hk
          · have := e2 k hk; omega
          · rw [List.mem_singleton] at hk; omega
      · rintro ⟨hm, hp⟩
        rcases List.eq_nil_or_concat p with h | ⟨q, i, h⟩
        · subst h
          exact absurd hcz (minimal_nil.1 hm c c1)
        · rw [List.concat_eq_append] at h
          subst h
          obtain ⟨m1, m2, m3, d, d1, d2, d3⟩ := minimal_snoc.1 hm
          have hci := m3 c c1 hcz
          have hip : i < prev := hp i (by simp)
          refine ⟨i, ⟨hci, by omega⟩, ?_⟩
          rw [dif_pos m1, List.mem_map]
          refine ⟨q, (ih i m1 c (fun k j hj hk => hset k j hj (by omega)) q).2 ⟨m2, fun k hk => ?_⟩, rfl⟩
          have := d3 k hk
          have := c3 d d1 ((hset tok d d1 (Nat.le_refl _)).2 d2)
          omega

theorem ext_nodup {set : Nat → Nat → Bool} (tok : Nat) : ∀ prev, (ext set tok prev).Nodup := by
  induction tok using Nat.strongRecOn with
  | ind tok ih =>
    intro prev
    rw [ext.eq_def]
    cases hc : canShiftAt (set tok) tok with
    | none => simp
    | some c =>
      simp only
      refine List.pairwise_flatMap.2 ?_
      constructor
      · intro i hi
        by_cases h : i < tok
        · rw [dif_pos h]
          exact List.pairwise_map.2 ((ih i h c).imp (fun hab h => hab (List.append_cancel_right h)))
        · rw [dif_neg h]; exact List.nodup_nil
      · refine List.Pairwise.imp ?_ (List.nodup_range' (s := c) (n := min tok prev - c) (step := 1))
        intro a b hab
        intro x hx y hy hxy
        subst hxy
        by_cases h1 : a < tok <;> by_cases h2 : b < tok <;> simp only [h1, h2, dif_pos, dif_neg, not_false_eq_true, List.mem_map, List.not_mem_nil] at hx hy
        obtain ⟨q1, _, rfl⟩ := hx
        obtain ⟨q2, _, h⟩ := hy
        have := congrArg List.getLast? h
        simp at this
        exact hab this.symm

/-- `show_minimal_elidables` prints exactly the minimal choices that leave out at least one word, each
one once. -/
theorem minimal_exact {set : Nat → Nat → Bool} {haz : Nat → Nat → Prop} (n : Nat) (hn : 0 < n)
    (hset : ∀ k j, j < k → k < n → (set k j = true ↔ haz k j)) :
    (∀ p, p ∈ showMinimal set n (n - 1) [] n ↔ Minimal haz (n - 1) p ∧ p.length < n - 1) ∧
    (showMinimal set n (n - 1) [] n).Nodup := by
  rw [showMinimal_eq]
  simp only [List.append_nil, List.map_id']
  refine ⟨fun p => ?_, (ext_nodup _ _).filter _⟩
  rw [List.mem_filter, ext_minimal (haz := haz) (n - 1) n (fun k j hj hk => hset k j hj (by omega)), decide_eq_true_eq]
  constructor
  · rintro ⟨⟨h1, _⟩, h2⟩; exact ⟨h1, h2⟩
  · rintro ⟨h1, h2⟩
    exact ⟨⟨h1, fun k hk => by have := h1.1.2 k hk; omega⟩, h2⟩

end Jbo.Elide
