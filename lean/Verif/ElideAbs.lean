import Verif.ElideMin
/-!
# The arrays of the monitor
-/

namespace Jbo.Elide

/-! ## Bits -/

/-- Every row has the length with which it was made. -/
def Rows (conf : List (List (Option Nat))) : Prop := ∀ (k : Nat) row, conf[k]? = some row → row.length = k / 32 + 1

/-- The first `L` rows have been cleared at some time, and their bits are these. -/
def Bits (conf : List (List (Option Nat))) (L : Nat) (B : Nat → Nat → Prop) : Prop :=
  ∀ k < L, ∃ row, conf[k]? = some row ∧ ∀ j ≤ k, ∃ w, row[j / 32]? = some (some w) ∧ (w.testBit (j % 32) = true ↔ B k j)

theorem Bits.congr {conf : List (List (Option Nat))} {L : Nat} {B B' : Nat → Nat → Prop} (h : Bits conf L B)
    (hB : ∀ k j, k < L → j ≤ k → (B k j ↔ B' k j)) : Bits conf L B' := by
  intro k hk
  obtain ⟨row, h1, h2⟩ := h k hk
  refine ⟨row, h1, fun j hj => ?_⟩
  obtain ⟨w, h3, h4⟩ := h2 j hj
  exact ⟨w, h3, h4.trans (hB k j hk hj)⟩

theorem Bits.isSet {s : St} {L : Nat} {B : Nat → Nat → Prop} (h : Bits s.conf L B) {k j : Nat} (hk : k < L) (hj : j ≤ k) :
    ∃ b, Elide.isSet s k j = .ok b ∧ (b = true ↔ B k j) := by
  obtain ⟨row, h1, h2⟩ := h k hk
  obtain ⟨w, h3, h4⟩ := h2 j hj
  refine ⟨_, ?_, h4⟩
  unfold Elide.isSet load
  rw [h1]; simp only; rw [h3]

theorem testBit_or_one (w a b : Nat) : (w ||| 1 <<< a).testBit b = true ↔ w.testBit b = true ∨ b = a := by
  rw [Nat.testBit_or, Nat.one_shiftLeft, Nat.testBit_two_pow, Bool.or_eq_true, decide_eq_true_eq]
  constructor <;> rintro (h | h)
  · exact Or.inl h
  · exact Or.inr h.symm
  · exact Or.inl h
  · exact Or.inr h.symm

theorem Bits.set {s : St} {L : Nat} {B : Nat → Nat → Prop} (h : Bits s.conf L B) (hr : Rows s.conf) {k j : Nat} (hk : k < L)
    (hj : j ≤ k) : ∃ conf, setConflict s k j = .ok { s with conf := conf } ∧ conf.length = s.conf.length ∧ Rows conf ∧
      Bits conf L (fun k' j' => B k' j' ∨ (k' = k ∧ j' = j)) := by
  obtain ⟨row, h1, h2⟩ := h k hk
  obtain ⟨w, h3, h4⟩ := h2 j hj
  refine ⟨s.conf.set k (row.set (j / 32) (some (w ||| 1 <<< (j % 32)))), ?_, by simp, ?_, ?_⟩
  · unfold setConflict load
    rw [h1]; simp only; rw [h3]
  · intro k' row' hrow
    rw [List.getElem?_set] at hrow
    by_cases hkk : k = k'
    · subst hkk
      rw [if_pos rfl] at hrow
      split at hrow
      · injection hrow with hrow
        rw [← hrow, List.length_set]
        exact hr k row h1
      · cases hrow
    · rw [if_neg hkk] at hrow
      exact hr k' row' hrow
  · intro k' hk'
    by_cases hkk : k = k'
    · subst hkk
      refine ⟨row.set (j / 32) (some (w ||| 1 <<< (j % 32))), ?_, fun j' hj' => ?_⟩
      · rw [List.getElem?_set, if_pos rfl, if_pos]
        exact (List.getElem?_eq_some_iff.1 h1).1
      · obtain ⟨w', e1, e2⟩ := h2 j' hj'
        by_cases hb : j / 32 = j' / 32
        · have hw : w = w' := by
            rw [hb, e1] at h3
            injection h3 with h3; injection h3 with h3; exact h3.symm
          subst hw
          refine ⟨w ||| 1 <<< (j % 32), ?_, ?_⟩
          · rw [List.getElem?_set, if_pos hb, if_pos]
            rw [hb]
            exact (List.getElem?_eq_some_iff.1 e1).1
          · rw [testBit_or_one, e2]
            constructor
            · rintro (h | h)
              · exact Or.inl h
              · refine Or.inr ⟨rfl, ?_⟩
                omega
            · rintro (h | ⟨_, h⟩)
              · exact Or.inl h
              · right; rw [h]
        · refine ⟨w', ?_, ?_⟩
          · rw [List.getElem?_set, if_neg hb]
            exact e1
          · rw [e2]
            constructor
            · exact Or.inl
            · rintro (h | ⟨_, h⟩)
              · exact h
              · subst h; exact absurd rfl hb
    · obtain ⟨row', e1, e2⟩ := h k' hk'
      refine ⟨row', by rw [List.getElem?_set, if_neg hkk]; exact e1, fun j' hj' => ?_⟩
      obtain ⟨w', e3, e4⟩ := e2 j' hj'
      refine ⟨w', e3, e4.trans ⟨Or.inl, ?_⟩⟩
      rintro (h | ⟨h, _⟩)
      · exact h
      · exact absurd h.symm hkk

/-! ## Marking -/

theorem mark_ok (G : Grammar) (st j : Nat) (skip : Nat → Bool) (m : Nat) : ∀ (i : Nat) (s : St) (L : Nat) (B : Nat → Nat → Prop)
    (ts : List Tok), Bits s.conf L B → Rows s.conf → i + m ≤ L → j < i → ts.length = L →
    (∀ (k : Nat) t, ts[k]? = some t → s.buf[k]? = some (some t)) →
    ∃ conf, mark G st j skip i m s = .ok { s with conf := conf } ∧ conf.length = s.conf.length ∧ Rows conf ∧
      Bits conf L (fun k' j' => B k' j' ∨ (j' = j ∧ i ≤ k' ∧ k' < i + m ∧ skip k' = false ∧
        ∃ t, ts[k']? = some t ∧ G.canShift st t.value = true)) := by
  induction m with
  | zero =>
    intro i s L B ts hB hR hL hj hlen hbuf
    refine ⟨s.conf, rfl, rfl, hR, hB.congr (fun k j _ _ => ⟨Or.inl, ?_⟩)⟩
    rintro (h | ⟨_, h1, h2, _⟩)
    · exact h
    · omega
  | succ m ih =>
    intro i s L B ts hB hR hL hj hlen hbuf
    have hi : i < ts.length := by omega
    have hti : ts[i]? = some ts[i] := List.getElem?_eq_getElem hi
    have hload : load s.buf i = .ok ts[i] := by
      unfold load
      rw [hbuf i _ hti]
    rw [mark, hload]
    simp only
    by_cases hc : (G.canShift st ts[i].value && !skip i) = true
    · rw [if_pos hc]
      rw [Bool.and_eq_true, Bool.not_eq_true'] at hc
      obtain ⟨conf, h1, h2, h3, h4⟩ := hB.set hR (show i < L by omega) (Nat.le_of_lt hj)
      rw [h1]
      simp only
      obtain ⟨conf', e1, e2, e3, e4⟩ := ih (i + 1) { s with conf := conf } L _ ts h4 h3 (by omega) (by omega) hlen hbuf
      refine ⟨conf', e1, e2.trans h2, e3, e4.congr (fun k' j' _ _ => ?_)⟩
      constructor
      · rintro ((h | ⟨h, h'⟩) | ⟨g1, g2, g3, g4⟩)
        · exact Or.inl h
        · subst h; subst h'
          exact Or.inr ⟨rfl, Nat.le_refl _, by omega, hc.2, _, hti, hc.1⟩
        · exact Or.inr ⟨g1, by omega, by omega, g4⟩
      · rintro (h | ⟨g1, g2, g3, g4, t, g5, g6⟩)
        · exact Or.inl (Or.inl h)
        · by_cases hk : k' = i
          · exact Or.inl (Or.inr ⟨hk, g1⟩)
          · exact Or.inr ⟨g1, by omega, by omega, g4, t, g5, g6⟩
    · rw [if_neg hc]
      obtain ⟨conf', e1, e2, e3, e4⟩ := ih (i + 1) s L B ts hB hR (by omega) (by omega) hlen hbuf
      refine ⟨conf', e1, e2, e3, e4.congr (fun k' j' _ _ => ?_)⟩
      constructor
      · rintro (h | ⟨g1, g2, g3, g4⟩)
        · exact Or.inl h
        · exact Or.inr ⟨g1, by omega, by omega, g4⟩
      · rintro (h | ⟨g1, g2, g3, g4, t, g5, g6⟩)
        · exact Or.inl h
        · by_cases hk : k' = i
          · exfalso
            subst hk
            rw [hti] at g5
            injection g5 with g5
            subst g5
            apply hc
            rw [g6, g4]; rfl
          · exact Or.inr ⟨g1, by omega, by omega, g4, t, g5, g6⟩

/-! ## Clearing -/

theorem clear_ok (m : Nat) : ∀ (k : Nat) (conf : List (List (Option Nat))), Rows conf → k + m ≤ conf.length →
    Bits conf k (fun _ _ => False) →
    ∃ conf', clear conf k m = .ok conf' ∧ conf'.length = conf.length ∧ Rows conf' ∧ Bits conf' (k + m) (fun _ _ => False) := by
  induction m with
  | zero => intro k conf hR _ hB; exact ⟨conf, rfl, rfl, hR, hB⟩
  | succ m ih =>
    intro k conf hR hL hB
    have hk : k < conf.length := by omega
    have hrow : conf[k]? = some conf[k] := List.getElem?_eq_getElem hk
    have hlen := hR k _ hrow
    rw [clear, hrow]
    simp only
    unfold clearRow
    rw [if_pos (by omega)]
    simp only
    have hnew : (List.replicate (k / 32 + 1) (some 0) ++ conf[k].drop (k / 32 + 1)).length = k / 32 + 1 := by
      simp only [List.length_append, List.length_replicate, List.length_drop]; omega
    obtain ⟨conf', h1, h2, h3, h4⟩ := ih (k + 1) (conf.set k (List.replicate (k / 32 + 1) (some 0) ++ conf[k].drop (k / 32 + 1)))
      (by
        intro k' row' hr'
        rw [List.getElem?_set] at hr'
        by_cases hkk : k = k'
        · subst hkk
          rw [if_pos rfl, if_pos hk] at hr'
          injection hr' with hr'
          rw [← hr', hnew]
        · rw [if_neg hkk] at hr'
          exact hR k' row' hr')
      (by rw [List.length_set]; omega)
      (by
        intro k' hk'
        by_cases hkk : k = k'
        · subst hkk
          refine ⟨_, by rw [List.getElem?_set, if_pos rfl, if_pos hk], fun j hj => ⟨0, ?_, by simp⟩⟩
          have : j / 32 < k / 32 + 1 := by omega
          rw [List.getElem?_append_left (by rw [List.length_replicate]; exact this), List.getElem?_replicate, if_pos this]
        · obtain ⟨row, e1, e2⟩ := hB k' (by omega)
          exact ⟨row, by rw [List.getElem?_set, if_neg hkk]; exact e1, e2⟩)
    refine ⟨conf', h1, by rw [h2, List.length_set], h3, ?_⟩
    rw [show k + (m + 1) = k + 1 + m from by omega]
    exact h4

/-! ## Filling the buffer -/

/-- The arrays have the same length, in blocks of 32. -/
structure Lens (s : St) : Prop where
  flags : s.flags.length = s.buf.length
  conf : s.conf.length = s.buf.length
  blocks : 32 ∣ s.buf.length
  rows : Rows s.conf

/-- The first words in the buffer and their flags. -/
structure Filled (s : St) (ts : List Tok) : Prop where
  n : s.n = ts.length
  le : ts.length ≤ s.buf.length
  buf : ∀ (k : Nat) t, ts[k]? = some t → s.buf[k]? = some (some t)
  flags : ∀ (k : Nat) t, ts[k]? = some t → s.flags[k]? = some (some ⟨isBoi t, false, isMarker t.node⟩)

theorem grow_ok {s : St} {ts : List Tok} (hl : Lens s) (hf : Filled s ts) : Lens (grow s) ∧ Filled (grow s) ts ∧
    (grow s).buf.length = s.buf.length + 32 := by
  have hlen : (grow s).buf.length = s.buf.length + 32 := by simp [grow]
  refine ⟨⟨?_, ?_, ?_, ?_⟩, ⟨hf.n, ?_, ?_, ?_⟩, hlen⟩
  · simp [grow, hl.flags]
  · simp [grow, hl.conf]
  · rw [hlen]; have := hl.blocks; omega
  · intro k row hr
    simp only [grow] at hr
    rw [List.getElem?_append] at hr
    split at hr
    · exact hl.rows k row hr
    · rename_i hk
      rw [List.getElem?_replicate] at hr
      split at hr
      · rename_i hk2
        injection hr with hr
        rw [← hr, List.length_replicate]
        have := hl.blocks
        have := hl.conf
        omega
      · cases hr
  · have := hf.le; omega
  · intro k t h
    have := hf.buf k t h
    simp only [grow]
    rw [List.getElem?_append_left (List.getElem?_eq_some_iff.1 this).1]
    exact this
  · intro k t h
    have := hf.flags k t h
    simp only [grow]
    rw [List.getElem?_append_left (List.getElem?_eq_some_iff.1 this).1]
    exact this

/-- What does not change while the buffer is filled. -/
def Rest (s s' : St) : Prop := s'.rp = s.rp ∧ s'.sp = s.sp ∧ s'.prev = s.prev ∧ s'.cur = s.cur

theorem readOne_ok (G : Grammar) {s : St} {ts : List Tok} (hl : Lens s) (hf : Filled s ts) :
    ∃ s', readOne G s = .ok (s', (isElidable (s.src.next G).1.node).1) ∧ Lens s' ∧ Filled s' (ts ++ [(s.src.next G).1]) ∧
      s'.src = (s.src.next G).2 ∧ Rest s s' ∧ s.buf.length ≤ s'.buf.length := by
  have main : ∀ s1 : St, Lens s1 → Filled s1 ts → s1.src = s.src → s1.n < s1.buf.length →
      ∃ s', (if s1.n < s1.buf.length ∧ s1.n < s1.flags.length then
          (.ok ({ s1 with
            src := (s1.src.next G).2
            n := s1.n + 1
            buf := s1.buf.set s1.n (some (s1.src.next G).1)
            flags := s1.flags.set s1.n (some ⟨(isElidable (s1.src.next G).1.node).2, false, isMarker (s1.src.next G).1.node⟩) },
            (isElidable (s1.src.next G).1.node).1) : Except Crash (St × Bool))
        else .error .bounds) = .ok (s', (isElidable (s.src.next G).1.node).1) ∧ Lens s' ∧
        Filled s' (ts ++ [(s.src.next G).1]) ∧ s'.src = (s.src.next G).2 ∧ Rest s1 s' ∧ s1.buf.length = s'.buf.length := by
    intro s1 l1 f1 hsrc hlt
    rw [if_pos ⟨hlt, by rw [l1.flags]; exact hlt⟩, hsrc]
    refine ⟨_, rfl, ⟨?_, ?_, ?_, ?_⟩, ⟨?_, ?_, ?_, ?_⟩, rfl, ⟨rfl, rfl, rfl, rfl⟩, ?_⟩
    · simp only [List.length_set]; exact l1.flags
    · simp only [List.length_set]; exact l1.conf
    · simp only [List.length_set]; exact l1.blocks
    · exact l1.rows
    · simp only [List.length_append, List.length_singleton]; rw [f1.n]
    · simp only [List.length_append, List.length_singleton, List.length_set]
      rw [← f1.n]; exact hlt
    · intro k t h
      simp only
      rw [List.getElem?_set]
      by_cases hk : s1.n = k
      · rw [if_pos hk, if_pos hlt]
        rw [← hk, f1.n, List.getElem?_append_right (Nat.le_refl _)] at h
        simp at h
        rw [h]
      · rw [if_neg hk]
        have hk' : k < ts.length := by
          have := (List.getElem?_eq_some_iff.1 h).1
          rw [List.length_append, List.length_singleton] at this
          have := f1.n
          omega
        rw [List.getElem?_append_left hk'] at h
        exact f1.buf k t h
    · intro k t h
      simp only
      rw [List.getElem?_set]
      by_cases hk : s1.n = k
      · rw [if_pos hk, if_pos (by rw [l1.flags]; exact hlt)]
        rw [← hk, f1.n, List.getElem?_append_right (Nat.le_refl _)] at h
        simp at h
        rw [h]; rfl
      · rw [if_neg hk]
        have hk' : k < ts.length := by
          have := (List.getElem?_eq_some_iff.1 h).1
          rw [List.length_append, List.length_singleton] at this
          have := f1.n
          omega
        rw [List.getElem?_append_left hk'] at h
        exact f1.flags k t h
    · simp
  unfold readOne
  by_cases hn : s.n = s.buf.length
  · rw [if_pos hn]
    obtain ⟨g1, g2, g3⟩ := grow_ok hl hf
    obtain ⟨s', h1, h2, h3, h4, h5, h6⟩ := main (grow s) g1 g2 rfl (by rw [g3]; change s.n < _; omega)
    exact ⟨s', h1, h2, h3, h4, h5, by omega⟩
  · rw [if_neg hn]
    have : s.n < s.buf.length := by have := hf.le; have := hf.n; omega
    obtain ⟨s', h1, h2, h3, h4, h5, h6⟩ := main s hl hf rfl this
    exact ⟨s', h1, h2, h3, h4, h5, by omega⟩

theorem Rest.trans {a b c : St} (h : Rest a b) (h' : Rest b c) : Rest a c :=
  ⟨h'.1.trans h.1, h'.2.1.trans h.2.1, h'.2.2.1.trans h.2.2.1, h'.2.2.2.trans h.2.2.2⟩

theorem refill_ok (G : Grammar) (rest : List Tok) : ∀ (s : St) (ts : List Tok), s.src = ⟨rest, false⟩ → Lens s → Filled s ts →
    ∃ s', refill G (rest.length + 1) s = .ok s' ∧ Lens s' ∧ Filled s' (ts ++ (group G rest).1) ∧
      s'.src = (group G rest).2 ∧ Rest s s' ∧ s.buf.length ≤ s'.buf.length := by
  induction rest with
  | nil =>
    intro s ts hs hl hf
    obtain ⟨s', h1, h2, h3, h4, h5, h6⟩ := readOne_ok G hl hf
    rw [hs] at h1 h3 h4
    rw [refill, h1]
    exact ⟨s', rfl, h2, h3, h4, h5, h6⟩
  | cons t rest ih =>
    intro s ts hs hl hf
    obtain ⟨s', h1, h2, h3, h4, h5, h6⟩ := readOne_ok G hl hf
    have hn : s.src.next G = (t, ⟨rest, false⟩) := by rw [hs]; rfl
    rw [hn] at h1 h3 h4
    rw [List.length_cons, refill, h1]
    simp only at h3 h4 ⊢
    unfold group
    cases he : (isElidable t.node).1 with
    | false => exact ⟨s', rfl, h2, h3, h4, h5, h6⟩
    | true =>
      simp only [if_true]
      obtain ⟨s2, e1, e2, e3, e4, e5, e6⟩ := ih s' (ts ++ [t]) h4 h2 h3
      refine ⟨s2, e1, e2, ?_, e4, h5.trans e5, by omega⟩
      rw [List.append_assoc] at e3
      exact e3

theorem refill_group (G : Grammar) (s : St) (hl : Lens s) (hn : s.n = 0) (he : s.src.ended = true → s.src.rest = []) :
    ∃ s', refill G (s.src.rest.length + 1) s = .ok s' ∧ Lens s' ∧ Filled s' (s.src.group G).1 ∧
      s'.src = (s.src.group G).2 ∧ Rest s s' ∧ s.buf.length ≤ s'.buf.length := by
  have hf : Filled s [] := ⟨hn, Nat.zero_le _, by simp, by simp⟩
  by_cases hend : s.src.ended = true
  · obtain ⟨s', h1, h2, h3, h4, h5, h6⟩ := readOne_ok G hl hf
    have hnx : s.src.next G = (⟨0, none, 0⟩, s.src) := by unfold Src.next; rw [if_pos hend]
    rw [hnx] at h1 h3 h4
    unfold Src.group
    rw [if_pos hend, refill, h1]
    exact ⟨s', rfl, h2, h3, h4, h5, h6⟩
  · have hsrc : s.src = ⟨s.src.rest, false⟩ := by
      rcases hh : s.src with ⟨r, e⟩
      rw [hh] at hend
      simp at hend
      rw [hend]
    obtain ⟨s', h1, h2, h3, h4, h5, h6⟩ := refill_ok G s.src.rest s [] hsrc hl hf
    unfold Src.group
    rw [if_neg hend]
    exact ⟨s', h1, h2, h3, h4, h5, h6⟩

theorem group_shape (G : Grammar) (ws : List Tok) : ∃ a t, (group G ws).1 = a ++ [t] ∧ (isElidable t.node).1 = false ∧
    ∀ x ∈ a, (isElidable x.node).1 = true := by
  induction ws with
  | nil => exact ⟨[], _, rfl, rfl, by simp⟩
  | cons t ws ih =>
    unfold group
    cases he : (isElidable t.node).1 with
    | false => exact ⟨[], t, rfl, he, by simp⟩
    | true =>
      obtain ⟨a, x, h1, h2, h3⟩ := ih
      refine ⟨t :: a, x, ?_, h2, ?_⟩
      · simp only [if_true]; rw [h1]; rfl
      · intro y hy
        rcases List.mem_cons.1 hy with rfl | hy
        · exact he
        · exact h3 y hy

theorem src_group_shape (G : Grammar) (s : Src) : ∃ a t, (s.group G).1 = a ++ [t] ∧ (isElidable t.node).1 = false ∧
    ∀ x ∈ a, (isElidable x.node).1 = true := by
  unfold Src.group
  split
  · exact ⟨[], _, rfl, rfl, by simp⟩
  · exact group_shape G _

/-! ## Collecting -/

theorem collect_ok {α : Type} {f : Nat → Except Crash α} {P : Nat → α → Prop} (m : Nat)
    (h : ∀ i < m, ∃ a, f i = .ok a ∧ P i a) :
    ∃ l, collect f m = .ok l ∧ l.length = m ∧ ∀ i < m, ∃ a, l[i]? = some a ∧ f i = .ok a ∧ P i a := by
  induction m with
  | zero => exact ⟨[], rfl, rfl, by intro i hi; omega⟩
  | succ m ih =>
    obtain ⟨l, h1, h2, h3⟩ := ih (fun i hi => h i (by omega))
    obtain ⟨a, h4, h5⟩ := h m (by omega)
    refine ⟨l ++ [a], ?_, by simp [h2], fun i hi => ?_⟩
    · rw [collect, h1]; simp only; rw [h4]
    · by_cases him : i = m
      · subst him
        exact ⟨a, by rw [List.getElem?_append_right (by omega), h2]; simp, h4, h5⟩
      · obtain ⟨b, g1, g2, g3⟩ := h3 i (by omega)
        exact ⟨b, by rw [List.getElem?_append_left (by omega)]; exact g1, g2, g3⟩

end Jbo.Elide
