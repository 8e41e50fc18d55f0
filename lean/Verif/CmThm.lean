import Verif.Cm
import Verif.CmSpec

/-!
# Theorems about cmafihe
-/

namespace Jbo.Cm
open Jbo.CmSpec

/-! ## Glossing a cluster -/

theorem vowelish_iff (c : Char) : vowelish c = true ↔ Vowelish c := by
  simp [vowelish, Vowelish, or_assoc]

theorem cut_iff (s : List Char) (k : Nat) : cutAt s k = true ↔ Cut (s.drop k) := by
  unfold cutAt Cut
  cases h : s[k]? with
  | none =>
    have : s.drop k = [] := by
      rw [List.drop_eq_nil_iff]
      simpa using h
    simp [this]
  | some c =>
    have : s.drop k = c :: s.drop (k + 1) := by
      obtain ⟨hk, rfl⟩ := List.getElem?_eq_some_iff.1 h
      exact List.drop_eq_getElem_cons hk
    rw [this]
    simp only [Bool.not_eq_true', List.cons.injEq]
    constructor
    · rintro h c' r' ⟨rfl, _⟩ hv
      rw [(vowelish_iff _).2 hv] at h
      cases h
    · intro h
      cases hv : vowelish c with
      | false => rfl
      | true => exact absurd ((vowelish_iff c).1 hv) (h c _ ⟨rfl, rfl⟩)

/-- The function that `f` computes on the beginnings of `s`. -/
def Computes (f : Fn) (g : List Char → Option (List Char)) (n : Nat) : Prop := ∀ x, x.length ≤ n → f x = .ok (g x)

/-- What the search finds, up to `k`. -/
theorem seek_spec {f : Fn} {g : List Char → Option (List Char)} {pre s : List Char} (hf : Computes f g s.length) :
    ∀ k, k ≤ s.length →
    (∃ j t, seek f pre s k = .ok (some (j, t)) ∧ 0 < j ∧ j ≤ k ∧ cutAt s j = true ∧ g (s.take j) = some t ∧
      ∀ i, j < i → i ≤ k → cutAt s i = true → g (s.take i) = none) ∨
    ((∀ i, 0 < i → i ≤ k → cutAt s i = true → g (s.take i) = none) ∧
      ((seek f pre s k = .ok none ∧ (cutAt s 0 = true ∨ pre.all vowelish = false)) ∨
       (seek f pre s k = .error .outOfBounds ∧ cutAt s 0 = false ∧ pre.all vowelish = true)))
  | 0, _ => by
    right
    refine ⟨by intro i h1 h2; omega, ?_⟩
    unfold seek
    cases h : cutAt s 0 with
    | true => simp
    | false =>
      cases h' : pre.all vowelish with
      | true => simp
      | false => simp
  | k + 1, hk => by
    have ih := seek_spec (pre := pre) hf k (by omega)
    unfold seek
    by_cases hc : cutAt s (k + 1) = true
    · rw [if_pos hc, hf (s.take (k + 1)) (by simp; omega)]
      cases hg : g (s.take (k + 1)) with
      | some t => exact Or.inl ⟨k + 1, t, rfl, by omega, Nat.le_refl _, hc, hg, fun i h1 h2 => by omega⟩
      | none =>
        dsimp only
        rcases ih with ⟨j, t, h1, h2, h3, h4, h5, h6⟩ | ⟨h1, h2⟩
        · refine Or.inl ⟨j, t, h1, h2, by omega, h4, h5, ?_⟩
          intro i hi1 hi2 hi3
          by_cases e : i = k + 1
          · rw [e]; exact hg
          · exact h6 i hi1 (by omega) hi3
        · refine Or.inr ⟨?_, h2⟩
          intro i hi1 hi2 hi3
          by_cases e : i = k + 1
          · rw [e]; exact hg
          · exact h1 i hi1 (by omega) hi3
    · rw [if_neg hc]
      rcases ih with ⟨j, t, h1, h2, h3, h4, h5, h6⟩ | ⟨h1, h2⟩
      · refine Or.inl ⟨j, t, h1, h2, by omega, h4, h5, ?_⟩
        intro i hi1 hi2 hi3
        by_cases e : i = k + 1
        · rw [e] at hi3; exact absurd hi3 hc
        · exact h6 i hi1 (by omega) hi3
      · refine Or.inr ⟨?_, h2⟩
        intro i hi1 hi2 hi3
        by_cases e : i = k + 1
        · rw [e] at hi3; exact absurd hi3 hc
        · exact h1 i hi1 (by omega) hi3

theorem prefix_take {s p r : List Char} (h : s = p ++ r) : s.take p.length = p ∧ s.drop p.length = r := by
  subst h; simp

theorem seek_known {g : List Char → Option (List Char)} {s t : List Char} {j : Nat} (h1 : 0 < j) (h2 : j ≤ s.length)
    (h3 : cutAt s j = true) (h4 : g (s.take j) = some t)
    (h5 : ∀ i, j < i → i ≤ s.length → cutAt s i = true → g (s.take i) = none) :
    LongestKnown g s (s.take j) t := by
  have hl : (s.take j).length = j := by simp; omega
  refine ⟨?_, h4, ⟨s.drop j, by rw [List.take_append_drop], (cut_iff _ _).1 h3⟩, ?_⟩
  · intro e
    rw [e] at hl
    simp at hl
    omega
  · intro p' r' e hc hlen
    obtain ⟨e1, e2⟩ := prefix_take e
    rw [← e1]
    refine h5 p'.length (by omega) (by rw [e]; simp) ?_
    rw [cut_iff, e2]
    exact hc

theorem seek_noneKnown {g : List Char → Option (List Char)} {s : List Char}
    (h : ∀ i, 0 < i → i ≤ s.length → cutAt s i = true → g (s.take i) = none) : NoneKnown g s := by
  intro p r hp e hc
  obtain ⟨e1, e2⟩ := prefix_take e
  rw [← e1]
  refine h p.length (List.length_pos_iff.2 hp) (by rw [e]; simp) ?_
  rw [cut_iff, e2]
  exact hc

/-- The text put together so far, and more glosses. -/
def joinFrom (out : List Char) : List (List Char) → List Char
  | [] => out
  | t :: ts => joinFrom (glue out t) ts

theorem joinFrom_length : ∀ (ts : List (List Char)) (out : List Char), out.length ≤ (joinFrom out ts).length
  | [], out => Nat.le_refl _
  | t :: ts, out => by
    unfold joinFrom
    refine Nat.le_trans ?_ (joinFrom_length ts _)
    cases out <;> simp [glue]

theorem joinFrom_ne : ∀ (ts : List (List Char)) (out : List Char), out ≠ [] → (∀ t ∈ ts, t ≠ []) →
    joinFrom out ts = [' '].intercalate (out :: ts)
  | [], out, _, _ => by simp [joinFrom, List.intercalate]
  | t :: ts, out, h, ht => by
    unfold joinFrom
    cases out with
    | nil => exact absurd rfl h
    | cons c out =>
      rw [joinFrom_ne ts _ (by simp [glue]) (fun t h => ht t (by simp [h]))]
      cases ts with
      | nil => simp [List.intercalate, glue]
      | cons u ts => simp [List.intercalate, glue]

theorem joinFrom_nil {ts : List (List Char)} (h : ∀ t ∈ ts, t ≠ []) : joinFrom [] ts = [' '].intercalate ts := by
  cases ts with
  | nil => rfl
  | cons t ts =>
    unfold joinFrom
    rw [show glue [] t = t from rfl, joinFrom_ne ts t (h t (by simp)) (fun t ht => h t (by simp [ht]))]

theorem takeWhile_append_dropWhile' (r : List Char) : r = r.takeWhile vowelish ++ r.dropWhile vowelish := by simp

theorem mem_takeWhile_vowel {x : Char} : ∀ {r : List Char}, x ∈ r.takeWhile vowelish → vowelish x = true
  | [], h => by simp at h
  | c :: r, h => by
    rw [List.takeWhile_cons] at h
    split at h
    · rename_i hc
      rcases List.mem_cons.1 h with rfl | h
      · exact hc
      · exact mem_takeWhile_vowel h
    · simp at h

theorem dropWhile_cut (r : List Char) : Cut (r.dropWhile vowelish) := by
  intro c r' e hv
  induction r with
  | nil => simp at e
  | cons x r ih =>
    rw [List.dropWhile_cons] at e
    split at e
    · exact ih e
    · rename_i hx
      simp only [List.cons.injEq] at e
      rw [e.1] at hx
      exact hx ((vowelish_iff c).2 hv)

theorem skipDot_spec (s : List Char) : s = (skipDot s).1 ++ (skipDot s).2 ∧
    ((skipDot s).1 = ['.'] ∨ ((skipDot s).1 = [] ∧ ∀ r', (skipDot s).2 ≠ '.' :: r')) := by
  unfold skipDot
  split
  · exact ⟨rfl, Or.inl rfl⟩
  · rename_i h
    refine ⟨rfl, Or.inr ⟨rfl, ?_⟩⟩
    intro r' e
    exact h r' e

/-- The glosses of the pieces. -/
abbrev glosses (ps : List (List Char × Option (List Char))) : List (List Char) := ps.map (fun p => shown p.2)

/-- The loop: the pieces, and either their glosses or a crash. -/
theorem frag_spec {f : Fn} {g : List Char → Option (List Char)} : ∀ (n : Nat) (pre s out : List Char), s.length < n →
    Computes f g s.length → out.length ≤ 65535 →
    (frag f n pre s out = .error .outOfBounds ∧ cutAt s 0 = false ∧ pre.all vowelish = true ∧ NoneKnown g s) ∨
    ((cutAt s 0 = true ∨ pre.all vowelish = false ∨ ¬ NoneKnown g s) ∧ ∃ ps, Cover g s ps ∧
      frag f n pre s out = if (joinFrom out (glosses ps)).length ≤ 65535 then .ok (joinFrom out (glosses ps))
        else .error .overflow)
  | 0, _, _, _, h, _, _ => by omega
  | n + 1, pre, [], out, _, _, ho => Or.inr ⟨Or.inl rfl, [], .nil, by simp [frag, joinFrom, ho]⟩
  | n + 1, pre, c :: r, out, hn, hf, ho => by
    have hsp := seek_spec (f := f) (g := g) (pre := pre) hf (r.length + 1) (Nat.le_refl _)
    have mono : ∀ s' : List Char, s'.length ≤ (c :: r).length → Computes f g s'.length :=
      fun s' h x hx => hf x (by omega)
    -- one more gloss
    have step : ∀ (t : List Char) (pre' s' : List Char) (pc : List Char × Option (List Char)), shown pc.2 = t →
        s'.length < (c :: r).length → (cutAt s' 0 = true ∨ pre'.all vowelish = false) →
        (∀ ps, Cover g s' ps → Cover g (c :: r) (pc :: ps)) →
        ∃ ps, Cover g (c :: r) ps ∧ (match cat out t with
          | .error e => (.error e : Except Crash (List Char))
          | .ok out => frag f n pre' s' out) =
          if (joinFrom out (glosses ps)).length ≤ 65535 then .ok (joinFrom out (glosses ps)) else .error .overflow := by
      intro t pre' s' pc hpc hlen hinv hcov
      simp only [List.length_cons] at hlen hn
      have key : ∀ out' : List Char, out'.length ≤ 65535 → ∃ ps, Cover g s' ps ∧ frag f n pre' s' out' =
          if (joinFrom out' (glosses ps)).length ≤ 65535 then .ok (joinFrom out' (glosses ps)) else .error .overflow := by
        intro out' ho'
        rcases frag_spec n pre' s' out' (by omega) (mono s' (by simp; omega)) ho' with ⟨_, h1, h2, _⟩ | ⟨_, h⟩
        · rcases hinv with h | h
          · rw [h] at h1; cases h1
          · rw [h] at h2; cases h2
        · exact h
      have hj : ∀ ps, joinFrom out (glosses (pc :: ps)) = joinFrom (glue out t) (glosses ps) := by
        intro ps
        simp only [glosses, List.map_cons, hpc]
        rfl
      unfold cat
      generalize glue out t = r' at hj ⊢
      by_cases hlong : 65536 < r'.length + 1
      · rw [if_pos hlong]
        -- the pieces are found nevertheless
        obtain ⟨ps, hps, _⟩ := key [] (by simp)
        refine ⟨pc :: ps, hcov ps hps, ?_⟩
        rw [hj, if_neg]
        have := joinFrom_length (glosses ps) r'
        omega
      · rw [if_neg hlong]
        obtain ⟨ps, hps, he⟩ := key r' (by omega)
        refine ⟨pc :: ps, hcov ps hps, ?_⟩
        rw [hj]
        exact he
    unfold frag
    rcases hsp with ⟨j, t, h1, h2, h3, h4, h5, h6⟩ | ⟨h1, ⟨h2, h3⟩ | ⟨h2, h3, h4⟩⟩
    · right
      have hkn := seek_known (s := c :: r) h2 h3 h4 h5 h6
      refine ⟨Or.inr (Or.inr ?_), ?_⟩
      · intro hno
        have := hno _ _ hkn.1 (List.take_append_drop j (c :: r)).symm ((cut_iff _ _).1 h4)
        rw [h5] at this
        cases this
      · simp only [h1]
        refine step t _ _ ((c :: r).take j, some t) rfl (by simp; omega) (Or.inl ?_) ?_
        · rw [cut_iff, List.drop_zero]
          exact (cut_iff _ _).1 h4
        · intro ps hps
          have hkn' : LongestKnown g ((c :: r).take j ++ (c :: r).drop j) ((c :: r).take j) t := by
            rw [List.take_append_drop]; exact hkn
          have := Cover.known hkn' hps
          rwa [List.take_append_drop] at this
    · right
      have hno := seek_noneKnown (s := c :: r) h1
      refine ⟨by rcases h3 with h | h <;> simp [h], ?_⟩
      simp only [h2]
      have hsplit : r = r.takeWhile vowelish ++ ((skipDot (r.dropWhile vowelish)).1 ++ (skipDot (r.dropWhile vowelish)).2) := by
        rw [← (skipDot_spec _).1]
        exact takeWhile_append_dropWhile' r
      have hlen := congrArg List.length hsplit
      simp only [List.length_append] at hlen
      refine step ['?'] _ _ (c :: (r.takeWhile vowelish ++ (skipDot (r.dropWhile vowelish)).1), none) rfl (by
        simp; omega) ?_ ?_
      · rcases (skipDot_spec (r.dropWhile vowelish)).2 with h | ⟨h, _⟩
        · right
          rw [h]
          simp [vowelish]
        · left
          rw [cut_iff, List.drop_zero]
          have := (skipDot_spec (r.dropWhile vowelish)).1
          rw [h, List.nil_append] at this
          rw [← this]
          exact dropWhile_cut r
      · intro ps hps
        have := Cover.unknown (f := g) (c := c) (v := r.takeWhile vowelish) (d := (skipDot (r.dropWhile vowelish)).1)
          (r := (skipDot (r.dropWhile vowelish)).2) (ps := ps) (by rw [← hsplit]; exact hno) (by
            intro x hx
            exact (vowelish_iff x).1 (mem_takeWhile_vowel hx)) (by rw [← (skipDot_spec _).1]; exact dropWhile_cut r)
          (skipDot_spec _).2 hps
        rwa [← hsplit] at this
    · left
      refine ⟨by simp only [h2], h3, h4, seek_noneKnown (s := c :: r) h1⟩

/-! ## What the specification says -/

/-- The pieces put together are the cluster. -/
theorem cover_pieces {f : List Char → Option (List Char)} {s : List Char} {ps} (h : Cover f s ps) :
    (ps.map Prod.fst).flatten = s := by
  induction h with
  | nil => rfl
  | known _ _ ih => simp [ih]
  | unknown _ _ _ _ _ ih => simp [ih]

theorem longest_none {f : List Char → Option (List Char)} {s p t : List Char} (h : LongestKnown f s p t) : ¬ NoneKnown f s := by
  intro hn
  obtain ⟨h1, h2, ⟨r, h3, h4⟩, _⟩ := h
  rw [hn p r h1 h3 h4] at h2
  cases h2

theorem longest_unique {f : List Char → Option (List Char)} {s p t p' t' : List Char} (h : LongestKnown f s p t)
    (h' : LongestKnown f s p' t') : p = p' ∧ t = t' := by
  obtain ⟨_, h2, ⟨r, h3, h4⟩, h5⟩ := h
  obtain ⟨_, k2, ⟨r', k3, k4⟩, k5⟩ := h'
  have hlen : p.length = p'.length := by
    rcases Nat.lt_trichotomy p.length p'.length with h | h | h
    · rw [h5 p' r' k3 k4 h] at k2; cases k2
    · exact h
    · rw [k5 p r h3 h4 h] at h2; cases h2
  have hp : p = p' := by
    have e1 := (prefix_take h3).1
    have e2 := (prefix_take k3).1
    rw [← e1, ← e2, hlen]
  refine ⟨hp, ?_⟩
  rw [hp, k2] at h2
  simpa using h2.symm

theorem vowels_unique {v r v' r' : List Char} (e : v ++ r = v' ++ r') (h1 : ∀ x ∈ v, Vowelish x) (h2 : Cut r)
    (h1' : ∀ x ∈ v', Vowelish x) (h2' : Cut r') : v = v' ∧ r = r' := by
  induction v generalizing v' with
  | nil =>
    cases v' with
    | nil => exact ⟨rfl, e⟩
    | cons x v' => exact absurd (h1' x (by simp)) (h2 x _ e)
  | cons y v ih =>
    cases v' with
    | nil => exact absurd (h1 y (by simp)) (h2' y _ e.symm)
    | cons x v' =>
      simp only [List.cons_append, List.cons.injEq] at e
      obtain ⟨rfl, e⟩ := e
      obtain ⟨rfl, h⟩ := ih e (fun x hx => h1 x (by simp [hx])) (fun x hx => h1' x (by simp [hx]))
      exact ⟨rfl, h⟩

/-- There is only one way to divide a cluster. -/
theorem cover_unique {f : List Char → Option (List Char)} {s : List Char} {ps} (h : Cover f s ps) :
    ∀ s' qs, s' = s → Cover f s' qs → ps = qs := by
  induction h with
  | nil =>
    intro s' qs e h
    cases h with
    | nil => rfl
    | known h _ => exact absurd (List.append_eq_nil_iff.1 e).1 h.1
    | unknown _ _ _ _ _ => cases e
  | @known p r t ps h1 _ ih =>
    intro s' qs e h
    cases h with
    | nil => exact absurd (List.append_eq_nil_iff.1 e.symm).1 h1.1
    | known k1 k2 =>
      obtain ⟨rfl, rfl⟩ := longest_unique (e ▸ k1) h1
      rw [ih _ _ (List.append_cancel_left e) k2]
    | unknown k1 _ _ _ _ => exact absurd (e ▸ k1) (longest_none h1)
  | @unknown c v d r ps h1 h2 h3 h4 _ ih =>
    intro s' qs e h
    cases h with
    | nil => cases e
    | known k1 _ => exact absurd (e ▸ h1) (longest_none k1)
    | @unknown c' v' d' r' _ k1 k2 k3 k4 k5 =>
      simp only [List.cons.injEq] at e
      obtain ⟨rfl, e⟩ := e
      obtain ⟨rfl, e⟩ := vowels_unique e k2 k3 h2 h3
      have : d' = d ∧ r' = r := by
        rcases h4 with rfl | ⟨rfl, h4⟩ <;> rcases k4 with rfl | ⟨rfl, k4⟩
        · simpa using e
        · exact absurd (List.append_cancel_left e) (k4 _)
        · exact absurd (List.append_cancel_left e).symm (h4 _)
        · simpa using e
      obtain ⟨rfl, rfl⟩ := this
      rw [ih _ _ rfl k5]

/-! ## The function -/

/-- The part of a cluster that is looked at: without a dot at its beginning. -/
abbrev body (s : List Char) : List Char := (skipDot s).2

/-- A cluster that begins with a vowel, without a dot, and of which nothing is known. -/
def Bare (g : List Char → Option (List Char)) (s : List Char) : Prop := (∃ c r, s = c :: r ∧ Vowelish c) ∧ NoneKnown g s

/-- C38: for every lookup and every cluster that fits the buffer, `try_cmavo_fragment` ends; it reads before its buffer
exactly for the clusters that begin with a vowel and of which no part is known; otherwise the result is the glosses
of the pieces, if they fit. -/
theorem tryFragment_spec {f : Fn} {g : List Char → Option (List Char)} {s : List Char} (hf : Computes f g s.length)
    (hs : s.length ≤ 65535) :
    (tryFragment f s = .error .outOfBounds ∧ Bare g s) ∨
    (¬ Bare g s ∧ ∃ ps, Cover g (body s) ps ∧ tryFragment f s =
      if (joinFrom [] (glosses ps)).length ≤ 65535 then .ok (joinFrom [] (glosses ps)) else .error .overflow) := by
  unfold tryFragment
  rw [if_neg (by omega)]
  dsimp only
  have hlen : (skipDot s).2.length ≤ s.length := by
    have := congrArg List.length (skipDot_spec s).1
    simp at this
    omega
  have hbare : (cutAt (skipDot s).2 0 = false ∧ (skipDot s).1.reverse.all vowelish = true ∧ NoneKnown g (skipDot s).2) ↔ Bare g s := by
    constructor
    · rintro ⟨h1, h2, h3⟩
      rcases (skipDot_spec s).2 with h | ⟨h, _⟩
      · rw [h] at h2; simp [vowelish] at h2
      · have e := (skipDot_spec s).1
        rw [h, List.nil_append] at e
        rw [← e] at h1 h3
        refine ⟨?_, h3⟩
        cases s with
        | nil => simp [cutAt] at h1
        | cons c r =>
          refine ⟨c, r, rfl, ?_⟩
          simp [cutAt] at h1
          exact (vowelish_iff c).1 h1
    · rintro ⟨⟨c, r, rfl, hv⟩, h3⟩
      have hc : c ≠ '.' := by
        rintro rfl
        simp [Vowelish] at hv
      have e : skipDot (c :: r) = ([], c :: r) := by
        unfold skipDot
        split
        · rename_i h
          simp only [List.cons.injEq] at h
          exact absurd h.1 hc
        · rfl
      rw [e]
      exact ⟨by simp [cutAt, (vowelish_iff c).2 hv], by simp, h3⟩
  rcases frag_spec (f := f) (g := g) (s.length + 1) (skipDot s).1.reverse (skipDot s).2 [] (by omega)
    (fun x hx => hf x (by omega)) (by simp) with ⟨h1, h2, h3, h4⟩ | ⟨h1, h2⟩
  · exact Or.inl ⟨h1, hbare.1 ⟨h2, h3, h4⟩⟩
  · refine Or.inr ⟨?_, h2⟩
    intro hb
    obtain ⟨k1, k2, k3⟩ := hbare.2 hb
    rcases h1 with h1 | h1 | h1
    · rw [h1] at k1; cases k1
    · rw [h1] at k2; cases k2
    · exact h1 k3

/-- C38: every letter is in exactly one piece, each piece is glossed by the longest part known, and the glosses
are separated by blanks. -/
theorem tryFragment_covers {f : Fn} {g : List Char → Option (List Char)} {s out : List Char} (hf : Computes f g s.length)
    (hs : s.length ≤ 65535) (hg : ∀ w, g w ≠ some []) (h : tryFragment f s = .ok out) :
    ∃ ps, Cover g (body s) ps ∧ (ps.map Prod.fst).flatten = body s ∧ out = [' '].intercalate (ps.map (fun p => shown p.2)) := by
  rcases tryFragment_spec hf hs with ⟨h1, _⟩ | ⟨_, ps, h1, h2⟩
  · rw [h] at h1; cases h1
  · refine ⟨ps, h1, cover_pieces h1, ?_⟩
    rw [h] at h2
    split at h2
    · rw [Except.ok.inj h2]
      refine joinFrom_nil ?_
      intro t ht
      obtain ⟨p, hp, rfl⟩ := List.mem_map.1 ht
      have key : ∀ {s ps}, Cover g s ps → ∀ p ∈ ps, shown p.2 ≠ [] := by
        intro s ps hc
        induction hc with
        | nil => simp
        | known h1 _ ih =>
          intro p hp
          rcases List.mem_cons.1 hp with rfl | hp
          · intro e
            exact hg _ (h1.2.1.trans (congrArg some e))
          · exact ih p hp
        | unknown _ _ _ _ _ ih =>
          intro p hp
          rcases List.mem_cons.1 hp with rfl | hp
          · simp [shown]
          · exact ih p hp
      exact key h1 p hp
    · cases h2

/-- `translate_selmao` computes the lookup only for clusters of at most 62 letters. -/
theorem translateSelmao_computes (dict : List Char → Option (List Char)) {n : Nat} (hn : n ≤ 62) :
    Computes (translateSelmao dict) (fun x => dict ('+' :: x)) n := by
  intro x hx
  unfold translateSelmao
  rw [if_neg (by omega)]

/-- C38: a longer unknown cluster overflows the buffer of `translate_selmao`. -/
theorem selmao_overflow (dict unknown : List Char → Option (List Char)) (w : List Char) (hx : dict (body w) = none)
    (hlen : 62 < (body w).length) : ∃ c, doNode dict unknown (.cmavo w) = .error c := by
  unfold doNode
  dsimp only
  simp only [show dict (skipDot w).2 = none from hx]
  cases h : tryFragment (fun x => .ok (dict x)) w with
  | error c => exact ⟨c, rfl⟩
  | ok t =>
    dsimp only
    have : tryFragment (translateSelmao dict) w = .error .overflow := by
      unfold tryFragment
      split
      · rfl
      · dsimp only
        have hlen' : 62 < (skipDot w).2.length := hlen
        have e := congrArg List.length (skipDot_spec w).1
        revert hlen'
        cases hb : (skipDot w).2 with
        | nil => intro h; simp at h
        | cons c r =>
          intro hlen'
          obtain ⟨n, hn⟩ : ∃ n, w.length + 1 = n + 1 := ⟨_, rfl⟩
          rw [hn]
          unfold frag
          have : seek (translateSelmao dict) (skipDot w).1.reverse (c :: r) (r.length + 1) = .error .overflow := by
            unfold seek
            rw [if_pos (by rw [cut_iff]; simp [Cut])]
            have : translateSelmao dict ((c :: r).take (r.length + 1)) = .error .overflow := by
              unfold translateSelmao
              rw [if_pos]
              simp at hlen' ⊢
              omega
            rw [this]
          rw [this]
    rw [this]
    exact ⟨_, rfl⟩

/-- The word that a node stands for. -/
def nodeText : Node → List Char
  | .cmavo w => w
  | .brivla w => w
  | .cmene w => w
  | .newline => []
  | .paren w => w

/-- The word that a call shows. -/
def evText : Ev → List Char
  | .item w _ _ => w
  | .newline => []
  | .paren w => w

/-- C38: a word is shown as it was read. -/
theorem doNode_text {dict unknown : List Char → Option (List Char)} {n : Node} {e : Ev} (h : doNode dict unknown n = .ok e) :
    evText e = nodeText n := by
  cases n with
  | cmavo w =>
    unfold doNode at h
    dsimp only at h
    split at h
    · split at h
      · cases h
      · cases h; rfl
    · split at h
      · cases h
      · split at h
        · cases h
        · cases h; rfl
  | brivla w => cases h; rfl
  | cmene w => cases h; rfl
  | newline => cases h; rfl
  | paren w => cases h; rfl

/-- C38: a cmavo in the dictionary is shown with its gloss, if it has at most 30 letters; a longer one overflows a buffer. -/
theorem known_cmavo (dict unknown : List Char → Option (List Char)) (w t : List Char) (h : dict (body w) = some t) :
    ((body w).length ≤ 30 → ∃ m, doNode dict unknown (.cmavo w) = .ok (.item w t m)) ∧
    (30 < (body w).length → doNode dict unknown (.cmavo w) = .error .overflow) := by
  unfold doNode
  dsimp only
  simp only [show dict (skipDot w).2 = some t from h]
  constructor
  · intro hl
    rw [if_neg (by have : (skipDot w).2.length ≤ 30 := hl; omega)]
    exact ⟨_, rfl⟩
  · intro hl
    rw [if_pos (by have : 30 < (skipDot w).2.length := hl; omega)]

/-- C38: a cmavo or a cluster that is not in the dictionary, of at most 62 letters, is shown with the glosses of its
pieces and, separately divided, with the classes of its pieces. -/
theorem unknown_cmavo {dict unknown : List Char → Option (List Char)} {w : List Char} {e : Ev} (h : dict (body w) = none)
    (hl : w.length ≤ 62) (hd : ∀ x, dict x ≠ some []) (he : doNode dict unknown (.cmavo w) = .ok e) :
    ∃ ps qs, Cover dict (body w) ps ∧ Cover (fun x => dict ('+' :: x)) (body w) qs ∧
      e = .item w ([' '].intercalate (ps.map (fun p => shown p.2))) ([' '].intercalate (qs.map (fun p => shown p.2))) := by
  unfold doNode at he
  dsimp only at he
  simp only [show dict (skipDot w).2 = none from h] at he
  split at he
  · cases he
  · rename_i t ht
    split at he
    · cases he
    · rename_i m hm
      obtain ⟨ps, h1, _, rfl⟩ := tryFragment_covers (g := dict) (fun x _ => rfl) (by omega) hd ht
      obtain ⟨qs, h2, _, rfl⟩ := tryFragment_covers (translateSelmao_computes dict hl) (by omega) (fun x => hd _) hm
      cases he
      exact ⟨ps, qs, h1, h2, rfl⟩

/-- C38: what is shown for the other words: the gloss of the dictionary goes before the one made up from the parts, and
a brivla with neither gets a question mark. -/
theorem other_words (dict unknown : List Char → Option (List Char)) (w : List Char) :
    (∀ t, dict w = some t → doNode dict unknown (.brivla w) = .ok (.item w t "BRIVLA".toList)) ∧
    (∀ t, dict w = none → unknown w = some t → doNode dict unknown (.brivla w) = .ok (.item w t "BRIVLA".toList)) ∧
    (dict w = none → unknown w = none → doNode dict unknown (.brivla w) = .ok (.item w ['?'] "BRIVLA".toList)) ∧
    doNode dict unknown (.cmene w) = .ok (.item w [] "CMENE".toList) := by
  refine ⟨?_, ?_, ?_, rfl⟩
  · intro t h
    simp only [doNode, h]
  · intro t h h'
    simp only [doNode, h, h']
  · intro h h'
    simp only [doNode, h, h']

/-- A toy dictionary. -/
def toy : List Char → Option (List Char)
  | ['l', 'o'] => some "really is".toList
  | ['a'] => some "or".toList
  | ['l', 'o', 'n', 'u'] => some "event of".toList
  | _ => none

/-- `lonulo` is glossed as `lonu` and `lo`. -/
example : tryFragment (fun x => .ok (toy x)) "lonulo".toList = .ok "event of really is".toList := by decide +kernel

example : Cover toy "lonulo".toList [("lonu".toList, some "event of".toList), ("lo".toList, some "really is".toList)] := by
  rcases tryFragment_spec (f := fun x => .ok (toy x)) (g := toy) (s := "lonulo".toList) (fun x _ => rfl) (by decide) with
    ⟨h, _⟩ | ⟨_, ps, h1, h2⟩
  · exact absurd h (by decide +kernel)
  · rw [show tryFragment (fun x => .ok (toy x)) "lonulo".toList = .ok "event of really is".toList by decide +kernel] at h2
    refine Cover.known (p := "lonu".toList) (r := "lo".toList) ⟨by decide, rfl, ⟨"lo".toList, rfl, ?_⟩, ?_⟩
      (Cover.known (p := "lo".toList) (r := []) ⟨by decide, rfl, ⟨[], rfl, by simp [Cut]⟩, ?_⟩ .nil)
    · intro c r e
      have : c = 'l' := by
        have h : 'l' :: ['o'] = c :: r := e
        exact (List.cons.inj h).1.symm
      subst this
      simp [Vowelish]
    · intro p' r' e _ hl
      have e1 := (prefix_take e).1
      have hlen := congrArg List.length e
      simp at hlen hl
      have : p'.length = 5 ∨ p'.length = 6 := by omega
      rcases this with h | h
      · rw [← e1, h]; rfl
      · rw [← e1, h]; rfl
    · intro p' r' e _ hl
      have hlen := congrArg List.length e
      simp at hlen hl
      omega

/-- The two lines of a cluster, with the class of `lo` known. -/
example : doNode (fun x => if x = "+lo".toList then some "LE".toList else toy x) (fun _ => none) (.cmavo "lonu'i".toList) =
    .ok (.item "lonu'i".toList "really is ?".toList "LE ?".toList) := by decide +kernel

/-- C38: nothing known of a cluster that begins with a vowel: a read before the buffer. -/
theorem bare_vowel_reads_out : tryFragment (fun x => .ok (toy x)) "u'au".toList = .error .outOfBounds := by decide +kernel

/-- With a dot there is no harm. -/
example : tryFragment (fun x => .ok (toy x)) ".u'au".toList = .ok "?".toList := by decide +kernel

/-- C38: `a` behind a dot inside a cluster is not found, though it is in the dictionary. -/
theorem dotted_vowel_not_found : tryFragment (fun x => .ok (toy x)) "lo.a".toList = .ok "really is ?".toList ∧
    toy "a".toList = some "or".toList := by decide +kernel

end Jbo.Cm
