import Verif.Rtg
/-!
# What the random text generator can say
-/

namespace Jbo.Rtg

theorem scaled_lt (n : Nat) (h : 0 < n) (y : UInt32) : scaled n y < n := by
  rw [scaled, Nat.div_lt_iff_lt_mul (by decide)]
  exact Nat.mul_lt_mul_of_pos_left y.toNat_lt h

/-- Every index is reached. -/
theorem scaled_onto (n i : Nat) (h : i < n) (hn : n ≤ 4294967296) : ∃ y, scaled n y = i := by
  have hpos : 0 < n := by omega
  have h1 := Nat.div_mul_le_self (i * 4294967296 + (n - 1)) n
  have h2 := Nat.lt_mul_div_succ (i * 4294967296 + (n - 1)) hpos
  generalize hq : (i * 4294967296 + (n - 1)) / n = q at h1 h2
  have h3 : n * q = q * n := Nat.mul_comm _ _
  have h4 : n * (q + 1) = n * q + n := Nat.mul_succ _ _
  have hq2 : q < 4294967296 := by
    refine Nat.lt_of_mul_lt_mul_left (a := n) ?_
    have : (i + 1) * 4294967296 ≤ n * 4294967296 := Nat.mul_le_mul_right _ h
    omega
  refine ⟨UInt32.ofNat q, ?_⟩
  rw [scaled, UInt32.toNat_ofNat_of_lt' hq2]
  refine (Nat.div_eq_iff (by decide)).2 ⟨?_, ?_⟩ <;> omega

/-- **Something is chosen**, and it is in the list. -/
theorem pick_mem {α : Type} (l : List α) (h : l ≠ []) (y : UInt32) : ∃ a ∈ l, pick l y = some a := by
  have hl := List.length_pos_iff.2 h
  have : scaled (l.length - 1) y < l.length := by
    by_cases h1 : 0 < l.length - 1
    · have := scaled_lt _ h1 y; omega
    · have : l.length - 1 = 0 := by omega
      rw [this]; simp [scaled]; omega
  exact ⟨_, List.getElem_mem this, List.getElem?_eq_getElem this⟩

/-- **Every word but the last can be chosen** (the claim is about every word: see `last_never`). -/
theorem pick_each_partial {α : Type} (l : List α) (z : α) (hn : l.length ≤ 4294967296) (a : α) (ha : a ∈ l) :
    ∃ y, pick (l ++ [z]) y = some a := by
  obtain ⟨i, hi, e⟩ := List.getElem_of_mem ha
  obtain ⟨y, hy⟩ := scaled_onto l.length i hi hn
  refine ⟨y, ?_⟩
  have : (l ++ [z]).length - 1 = l.length := by simp
  rw [pick, this, hy, List.getElem?_append_left hi, List.getElem?_eq_getElem hi, e]

/-- **The last of two or more words is never chosen.** -/
theorem last_never {α : Type} (l : List α) (hl : l ≠ []) (z : α) (hz : z ∉ l) (y : UInt32) :
    pick (l ++ [z]) y ≠ some z := by
  have h1 : (l ++ [z]).length - 1 = l.length := by simp
  have h2 := scaled_lt l.length (List.length_pos_iff.2 hl) y
  rw [pick, h1, List.getElem?_append_left h2]
  intro e
  exact hz (List.mem_of_getElem? e)

/-- **With the number of words** instead of the last index, as `BAI` does it, all words can be chosen and
something always is. -/
theorem pickAll_each {α : Type} (l : List α) (hn : l.length ≤ 4294967296) :
    (∀ a ∈ l, ∃ y, pickAll l y = some a) ∧ (l ≠ [] → ∀ y, ∃ a ∈ l, pickAll l y = some a) := by
  constructor
  · intro a ha
    obtain ⟨i, hi, e⟩ := List.getElem_of_mem ha
    obtain ⟨y, hy⟩ := scaled_onto l.length i hi hn
    exact ⟨y, by rw [pickAll, hy, List.getElem?_eq_getElem hi, e]⟩
  · intro h y
    have := scaled_lt l.length (List.length_pos_iff.2 h) y
    exact ⟨_, List.getElem_mem this, List.getElem?_eq_getElem this⟩

/-! ## The text -/

theorem snocInd {α : Type} {P : List α → Prop} (nil : P []) (snoc : ∀ l a, P l → P (l ++ [a])) (l : List α) : P l := by
  have : ∀ r : List α, P r.reverse := by
    intro r
    induction r with
    | nil => exact nil
    | cons a r ih => rw [List.reverse_cons]; exact snoc _ _ ih
  have h := this l.reverse
  rwa [List.reverse_reverse] at h

theorem emitAll_snoc (ws : List (List Char)) (w : List Char) : emitAll (ws ++ [w]) = emit (emitAll ws) w := by
  rw [emitAll, List.foldl_append]; rfl

/-- **The text is the words**, each with a blank or the end of the line behind it. -/
theorem text_words (ws : List (List Char)) : ∃ parts : List (List Char × Char),
    parts.map (·.1) = ws ∧ (∀ p ∈ parts, p.2 = ' ' ∨ p.2 = '\n') ∧
      (emitAll ws).text = parts.flatMap (fun p => p.1 ++ [p.2]) := by
  induction ws using snocInd with
  | nil => exact ⟨[], rfl, (fun p h => nomatch h), rfl⟩
  | snoc ws w ih =>
    obtain ⟨parts, h1, h2, h3⟩ := ih
    rw [emitAll_snoc, emit]
    split
    · refine ⟨parts ++ [(w, '\n')], by simp [h1], ?_, by simp [h3]⟩
      intro p hp
      rcases List.mem_append.1 hp with hp | hp
      · exact h2 p hp
      · rw [List.mem_singleton.1 hp]; exact Or.inr rfl
    · refine ⟨parts ++ [(w, ' ')], by simp [h1], ?_, by simp [h3]⟩
      intro p hp
      rcases List.mem_append.1 hp with hp | hp
      · exact h2 p hp
      · rw [List.mem_singleton.1 hp]; exact Or.inl rfl

/-- **The lines** that are ended are longer than 72 characters and at most 73 and a word long; the last has at most
73 characters, and `$llen` is its length. -/
theorem text_lines (ws : List (List Char)) (m : Nat) (hw : ∀ w ∈ ws, w.length ≤ m ∧ '\n' ∉ w) :
    ∃ (done : List (List Char)) (cur : List Char), (emitAll ws).text = done.flatMap (· ++ ['\n']) ++ cur ∧
      (∀ l ∈ done, '\n' ∉ l ∧ 72 < l.length ∧ l.length ≤ 73 + m) ∧ '\n' ∉ cur ∧ cur.length ≤ 73 ∧
      (emitAll ws).llen = cur.length := by
  induction ws using snocInd with
  | nil => exact ⟨[], [], rfl, (fun l h => nomatch h), (fun h => nomatch h), Nat.zero_le _, rfl⟩
  | snoc ws w ih =>
    obtain ⟨done, cur, h1, h2, h3, h4, h5⟩ := ih (fun x hx => hw x (List.mem_append_left _ hx))
    obtain ⟨hm, hn⟩ := hw w (by simp)
    rw [emitAll_snoc, emit]
    split
    · rename_i hl
      refine ⟨done ++ [cur ++ w], [], by simp [h1], ?_, (fun h => nomatch h), Nat.zero_le _, rfl⟩
      intro l hm'
      rcases List.mem_append.1 hm' with h | h
      · exact h2 l h
      · rw [List.mem_singleton.1 h, List.mem_append, List.length_append]
        exact ⟨fun h => h.elim h3 hn, by omega, by omega⟩
    · rename_i hl
      refine ⟨done, cur ++ w ++ [' '], by simp [h1], h2, ?_, ?_, ?_⟩
      · simp only [List.mem_append, List.mem_singleton]
        rintro ((h | h) | h)
        · exact h3 h
        · exact hn h
        · exact absurd h (by decide)
      · simp only [List.length_append, List.length_singleton]; omega
      · simp only [List.length_append, List.length_singleton]; omega

/-! ## Cases -/

/-- `A` (`rtg.pl:118-120`) never says `ji`; with the largest number it says `u`. -/
example : ∀ y, pick ["a", "e", "o", "u", "ji"] y ≠ some "ji" :=
  last_never ["a", "e", "o", "u"] (by simp) "ji" (by decide)
/-- Of two words always the first: `GAhO` (`rtg.pl:321-323`). -/
example : ∀ y, pick ["ga'o", "ke'i"] y = some "ga'o" := by
  intro y
  obtain ⟨a, ha, e⟩ := pick_mem ["ga'o", "ke'i"] (by simp) y
  have := last_never ["ga'o"] (by simp) "ke'i" (by decide) y
  simp only [List.mem_cons, List.not_mem_nil, or_false] at ha
  rcases ha with rfl | rfl
  · exact e
  · exact absurd e this
example : pick ["a", "e", "o", "u", "ji"] 4294967295 = some "u" := by decide +kernel
example : pickAll ["ca'a", "ka'e", "nu'o", "pu'i"] 4294967295 = some "pu'i" := by decide +kernel
example : (emitAll ["mi".toList, "klama".toList]).text = "mi klama ".toList := by decide +kernel
example : (emitAll (List.replicate 15 "klama".toList)).llen = 12 := by decide +kernel

end Jbo.Rtg
