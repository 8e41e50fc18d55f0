import Verif.CmScanText
import Verif.CmTransWord
/-!
# Gismu and lujvo in the scanner of `cmafihe`
-/

namespace Jbo.CmScan
open Jbo.CmTrans (Word)
open Jbo.CmScan.Spec
open Jbo.CmTrans.Spec (Part wordOf Lujvo Gismu Rafsi diphthong initialPair)
open Jbo.CmTrans.Spec (Tied Hyphened)
open Jbo.CmTrans (Proper)

theorem v_iff (c : Char) : Jbo.CmTrans.Spec.vowel c ↔ vowel c := Iff.rfl
theorem c_iff (c : Char) : Jbo.CmTrans.Spec.consonant c ↔ consonant c := Iff.rfl

theorem rafsi_letters {w : Word} (h : Rafsi w) : (∀ c ∈ w, letter c) ∧ ∃ a b c t, w = a :: b :: c :: t ∧ consonant a := by
  unfold Rafsi at h
  split at h
  · rename_i a b c
    refine ⟨?_, a, b, c, [], rfl, ?_⟩
    · simp only [List.mem_cons, List.not_mem_nil, or_false, forall_eq_or_imp, forall_eq]
      rcases h with ⟨h1, h2, h3 | h3⟩ | ⟨⟨h1, h2, _⟩, h3⟩
      · exact ⟨.inl h1, .inr (.inl h2), .inl h3⟩
      · exact ⟨.inl h1, .inr (.inl h2), .inr (.inl h3)⟩
      · exact ⟨.inl h1, .inl h2, .inr (.inl h3)⟩
    · rcases h with ⟨h1, _⟩ | ⟨⟨h1, _⟩, _⟩ <;> exact h1
  · rename_i a b c e
    refine ⟨?_, a, b, c, [e], rfl, ?_⟩
    · simp only [List.mem_cons, List.not_mem_nil, or_false, forall_eq_or_imp, forall_eq]
      rcases h with ⟨h1, h2, ⟨h3, h4⟩ | ⟨h3, h4⟩⟩ | ⟨⟨h1, h2, _⟩, h3, h4⟩
      · exact ⟨.inl h1, .inr (.inl h2), .inr (.inr (.inr h3)), .inr (.inl h4)⟩
      · exact ⟨.inl h1, .inr (.inl h2), .inl h3, .inl h4⟩
      · exact ⟨.inl h1, .inl h2, .inr (.inl h3), .inl h4⟩
    · rcases h with ⟨h1, _⟩ | ⟨⟨h1, _⟩, _⟩ <;> exact h1
  · exact h.elim

theorem gismu_letters {w : Word} (h : Gismu w) : (∀ c ∈ w, letter c) ∧ Cluster w ∧ ∃ a b c e f, w = [a, b, c, e, f] ∧ consonant a ∧ vowel f := by
  unfold Gismu at h
  split at h
  · rename_i a b c e f
    refine ⟨?_, ?_, a, b, c, e, f, rfl, ?_, h.2⟩
    · simp only [List.mem_cons, List.not_mem_nil, or_false, forall_eq_or_imp, forall_eq]
      rcases h with ⟨⟨h1, h2, h3, h4⟩ | ⟨⟨h1, h2, _⟩, h3, h4⟩, h5⟩
      · exact ⟨.inl h1, .inr (.inl h2), .inl h3, .inl h4, .inr (.inl h5)⟩
      · exact ⟨.inl h1, .inl h2, .inr (.inl h3), .inl h4, .inr (.inl h5)⟩
    · rcases h with ⟨⟨h1, h2, h3, h4⟩ | ⟨⟨h1, h2, _⟩, h3, h4⟩, h5⟩
      · exact ⟨[a, b], [f], c, e, rfl, h3, h4⟩
      · exact ⟨[], [c, e, f], a, b, rfl, h1, h2⟩
    · rcases h with ⟨⟨h1, _⟩ | ⟨⟨h1, _⟩, _⟩, _⟩ <;> exact h1
  · exact h.elim

/-- **Gismu are found as brivla.** -/
theorem gismu_found {w : Word} (h : Gismu w) : Is w .brivla := by
  obtain ⟨h1, h2, a, b, c, e, f, rfl, h3, h4⟩ := gismu_letters h
  refine ⟨⟨a, [b, c, e], f, rfl, nofun, h3, h4, ?_⟩, .inr (cluster_no_cmavo h2)⟩
  intro x hx
  exact h1 x (List.mem_cons_of_mem _ (List.mem_append_left [f] hx))

/-- The letters of a lujvo. -/
theorem lujvo_letters : ∀ (ps : List Part) (last : Word) (first : Bool), Lujvo first ps last → Proper ps last →
    (∀ c ∈ wordOf ps last, letter c) ∧ ∃ a b c t, wordOf ps last = a :: b :: c :: t ∧ consonant a := by
  intro ps
  induction ps with
  | nil =>
    intro last first _ hp
    rcases hp.2 with h | h
    · exact rafsi_letters h
    · obtain ⟨h1, _, a, b, c, e, f, rfl, h3, _⟩ := gismu_letters h
      exact ⟨h1, a, b, c, [e, f], rfl, h3⟩
  | cons p ps ih =>
    intro last first hl hp
    obtain ⟨_, _, ht, hl'⟩ := hl
    obtain ⟨h1, _⟩ := ih last false hl' ⟨fun q hq => hp.1 q (List.mem_cons_of_mem _ hq), hp.2⟩
    obtain ⟨h2, a, b, c, t, e, h3⟩ := rafsi_letters (hp.1 p (List.mem_cons_self ..))
    have htie : ∀ c ∈ p.tie, letter c := by
      have hy : ∀ c ∈ ['y'], letter c := by decide
      have hr : ∀ c ∈ ['r'], letter c := by decide
      have hn : ∀ c ∈ ['n'], letter c := by decide
      rcases ht with ht | ⟨_, ht⟩
      · rw [ht]; exact hy
      · split at ht
        · rcases ht with ht | ⟨ht, _⟩ | ⟨ht, _⟩
          · rw [ht]; exact hr
          · rw [ht]; exact hn
          · rw [ht]; nofun
        · rw [ht]; nofun
    refine ⟨?_, a, b, c, t ++ p.tie ++ wordOf ps last, by rw [wordOf, e]; simp, h3⟩
    intro x hx
    rw [wordOf] at hx
    rcases List.mem_append.1 hx with hx | hx
    · rcases List.mem_append.1 hx with hx | hx
      · exact h2 x hx
      · exact htie x hx
    · exact h1 x hx

theorem wordOf_last : ∀ (ps : List Part) (m : Word) (f : Char), ∃ m', wordOf ps (m ++ [f]) = m' ++ [f]
  | [], m, _ => ⟨m, rfl⟩
  | p :: ps, m, f => by
    obtain ⟨m', h⟩ := wordOf_last ps m f
    exact ⟨p.rafsi ++ p.tie ++ m', by rw [wordOf, h]; simp⟩

/-- **Lujvo are found as brivla**: such as end with a vowel and, if they begin with a rafsi CVV or CV'V, have `r` or `n` after it. -/
theorem lujvo_found {p : Part} {ps : List Part} {m : Word} {f : Char} (hl : Lujvo true (p :: ps) (m ++ [f])) (hp : Proper (p :: ps) (m ++ [f]))
    (hf : vowel f) (hd : diphthong p.rafsi → p.tie = ['r'] ∨ p.tie = ['n']) : Is (wordOf (p :: ps) (m ++ [f])) .brivla := by
  obtain ⟨hlet, a, b, c, t, e, ha⟩ := lujvo_letters _ _ _ hl hp
  obtain ⟨m', e'⟩ := wordOf_last (p :: ps) m f
  have ht := hl.2.2.1
  have hl' := hl.2.2.2
  clear hl
  obtain ⟨hlet2, a', b', c', t', e2, ha'⟩ := lujvo_letters _ _ _ hl' ⟨fun q hq => hp.1 q (List.mem_cons_of_mem _ hq), hp.2⟩
  have hform : BrivlaForm (wordOf (p :: ps) (m ++ [f])) := by
    rw [e'] at e hlet ⊢
    match m', e with
    | [], e => cases e
    | [_], e => cases e
    | x :: y :: m'', e =>
      obtain rfl := (List.cons.inj e).1
      exact ⟨x, y :: m'', f, rfl, nofun, ha, hf, fun z hz => hlet z (List.mem_append_left [f] (List.mem_cons_of_mem _ hz))⟩
  refine ⟨hform, ?_⟩
  have hr := hp.1 p (List.mem_cons_self ..)
  clear hp hform hlet e e' ha
  have htied : TiedWithY (wordOf (p :: ps) (m ++ [f])) ∨ Cluster (wordOf (p :: ps) (m ++ [f])) := by
    obtain ⟨r, tie⟩ := p
    rw [wordOf]
    simp only at hr hd ht ⊢
    unfold Rafsi at hr
    split at hr
    · rename_i x y z
      rcases hr with ⟨h1, h2, h3 | h3⟩ | ⟨⟨h1, h2, _⟩, h3⟩
      · -- CVC
        have hnd : ¬ diphthong [x, y, z] := fun h => vowel_not_consonant h.2 h3
        rcases ht with ht | ⟨_, ht⟩
        · left
          simp only at ht
          rw [ht]
          obtain ⟨m3, e3⟩ := wordOf_last ps m f
          rw [e3] at e2 hlet2 ⊢
          match m3, e2 with
          | [], e2 => cases e2
          | [_], e2 => cases e2
          | u :: v :: m4, e2 =>
            obtain rfl := (List.cons.inj e2).1
            exact ⟨x, y, z, u, v :: m4, f, rfl, nofun, h1, h2, h3, ha', fun q hq => hlet2 q (List.mem_append_left [f] (List.mem_cons_of_mem _ hq)), hf⟩
        · right
          rw [if_neg (fun h => hnd h.2)] at ht
          simp only at ht
          rw [ht, e2]
          exact ⟨[x, y], b' :: c' :: t', z, a', rfl, h3, ha'⟩
      · -- CVV
        right
        rcases hd ⟨h2, h3⟩ with h | h
        · rw [h, e2]
          exact ⟨[x, y, z], b' :: c' :: t', 'r', a', rfl, by decide, ha'⟩
        · rw [h, e2]
          exact ⟨[x, y, z], b' :: c' :: t', 'n', a', rfl, by decide, ha'⟩
      · -- CCV
        right
        exact ⟨[], z :: (tie ++ wordOf ps (m ++ [f])), x, y, by simp, h1, h2⟩
    · rename_i x y z w
      rcases hr with ⟨h1, h2, ⟨rfl, h4⟩ | ⟨h3, h4⟩⟩ | ⟨⟨h1, h2, _⟩, h3, h4⟩
      · right
        rcases hd ⟨h2, h4⟩ with h | h
        · rw [h, e2]
          exact ⟨[x, y, '\'', w], b' :: c' :: t', 'r', a', rfl, by decide, ha'⟩
        · rw [h, e2]
          exact ⟨[x, y, '\'', w], b' :: c' :: t', 'n', a', rfl, by decide, ha'⟩
      · right
        exact ⟨[x, y], tie ++ wordOf ps (m ++ [f]), z, w, by simp, h3, h4⟩
      · right
        exact ⟨[], z :: w :: (tie ++ wordOf ps (m ++ [f])), x, y, by simp, h1, h2⟩
    · exact hr.elim
  exact htied.imp_right cluster_no_cmavo

/-! ## Cases -/

example : Is "klama".toList .brivla := gismu_found (by decide)
theorem is_baryklama : Is "baryklama".toList .brivla := by
  refine lujvo_found (p := ⟨"bar".toList, ['y']⟩) (ps := []) (m := "klam".toList) (f := 'a') ?_ ⟨?_, ?_⟩ (by decide) (by decide)
  · simp only [Lujvo, Tied, Hyphened]
    decide
  · intro p hp
    rw [List.mem_singleton.1 hp]
    decide
  · decide
theorem is_soirsai : Is "soirsai".toList .brivla := by
  refine lujvo_found (p := ⟨"soi".toList, ['r']⟩) (ps := []) (m := "sa".toList) (f := 'i') ?_ ⟨?_, ?_⟩ (by decide) (by decide)
  · simp only [Lujvo, Tied, Hyphened]
    decide
  · intro p hp
    rw [List.mem_singleton.1 hp]
    decide
  · decide
example : Is ".djan.".toList .cmene := ⟨['.'], "dja".toList, 'n', ['.'], rfl, by decide, by decide, by decide, by
  exact .cons _ _ (by decide) (.cons _ _ (by decide) (.cons _ _ (by decide) .nil))⟩

theorem no_y {w : Word} (h : 'y' ∉ w) : ¬ TiedWithY w := by
  rintro ⟨a, b, c, e, m, f, rfl, _⟩
  simp at h

theorem is_mi : Is "mi".toList .cmavo :=
  ⟨.inl ⟨by decide, .cons 'm' ['i'] [] (by decide) (.one _ (by decide)) .nil⟩, no_y (by decide)⟩
theorem is_i : Is ".i".toList .cmavo :=
  ⟨.inl ⟨by decide, .dot ['i'] [] (.one _ (by decide)) .nil⟩, no_y (by decide)⟩
theorem is_leka : Is "leka".toList .cmavo :=
  ⟨.inl ⟨by decide, .cons 'l' ['e'] _ (by decide) (.one _ (by decide)) (.cons 'k' ['a'] [] (by decide) (.one _ (by decide)) .nil)⟩, no_y (by decide)⟩

/-- Words, blanks and a new line. -/
example : scan 40 0 "mi klama\n.i leka  ".toList = some [(.cmavo, "mi".toList), (.skip, " ".toList), (.brivla, "klama".toList), (.skip, "\n".toList),
    (.cmavo, ".i".toList), (.skip, " ".toList), (.cmavo, "leka".toList), (.skip, "  ".toList)] :=
  text_words [("mi".toList, .cmavo, " ".toList), ("klama".toList, .brivla, "\n".toList), (".i".toList, .cmavo, " ".toList),
    ("leka".toList, .cmavo, "  ".toList)] (by
      simp only [List.mem_cons, List.not_mem_nil, or_false, forall_eq_or_imp, forall_eq]
      exact ⟨⟨is_mi, .inl ⟨by decide, by decide⟩⟩, ⟨gismu_found (by decide), .inr rfl⟩, ⟨is_i, .inl ⟨by decide, by decide⟩⟩,
        is_leka, .inl ⟨by decide, by decide⟩⟩) 40 (by decide)

/-- Cmavo written together that look like a rafsi before `y`: `le by la'e`. -/
example : CmavoForm "lebyla'e".toList ∧ Is "lebyla'e".toList .brivla :=
  have t : TiedWithY "lebyla'e".toList := ⟨'l', 'e', 'b', 'l', "a'".toList, 'e', rfl, by decide, by decide, by decide, by decide, by decide, by decide, by decide⟩
  ⟨.inl ⟨by decide, .cons 'l' ['e'] _ (by decide) (.one _ (by decide)) (.cons 'b' ['y'] _ (by decide) .y
    (.cons 'l' "a'e".toList [] (by decide) (.more ['a'] ['e'] (.one _ (by decide)) (.one _ (by decide))) .nil))⟩, tied_brivla t, .inl t⟩

/-- Brackets within brackets. -/
example : ∃ ps, (∀ p ∈ ps, p.1 = Kind.paren) ∧ ps.flatMap (·.2) = "(xy [z] w)".toList ∧ Scans 0 "(xy [z] w)mi".toList (ps ++ [(.cmavo, "mi".toList)]) :=
  brackets_found (a := '(') (b := ')') (u := "xy [z] w".toList) (by decide) (by decide)
    (.char _ _ (by decide) (.char _ _ (by decide) (.char _ _ (by decide) (.group '[' ']' ['z'] " w".toList (by decide) (by decide)
      (.char _ _ (by decide) .nil) (.char _ _ (by decide) (.char _ _ (by decide) .nil)))))) "mi".toList _ ⟨2, by decide +kernel⟩

end Jbo.CmScan
