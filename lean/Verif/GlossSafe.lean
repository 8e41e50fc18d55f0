import Verif.GlossEnd
/-!
# Glosses: room in the buffers, missing entries, labels
-/

namespace Jbo.Gloss
open Jbo.Gloss.Spec

theorem put_fits {n : Nat} {t : Word} (h : t.length < n) : put n t = .ok t := if_pos h

theorem put_over {n : Nat} {t : Word} (h : n ≤ t.length) : put n t = .error .overflow := if_neg (by omega)

theorem ok_bind {α β : Type} (a : α) (f : α → M β) : ((.ok a : M α) >>= f) = f a := rfl

/-- The word whose places are looked up. -/
def convWord : Item → Option Word
  | .brivla w => some w
  | .cmavo .NU w _ => some w
  | .zei _ plus _ => some plus
  | _ => none

section
variable {d : Dict} {p : Props}

theorem other_fits (hl : ∀ w t, d.look w = some t → t.length ≤ 500) (w : Word) : ∃ e, translateOther d w = .ok e ∧ e.length ≤ 500 := by
  unfold translateOther
  split
  · rename_i t ht
    exact ⟨t, put_fits (by have := hl _ _ ht; omega), hl _ _ ht⟩
  · exact ⟨[], rfl, Nat.zero_le _⟩

theorem attempt_fits (hl : ∀ w t, d.look w = some t → t.length ≤ 500) (w : Word) : ∃ e, attempt d w = .ok e ∧ e.length ≤ 500 := by
  unfold attempt
  split
  · rename_i t ht
    exact ⟨t, put_fits (by have := hl _ _ ht; omega), hl _ _ ht⟩
  · exact ⟨['?'], rfl, by decide⟩

theorem brivla_fits {w : Word} (hv : ∃ r, convertible d p w = .ok r ∧ ∀ t, r = some t → t.length < 1024) : ∃ e, translateBrivla d p w = .ok e := by
  obtain ⟨r, h, hr⟩ := hv
  unfold translateBrivla
  rw [h]
  cases r with
  | none => exact ⟨[], rfl⟩
  | some t => exact ⟨t, put_fits (hr t rfl)⟩

theorem bai_fits (hl : ∀ w t, d.look w = some t → t.length ≤ 500) (hb : ∀ c, p.bai = some c → 1 ≤ c ∧ c ≤ 5) {w : Word} (hw : w.length ≤ 1000) :
    ∃ e, translateBai d p w = .ok e := by
  have hpre : ∃ pre, baiPrefix p = .ok pre ∧ pre.length ≤ 2 := by
    unfold baiPrefix
    split
    · exact ⟨[], rfl, by decide⟩
    · rename_i c hc
      obtain ⟨h1, h2⟩ := hb c hc
      have : c = 1 ∨ c = 2 ∨ c = 3 ∨ c = 4 ∨ c = 5 := by omega
      rcases this with rfl | rfl | rfl | rfl | rfl <;> exact ⟨_, rfl, by decide⟩
  obtain ⟨pre, h1, h2⟩ := hpre
  have hj : (if p.tense = some .jaitag then "@JAI".toList else []).length ≤ 4 := by split <;> decide
  unfold translateBai
  rw [h1]
  show ∃ e, (put 1024 _ >>= _) = _
  rw [put_fits (by rw [List.length_append, List.length_append]; omega)]
  rw [ok_bind]
  split
  · rename_i t ht
    exact ⟨t, put_fits (by have := hl _ _ ht; omega)⟩
  · split
    · rename_i t ht
      exact ⟨_, put_fits (by have := hl _ _ ht; rw [List.length_append]; have : " (CONV?)".toList.length = 8 := by decide
                             omega)⟩
    · exact ⟨_, rfl⟩

theorem inContext_fits {w : Word} (hw : w.length ≤ 1000) (c : Tenses.Ctx) : ∃ r, inContext d w c = .ok r := by
  unfold inContext
  have : (ctxSuffix c).length ≤ 8 := by cases c <;> decide
  rw [put_fits (by rw [List.length_append]; omega)]
  rw [ok_bind]
  split
  · exact ⟨_, rfl⟩
  · exact ⟨_, rfl⟩

theorem tense_fits (hl : ∀ w t, d.look w = some t → t.length ≤ 500) {w : Word} (hw : w.length ≤ 1000) : ∃ e, translateTense d p w = .ok e := by
  obtain ⟨o, ho, _⟩ := other_fits hl w
  unfold translateTense
  split
  · rename_i c hc
    obtain ⟨r, h⟩ := inContext_fits (d := d) hw c
    have h' := inContext_ok h
    rw [h]
    cases r with
    | none => exact ⟨o, ho⟩
    | some t =>
      refine ⟨t, put_fits ?_⟩
      obtain ⟨k, _, hk⟩ := List.exists_of_findSome?_eq_some h'.symm
      have := hl _ _ hk
      omega
  · exact ⟨o, ho⟩

theorem jai_fits (hl : ∀ w t, d.look w = some t → t.length ≤ 500) {w : Word} (hw : w.length ≤ 1000) : ∃ e, translateJai d p w = .ok e := by
  obtain ⟨o, ho, _⟩ := other_fits hl w
  have : (jaiSuffix p.role).length ≤ 2 := by rcases p.role with _ | ⟨_ | _, _ | _⟩ <;> decide
  unfold translateJai
  rw [put_fits (by rw [List.length_append]; omega)]
  rw [ok_bind]
  split
  · rename_i t ht
    exact ⟨t, put_fits (by have := hl _ _ ht; omega)⟩
  · exact ⟨o, ho⟩

theorem koha_fits (hl : ∀ w t, d.look w = some t → t.length ≤ 500) (hk : ∀ n, p.keha = some n → (toString n).length ≤ 500) (w : Word) :
    ∃ e, translateKoha d p w = .ok e := by
  obtain ⟨o, ho, hlen⟩ := other_fits hl w
  unfold translateKoha
  rw [ho]
  rw [ok_bind]
  split
  · split
    · rename_i n hn
      refine ⟨_, put_fits ?_⟩
      have := hk n hn
      rw [← String.length_toList] at this
      rw [List.length_append, List.length_append]
      have : " #".toList.length = 2 := by decide
      unfold num
      omega
    · exact ⟨o, rfl⟩
  · exact ⟨o, rfl⟩

theorem indicator_fits (hl : ∀ w t, d.look w = some t → t.length ≤ 500) (hc : ∀ c, p.cai = some c → (d.look (degreeWord c)).isSome = true) {w : Word}
    (hw : (withSuffixes w p.nai p.cai).length ≤ 1000) : ∃ r, translateIndicator d p w = .ok r := by
  have hpre : ∃ pre, caiGloss d p = .ok pre ∧ pre.length ≤ 501 := by
    unfold caiGloss
    split
    · exact ⟨[], rfl, by decide⟩
    · rename_i c hp
      have := hc c hp
      rw [← caiText_eq] at this
      split
      · rename_i hn
        rw [hn] at this
        cases this
      · rename_i t ht
        have := hl _ _ ht
        refine ⟨_, put_fits ?_, ?_⟩ <;> rw [List.length_append, List.length_singleton] <;> omega
  obtain ⟨pre, h1, h2⟩ := hpre
  unfold withSuffixes at hw
  rw [List.length_append] at hw
  unfold translateIndicator
  rw [h1]
  show ∃ r, (put 1024 (w ++ (if p.nai then ['n', 'a', 'i'] else [])) >>= _) = _
  rw [put_fits (by omega)]
  have he : ∃ e, indicatorGloss d pre (w ++ (if p.nai then ['n', 'a', 'i'] else [])) = .ok e := by
    unfold indicatorGloss
    split
    · rename_i t ht
      have := hl _ _ ht
      rw [put_fits (by rw [List.length_append]; omega)]
      refine ⟨_, put_fits ?_⟩
      rw [List.length_append, List.length_append, List.length_append]
      have h1 : "{".toList.length = 1 := by decide
      have h2 : "..}".toList.length = 3 := by decide
      omega
    · exact ⟨[], rfl⟩
  obtain ⟨e, he⟩ := he
  show ∃ r, (indicatorGloss d pre (w ++ (if p.nai then ['n', 'a', 'i'] else [])) >>= _) = _
  rw [he]
  have ht : caiTail p = degreePart p.cai := by
    unfold caiTail
    cases p.cai with
    | none => rfl
    | some c => exact congrArg _ (caiText_eq c)
  show ∃ r, (put 1024 ((w ++ (if p.nai then ['n', 'a', 'i'] else [])) ++ caiTail p) >>= _) = _
  rw [put_fits (by rw [ht, List.length_append]; omega)]
  exact ⟨_, rfl⟩

end

theorem pair_ok {m : M Word} (loj : Word) (h : ∃ e, m = .ok e) : ∃ r : Word × Word, (do return (loj, ← m)) = (.ok r : M (Word × Word)) := by
  obtain ⟨e, rfl⟩ := h
  exact ⟨_, rfl⟩

/-- **Room in the buffers.**  If no word is longer than 1000 characters as it is shown and no entry of the dictionary longer than 500, the degrees of indicators have
entries and the glosses put together from parts fit, then nothing is written outside of the buffers of 1024 bytes and no null pointer is read.  Full
claim: for every word; see `zoi_fits`, `lohu_overflow`, `entry_overflow` and `degree_missing`. -/
theorem word_fits_partial (d : Dict) (p : Props) (x : Item) (hl : ∀ w t, d.look w = some t → t.length ≤ 500)
    (hv : ∀ w, convWord x = some w → ∃ r, convertible d p w = .ok r ∧ ∀ t, r = some t → t.length < 1024)
    (hz : ∀ a b parts, x = .zei a b parts → (zeiParts d parts).length < 1024)
    (hc : ∀ c, p.cai = some c → (d.look (degreeWord c)).isSome = true) (hb : ∀ c, p.bai = some c → 1 ≤ c ∧ c ≤ 5)
    (hk : ∀ n, p.keha = some n → (toString n).length ≤ 500) (hx : (spelled p x).length ≤ 1000) :
    ∃ l e v, wordGloss d p x = .ok (l, e) ∧ shown x l = .ok v := by
  have fin : (∃ r, wordGloss d p x = .ok r) → ∃ l e v, wordGloss d p x = .ok (l, e) ∧ shown x l = .ok v := by
    rintro ⟨⟨l, e⟩, h⟩
    have hs := spelling d p x l e h
    have hlen : l.length ≤ 1000 := by rw [hs]; exact hx
    have : ∃ v, shown x l = .ok v := by
      have hd : (if dotted l then ".".toList else []).length ≤ 1 := by split <;> decide
      unfold shown
      split
      · exact ⟨_, rfl⟩
      · exact ⟨_, put_fits (by rw [List.length_append, List.length_append]; have : ".".toList.length = 1 := by decide
                               omega)⟩
      · exact ⟨_, put_fits (by rw [List.length_append]; omega)⟩
    obtain ⟨v, hv⟩ := this
    exact ⟨l, e, v, h, hv⟩
  apply fin
  cases x with
  | cmavo s w el =>
    have hw : w.length ≤ 1000 := by
      rw [spelled] at hx
      split at hx
      · unfold withSuffixes at hx
        rw [List.length_append, List.length_append] at hx
        omega
      · split at hx
        · rw [List.length_map] at hx
          exact hx
        · exact hx
    have hu : (if el then upper w else w).length < 1024 := by
      split
      · unfold upper
        rw [List.length_map]
        omega
      · omega
    rw [wordGloss, put_fits hu]
    show ∃ r, cmavoGloss d p s w _ = .ok r
    cases s
    case UI => exact indicator_fits hl hc hx
    case CAI => exact indicator_fits hl hc hx
    case BAI => exact pair_ok _ (bai_fits hl hb hw)
    case KOhA => exact pair_ok _ (koha_fits hl hk w)
    case NU => exact pair_ok _ (brivla_fits (hv w rfl))
    case JAI => exact pair_ok _ (jai_fits hl hw)
    case PU | ZAhO | VA | FAhA => exact pair_ok _ (tense_fits hl hw)
    case SE | GOI =>
      refine pair_ok _ ?_
      unfold translateSe
      split
      · exact ⟨_, rfl⟩
      · obtain ⟨e, h, _⟩ := other_fits hl w
        exact ⟨e, h⟩
    all_goals
      obtain ⟨e, h, _⟩ := other_fits hl w
      exact pair_ok _ ⟨e, h⟩
  | zoi f t u =>
    obtain ⟨e, h, _⟩ := attempt_fits hl u
    rw [wordGloss, put_fits (by simp [spelled, List.intercalate] at hx ⊢; omega)]
    exact pair_ok _ ⟨e, h⟩
  | zo t =>
    obtain ⟨e, h, he⟩ := attempt_fits hl t
    rw [wordGloss, put_fits (by simp [spelled] at hx ⊢; omega)]
    show ∃ r, (attempt d t >>= _) = _
    rw [h]
    exact pair_ok _ ⟨_, put_fits (by rw [List.length_append, List.length_append]; have : "\"".toList.length = 1 := by decide
                                     omega)⟩
  | zei a b c =>
    rw [wordGloss, put_fits (by simp [spelled] at hx; omega)]
    refine pair_ok _ ?_
    obtain ⟨r, h, hr⟩ := hv b rfl
    unfold zeiGloss
    rw [h]
    cases r with
    | none => exact ⟨_, put_fits (hz a b c rfl)⟩
    | some t =>
      show ∃ e, (if t.head? = some '?' then _ else _) = _
      split
      · exact ⟨_, put_fits (hz a b c rfl)⟩
      · exact ⟨_, put_fits (hr t rfl)⟩
  | lohu t =>
    obtain ⟨e, h, _⟩ := attempt_fits hl t
    rw [wordGloss, put_fits (by simp [spelled, List.intercalate] at hx ⊢; omega)]
    exact pair_ok _ ⟨e, h⟩
  | bu t =>
    obtain ⟨e, h, _⟩ := attempt_fits hl (t ++ ".bu".toList)
    rw [wordGloss, put_fits (by simp [spelled] at hx ⊢; omega)]
    exact pair_ok _ ⟨e, h⟩
  | brivla t =>
    rw [wordGloss, put_fits (by simp [spelled] at hx; omega)]
    exact pair_ok _ (brivla_fits (hv t rfl))
  | cmene t =>
    rw [wordGloss, put_fits (by simp [spelled] at hx; omega)]
    exact ⟨_, rfl⟩

end Jbo.Gloss
