import Verif.GlossSpec
import Verif.OutputThm
/-!
# The choice of the glosses: theorems
-/

namespace Jbo.Gloss
open Jbo.Gloss.Spec

theorem put_ok {n : Nat} {t u : Word} (h : put n t = .ok u) : u = t ∧ t.length < n := by
  unfold put at h
  split at h
  · rename_i hl
    cases h
    exact ⟨rfl, hl⟩
  · cases h

theorem bind_ok {α β : Type} {m : M α} {f : α → M β} {b : β} : (m >>= f) = .ok b ↔ ∃ a, m = .ok a ∧ f a = .ok b := by
  cases m with
  | error e => exact ⟨fun h => (by cases h), fun ⟨_, h, _⟩ => (by cases h)⟩
  | ok a => exact ⟨fun h => ⟨a, rfl, h⟩, fun ⟨_, h, h'⟩ => (by cases h; exact h')⟩

theorem other_ok {d : Dict} {w e : Word} (h : translateOther d w = .ok e) : e = (d.look w).getD [] := by
  unfold translateOther at h
  split at h
  · rename_i t ht
    rw [ht, (put_ok h).1]
    rfl
  · rename_i ht
    rw [ht]
    cases h
    rfl

theorem caiText_eq (c : Lex2.Cai) : caiText c = degreeWord c := by cases c <;> decide

theorem indicator_ok {d : Dict} {p : Props} {w l e : Word} (h : translateIndicator d p w = .ok (l, e)) :
    l = withSuffixes w p.nai p.cai := by
  unfold translateIndicator at h
  obtain ⟨pre, _, h⟩ := bind_ok.1 h
  obtain ⟨l1, h1, h⟩ := bind_ok.1 h
  obtain ⟨e1, _, h⟩ := bind_ok.1 h
  obtain ⟨l2, h2, h⟩ := bind_ok.1 h
  cases h
  rw [(put_ok h2).1, (put_ok h1).1]
  unfold withSuffixes
  congr 1
  unfold caiTail
  split
  · rename_i hc
    rw [hc]
    rfl
  · rename_i c hc
    rw [hc, caiText_eq]
    rfl

theorem kept {m : M Word} {loj l e : Word} (h : (do return (loj, ← m)) = (.ok (l, e) : M (Word × Word))) : l = loj ∧ m = .ok e := by
  obtain ⟨a, h1, h⟩ := bind_ok.1 h
  cases h
  exact ⟨rfl, h1⟩

/-- The gloss of a cmavo that is no indicator. -/
def engOf (d : Dict) (p : Props) (w : Word) : Spec.Kind → M Word
  | .bai => translateBai d p w
  | .silenced => translateSe d p w
  | .pronoun => translateKoha d p w
  | .abstractor => translateBrivla d p w
  | .tense => translateTense d p w
  | .jai => translateJai d p w
  | _ => translateOther d w

theorem cmavo_kind {d : Dict} {p : Props} {s : Terms.Sel} {w loj l e : Word} (h : cmavoGloss d p s w loj = .ok (l, e)) :
    ((s = .UI ∨ s = .CAI) ∧ translateIndicator d p w = .ok (l, e)) ∨
      (¬ (s = .UI ∨ s = .CAI) ∧ l = loj ∧ engOf d p w (kind s) = .ok e) := by
  cases s
  case UI => exact .inl ⟨.inl rfl, h⟩
  case CAI => exact .inl ⟨.inr rfl, h⟩
  all_goals exact .inr ⟨by decide, kept h⟩

/-- **What is shown of a word is the word.**  The text is the one of the source: quotations with the words around them, `nai` and the words for
degrees after the indicator they belong to, and terminators that were left out in capital letters. -/
theorem spelling (d : Dict) (p : Props) (x : Item) (l e : Word) (h : wordGloss d p x = .ok (l, e)) : l = spelled p x := by
  cases x with
  | cmavo s w el =>
    obtain ⟨loj, h1, h⟩ := bind_ok.1 h
    have h1 := (put_ok h1).1
    rw [spelled]
    rcases cmavo_kind h with ⟨hk, h⟩ | ⟨hk, rfl, _⟩
    · rw [if_pos hk]
      exact indicator_ok h
    · rw [if_neg hk, h1]
      rfl
  | zoi f t u =>
    obtain ⟨loj, h1, h⟩ := bind_ok.1 h
    rw [(kept h).1, (put_ok h1).1]
    simp [spelled, List.intercalate]
  | zo t =>
    obtain ⟨loj, h1, h⟩ := bind_ok.1 h
    obtain ⟨b, _, h⟩ := bind_ok.1 h
    rw [(kept h).1, (put_ok h1).1]
    rfl
  | zei a b c =>
    obtain ⟨loj, h1, h⟩ := bind_ok.1 h
    rw [(kept h).1, (put_ok h1).1]
    rfl
  | lohu t =>
    obtain ⟨loj, h1, h⟩ := bind_ok.1 h
    rw [(kept h).1, (put_ok h1).1]
    simp [spelled, List.intercalate]
  | bu t =>
    obtain ⟨loj, h1, h⟩ := bind_ok.1 h
    rw [(kept h).1, (put_ok h1).1]
    rfl
  | brivla t =>
    obtain ⟨loj, h1, h⟩ := bind_ok.1 h
    rw [(kept h).1, (put_ok h1).1]
    rfl
  | cmene t =>
    obtain ⟨loj, h1, h⟩ := bind_ok.1 h
    cases h
    rw [(put_ok h1).1]
    rfl

theorem dotted_eq (w : Word) : dotted w = w.head?.all (· ∈ ['a', 'e', 'i', 'o', 'u']) := by
  cases w with
  | nil => rfl
  | cons c w => rfl

/-- **Full stops**: before a vowel and after a name. -/
theorem shown_stopped (x : Item) (w v : Word) (h : shown x w = .ok v) : v = stopped x w := by
  cases x with
  | zei a b c =>
    cases h
    rfl
  | cmene u =>
    rw [(put_ok (show put 1024 _ = .ok v from h)).1, stopped, ← dotted_eq]
    rfl
  | _ =>
    rw [(put_ok (show put 1024 _ = .ok v from h)).1, stopped, ← dotted_eq, List.append_nil]
    · rfl
    all_goals
      intros
      rename_i e
      cases e

/-! ## Glosses -/

theorem of_cmavo {d : Dict} {p : Props} {s : Terms.Sel} {w l e : Word} {el : Bool} (h : wordGloss d p (.cmavo s w el) = .ok (l, e))
    (hs : kind s ≠ .indicator) : engOf d p w (kind s) = .ok e := by
  obtain ⟨loj, _, h⟩ := bind_ok.1 h
  rcases cmavo_kind h with ⟨rfl | rfl, _⟩ | ⟨_, _, h⟩
  · exact absurd rfl hs
  · exact absurd rfl hs
  · exact h

theorem suffix_eq (c : Tenses.Ctx) : ctxSuffix c = '@' :: (place c).toList := by cases c <;> decide

theorem inContext_ok {d : Dict} {w : Word} {c : Tenses.Ctx} {r : Option Word} (h : inContext d w c = .ok r) :
    r = firstOf d.look [w ++ '@' :: (place c).toList, w] := by
  obtain ⟨key, h1, h⟩ := bind_ok.1 h
  rw [(put_ok h1).1, suffix_eq] at h
  rw [firstOf, List.findSome?_cons]
  split at h
  · rename_i t ht
    cases h
    rw [ht]
  · rename_i ht
    cases h
    rw [ht]
    simp only [List.findSome?_cons, List.findSome?_nil]
    split <;> simp_all

theorem firstOf_one (look : Word → Option Word) (w : Word) : firstOf look [w] = look w := by
  rw [firstOf, List.findSome?_cons]
  split
  · rename_i h; rw [h]
  · rename_i h; rw [h]; rfl

theorem firstOf_last {look : Word → Option Word} {a w : Word} (h : firstOf look [a, w] = none) : look w = none := by
  simp only [firstOf, List.findSome?_eq_none_iff] at h
  exact h w (by simp)

/-- **The gloss of a cmavo.**  It is the entry of the first headword in the list: for words of tense the word with its place in the sentence before the
word as such, for `jai` the word with its role; `se` and `goi` have no gloss where they are part of another word's gloss.  Without an entry the gloss
is empty. -/
theorem gloss_first (d : Dict) (p : Props) (s : Terms.Sel) (w : Word) (el : Bool) (l e : Word) (h : wordGloss d p (.cmavo s w el) = .ok (l, e))
    (hs : kind s = .plain ∨ kind s = .silenced ∨ kind s = .tense ∨ kind s = .jai) : e = (firstOf d.look (keys s p w)).getD [] := by
  have h := of_cmavo h (by rcases hs with h | h | h | h <;> rw [h] <;> decide)
  unfold keys
  rcases hs with hs | hs | hs | hs <;> rw [hs] at h <;> simp only [hs]
  · rw [firstOf_one]
    exact other_ok h
  · rw [engOf, translateSe] at h
    split at h
    · rename_i hq
      cases h
      rw [if_pos hq]
      rfl
    · rename_i hq
      rw [if_neg hq, firstOf_one]
      exact other_ok h
  · rw [engOf, translateTense] at h
    split at h
    · rename_i c hc
      obtain ⟨r, h1, h⟩ := bind_ok.1 h
      have h1 := inContext_ok h1
      rw [hc]
      show e = (firstOf d.look [w ++ '@' :: (place c).toList, w]).getD []
      rw [← h1]
      split at h
      · exact (put_ok h).1
      · rw [other_ok h, firstOf_last h1.symm]
    · rename_i hc
      rw [hc]
      show e = (firstOf d.look [w]).getD []
      rw [firstOf_one]
      exact other_ok h
  · obtain ⟨key, h1, h⟩ := bind_ok.1 h
    have hk : jaiSuffix p.role = ['_', letter p.role] := by
      rcases p.role with _ | ⟨_ | _, _ | _⟩ <;> decide
    rw [(put_ok h1).1, hk] at h
    rw [firstOf, List.findSome?_cons]
    split at h
    · rename_i t ht
      rw [ht]
      exact (put_ok h).1
    · rename_i ht
      rw [ht]
      show e = (firstOf d.look [w]).getD []
      rw [firstOf_one]
      exact other_ok h

/-- The prefixes for the places of a word in BAI. -/
def sePrefix : Nat → String
  | 2 => "se"
  | 3 => "te"
  | 4 => "ve"
  | 5 => "xe"
  | _ => ""

/-- **Words in BAI.**  The headword has the prefix of the conversion before it, and `@JAI` after it if it stands after `jai`.  If there is none but the word
itself has an entry, that one is shown with the mark `(CONV?)`; otherwise a question mark. -/
theorem bai_gloss (d : Dict) (p : Props) (w : Word) (el : Bool) (l e : Word) (h : wordGloss d p (.cmavo .BAI w el) = .ok (l, e)) :
    e = ((d.look ((sePrefix (p.bai.getD 1)).toList ++ w ++ (if p.tense = some .jaitag then "@JAI".toList else []))).or
      ((d.look w).map (· ++ " (CONV?)".toList))).getD ['?'] := by
  have h := of_cmavo h (by decide)
  change translateBai d p w = .ok e at h
  obtain ⟨pre, h0, h⟩ := bind_ok.1 h
  obtain ⟨key, h1, h⟩ := bind_ok.1 h
  have hp : pre = (sePrefix (p.bai.getD 1)).toList := by
    unfold baiPrefix at h0
    split at h0
    · rename_i hb
      cases h0
      rw [hb]
      rfl
    · rename_i c hb
      rw [hb]
      unfold prefixes at h0
      split at h0 <;> cases h0 <;> rfl
  rw [(put_ok h1).1, hp] at h
  split at h
  · rename_i t ht
    rw [ht]
    exact (put_ok h).1
  · rename_i ht
    rw [ht]
    split at h
    · rename_i t ht
      rw [ht]
      exact (put_ok h).1
    · rename_i ht
      rw [ht]
      cases h
      rfl

/-- **Pronouns.**  `ke'a` has after its gloss the number of the bracket of what it stands for. -/
theorem koha_gloss (d : Dict) (p : Props) (w : Word) (el : Bool) (l e : Word) (h : wordGloss d p (.cmavo .KOhA w el) = .ok (l, e)) :
    e = (d.look w).getD [] ++ (if w = "ke'a".toList then (match p.keha with | some n => [' ', '#'] ++ (toString n).toList | none => []) else []) := by
  have h := of_cmavo h (by decide)
  change translateKoha d p w = .ok e at h
  obtain ⟨g, h1, h⟩ := bind_ok.1 h
  rw [← other_ok h1]
  split at h
  · rename_i hw
    rw [if_pos hw]
    split at h
    · rename_i n hn
      rw [hn, (put_ok h).1, List.append_assoc]
      rfl
    · rename_i hn
      cases h
      rw [hn, List.append_nil]
  · rename_i hw
    cases h
    rw [if_neg hw, List.append_nil]

theorem role_eq (r : Bool × Bool) : roleCtx r = speech r.1 r.2 := by
  rcases r with ⟨_ | _, _ | _⟩ <;> rfl

/-- **Brivla and abstractors.**  Where the role is known, the gloss is that of `adv_translate` for the place that the conversions put first, as the part of
speech that the role asks for. -/
theorem role_gloss (d : Dict) (p : Props) (x : Item) (w l e : Word) (a b : Bool) (hx : x = .brivla w ∨ ∃ el, x = .cmavo .NU w el)
    (hr : p.role = some (a, b)) (h : wordGloss d p x = .ok (l, e)) : d.adv w (p.conv.getD 1) (speech a b) = .ok e := by
  have h : translateBrivla d p w = .ok e := by
    rcases hx with rfl | ⟨el, rfl⟩
    · obtain ⟨loj, _, h⟩ := bind_ok.1 h
      exact (kept h).2
    · exact of_cmavo h (by decide)
  obtain ⟨r, h1, h⟩ := bind_ok.1 h
  unfold convertible at h1
  rw [hr] at h1
  obtain ⟨t, h2, h1⟩ := bind_ok.1 h1
  cases h1
  rw [(put_ok h).1, ← role_eq (a, b)]
  exact h2

/-- Brivla without a role: the entry for the place, the entry of the word with `(CONV?)` if there is a conversion, what can be made of the parts of
the word, or nothing. -/
theorem plain_brivla_gloss (d : Dict) (p : Props) (w l e : Word) (hr : p.role = none) (h : wordGloss d p (.brivla w) = .ok (l, e)) :
    (∃ t, d.look (w ++ (toString (p.conv.getD 1)).toList) = some t ∧ e = t) ∨
      (d.look (w ++ (toString (p.conv.getD 1)).toList) = none ∧
        ((∃ t, d.look w = some t ∧ e = t ++ (if p.conv.isSome then " (CONV?)".toList else [])) ∨
          (d.look w = none ∧ ∃ r, d.unknown w (p.conv.getD 1) .noun = .ok r ∧ e = r.getD []))) := by
  obtain ⟨loj, _, h⟩ := bind_ok.1 h
  obtain ⟨r, h1, h⟩ := bind_ok.1 (kept h).2
  unfold convertible at h1
  rw [hr] at h1
  simp only at h1
  split at h1
  · rename_i t ht
    cases h1
    exact .inl ⟨t, ht, (put_ok h).1⟩
  · rename_i hn
    refine .inr ⟨hn, ?_⟩
    split at h1
    · rename_i t ht
      cases h1
      exact .inl ⟨t, ht, (put_ok h).1⟩
    · rename_i ht
      refine .inr ⟨ht, r, h1, ?_⟩
      cases r with
      | none => cases h; rfl
      | some t => exact (put_ok h).1

/-- **Indicators.**  The gloss of the word together with its `nai` stands in braces, after the gloss of the word for the degree.  If the word has no entry, there
is no gloss, not even of the degree. -/
theorem indicator_gloss (d : Dict) (p : Props) (s : Terms.Sel) (w : Word) (el : Bool) (l e : Word) (hs : s = .UI ∨ s = .CAI)
    (h : wordGloss d p (.cmavo s w el) = .ok (l, e)) :
    e = match d.look (withSuffixes w p.nai none) with
      | some t => ['{'] ++ (match p.cai with | some c => (d.look (degreeWord c)).getD [] ++ [' '] | none => []) ++ t ++ ['.', '.', '}']
      | none => [] := by
  obtain ⟨loj, _, h⟩ := bind_ok.1 h
  have h : translateIndicator d p w = .ok (l, e) := by
    rcases cmavo_kind h with ⟨_, h⟩ | ⟨hn, _⟩
    · exact h
    · exact absurd hs hn
  obtain ⟨pre, h0, h⟩ := bind_ok.1 h
  obtain ⟨l1, h1, h⟩ := bind_ok.1 h
  obtain ⟨e1, h2, h⟩ := bind_ok.1 h
  obtain ⟨l2, _, h⟩ := bind_ok.1 h
  cases h
  have hp : pre = match p.cai with | some c => (d.look (degreeWord c)).getD [] ++ [' '] | none => [] := by
    unfold caiGloss at h0
    split at h0
    · rename_i hc
      cases h0
      rw [hc]
    · rename_i c hc
      rw [hc]
      show pre = (d.look (degreeWord c)).getD [] ++ [' ']
      rw [← caiText_eq]
      split at h0
      · cases h0
      · rename_i t ht
        rw [ht]
        exact (put_ok h0).1
  have hl : l1 = withSuffixes w p.nai none := by
    rw [(put_ok h1).1]
    unfold withSuffixes
    rw [degreePart, List.append_nil]
    rfl
  rw [← hp, ← hl]
  unfold indicatorGloss at h2
  split at h2
  · rename_i t ht
    obtain ⟨b, h3, h2⟩ := bind_ok.1 h2
    rw [ht, (put_ok h2).1, (put_ok h3).1]
    simp
  · rename_i ht
    cases h2
    rw [ht]

end Jbo.Gloss
