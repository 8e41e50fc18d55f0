import Verif.CmTextSpec
import Verif.CmMainThm
/-!
# `cmafihe` on any text of words, brackets and empty lines
-/

namespace Jbo.CmScan
open Jbo.CmTrans (Word)
open Jbo.CmScan.Spec Re
open Jbo.CmMain.Spec (NotNext)

/-- Blanks, whatever comes after them. -/
theorem spaces_found {s : Word} (hn : s ≠ []) (hb : ∀ c ∈ s, c = ' ' ∨ c = '\t') (rest : Word) (hr : NotNext [' ', '\t'] rest) :
    munch rules (s ++ rest) (s ++ rest).length = some (s.length, .skip, 0) := by
  match s, hn with
  | b :: s, _ =>
    obtain ⟨o1, o2, o3, o4, o5, o6, o7, o8, o9⟩ := void_blank b (by
      rcases hb b (List.mem_cons_self ..) with rfl | rfl <;> decide)
    refine munch_eq _ _ _ _ (by simp) ?_ _ (by simp) ?_
    · rw [List.take_left]
      have hB : blankRe.Lang (b :: s) := lang_plus_set.2 ⟨nofun, fun c hc => by rcases hb c hc with rfl | rfl <;> rfl⟩
      have q : ∀ {r : Re}, void (r.deriv b) = true → r.accepts (b :: s) = false := fun o => not_accepts (void_first o)
      have q4 := q o4
      rw [nameRe] at q4
      have hB' := (accepts_iff _ _).2 hB
      rw [blankRe] at hB'
      simp [firstRule, rules, q o1, q o2, q o3, q4, q o5, hB']
    · intro n h1 h2
      rw [List.take_append, List.take_of_length_le (by omega)]
      obtain ⟨d, hd⟩ : ∃ d, n - (b :: s).length = d + 1 := ⟨n - (b :: s).length - 1, by omega⟩
      rw [hd]
      cases rest with
      | nil => rw [List.append_nil] at h2; omega
      | cons c t =>
        rw [List.take_succ_cons]
        have hcb : ¬ (c = ' ' ∨ c = '\t') := by simpa using hr c rfl
        generalize List.take d t = t'
        rw [firstRule, Option.map_eq_none_iff, List.find?_eq_none]
        intro r hr
        rw [accepts_iff]
        rw [rules] at hr
        simp only [List.mem_cons, List.not_mem_nil, or_false] at hr
        have q : ∀ {r : Re}, void (r.deriv b) = true → ¬ r.Lang (b :: s ++ c :: t') := fun o => void_first o
        rcases hr with rfl | rfl | rfl | rfl | rfl | rfl | rfl | rfl | rfl | rfl | rfl
        · exact q o1
        · exact q o2
        · exact q o3
        · exact q o4
        · exact q o5
        · intro e
          have := (lang_plus_set.1 e).2 c (List.mem_append_right _ (List.mem_cons_self ..))
          rw [Bool.or_eq_true, beq_iff_eq, beq_iff_eq] at this
          exact hcb this
        · exact q o6
        · exact q o7
        · exact q o8
        · exact q o9
        · rintro ⟨x, e, _⟩
          rw [List.cons_append, List.cons.injEq] at e
          have := e.2
          simp at this

/-! ## Ends of line -/

theorem over_NL : Over (fun c => c = '\n' ∨ c = '\r') NL := by
  simp only [NL, opt, chr, Over]
  exact ⟨⟨fun c h => .inr (beq_iff_eq.1 h), trivial⟩, fun c h => .inl (beq_iff_eq.1 h)⟩

theorem void_nl : void (BM.deriv '\n') = true ∧ void (CM.deriv '\n') = true ∧ void ((seq C LV).deriv '\n') = true ∧
    void (nameRe.deriv '\n') = true ∧ void ((plus L).deriv '\n') = true ∧ void (blankRe.deriv '\n') = true ∧
    void ((set isOpen).deriv '\n') = true ∧ void ((plus (set isAlpha)).deriv '\n') = true ∧ void ((set (· != '\n')).deriv '\n') = true := by decide +kernel

theorem lang_NL {w : Word} : NL.Lang w ↔ w = ['\n'] ∨ w = ['\r', '\n'] := by
  constructor
  · rintro ⟨u, v, rfl, h1, h2⟩
    rw [lang_chr.1 h2]
    rcases lang_opt.1 h1 with h | rfl
    · rw [lang_chr.1 h]; exact .inr rfl
    · exact .inl rfl
  · rintro (rfl | rfl)
    · exact ⟨[], ['\n'], rfl, .inr rfl, lang_chr.2 rfl⟩
    · exact ⟨['\r'], ['\n'], rfl, .inl (lang_chr.2 rfl), lang_chr.2 rfl⟩

theorem lang_lines (n : Nat) : (seq NL (plus NL)).Lang (List.replicate (n + 2) '\n') := by
  refine ⟨['\n'], List.replicate (n + 1) '\n', rfl, lang_NL.2 (.inl rfl), ['\n'], List.replicate n '\n', rfl, lang_NL.2 (.inl rfl),
    List.replicate n ['\n'], ?_, ?_⟩
  · induction n with
    | zero => rfl
    | succ n ih => rw [List.replicate_succ, List.replicate_succ, List.flatten_cons, ← ih]; rfl
  · intro u hu
    rw [List.eq_of_mem_replicate hu]
    exact lang_NL.2 (.inl rfl)

theorem long_not_NL (n : Nat) : ¬ NL.Lang (List.replicate (n + 2) '\n') := by
  rw [lang_NL]
  rintro (h | h)
  · have := congrArg List.length h
    simp at this
  · rw [List.replicate_succ, List.cons.injEq] at h
    exact absurd h.1 (by decide)

theorem none_after (m : Nat) (c : Char) (t : Word) (hc : c ∉ ['\n', '\r']) : firstRule rules (List.replicate (m + 1) '\n' ++ c :: t) = .none := by
  obtain ⟨o1, o2, o3, o4, o5, o6, o7, o8, o9⟩ := void_nl
  have hm : c ∈ List.replicate (m + 1) '\n' ++ c :: t := List.mem_append_right _ (List.mem_cons_self ..)
  have hcn : ¬ (c = '\n' ∨ c = '\r') := by simpa using hc
  rw [firstRule, Option.map_eq_none_iff, List.find?_eq_none]
  intro r hr
  rw [accepts_iff]
  rw [rules] at hr
  simp only [List.mem_cons, List.not_mem_nil, or_false] at hr
  have q : ∀ {r : Re}, void (r.deriv '\n') = true → ¬ r.Lang (List.replicate (m + 1) '\n' ++ c :: t) := fun o => void_first o
  rcases hr with rfl | rfl | rfl | rfl | rfl | rfl | rfl | rfl | rfl | rfl | rfl
  · exact q o1
  · exact q o2
  · exact q o3
  · exact q o4
  · exact q o5
  · exact q o6
  · exact fun e => hcn (over_lang _ _ over_NL e c hm)
  · exact fun e => hcn (over_lang (seq NL (plus NL)) _ ⟨over_NL, over_NL, over_NL⟩ e c hm)
  · exact q o7
  · exact q o8
  · exact q o9

theorem first_lines (n : Nat) : firstRule rules (List.replicate (n + 2) '\n') = some (.newline, 0) := by
  obtain ⟨o1, o2, o3, o4, o5, o6, _⟩ := void_nl
  have q : ∀ {r : Re}, void (r.deriv '\n') = true → r.accepts (List.replicate (n + 2) '\n') = false := fun o => not_accepts (void_first (t := List.replicate (n + 1) '\n') o)
  have q4 := q o4
  rw [nameRe] at q4
  have q6 := q o6
  rw [blankRe] at q6
  unfold firstRule rules
  simp only [List.find?_cons, q o1, q o2, q o3, q4, q o5, q6, not_accepts (long_not_NL n), (accepts_iff _ _).2 (lang_lines n)]
  rfl

theorem lines_found (m : Nat) (rest : Word) (hr : NotNext ['\n', '\r'] rest) :
    munch rules (List.replicate (m + 1) '\n' ++ rest) (List.replicate (m + 1) '\n' ++ rest).length =
      some ((List.replicate (m + 1) '\n').length, if m = 0 then .skip else .newline, 0) := by
  refine munch_eq _ _ _ _ (by simp) ?_ _ (by simp) ?_
  · rw [List.take_left]
    cases m with
    | zero => exact first_newline
    | succ m => exact first_lines m
  · intro n h1 h2
    rw [List.take_append, List.take_of_length_le (by omega)]
    obtain ⟨d, hd⟩ : ∃ d, n - (List.replicate (m + 1) '\n').length = d + 1 := ⟨n - (List.replicate (m + 1) '\n').length - 1, by omega⟩
    rw [hd]
    cases rest with
    | nil => rw [List.append_nil] at h2; omega
    | cons c t =>
      rw [List.take_succ_cons]
      exact none_after m c _ (hr c rfl)

/-! ## Full stops and signs -/

theorem vowels_letters {v : Word} (h : Vowels v) : ∀ c ∈ v, letter c := by
  induction h with
  | one a ha => intro c hc; obtain rfl := List.mem_singleton.1 hc; exact vowel_letter ha
  | two a b ha hb =>
    intro c hc
    rcases List.mem_cons.1 hc with rfl | hc
    · exact vowel_letter ha
    · obtain rfl := List.mem_singleton.1 hc; exact vowel_letter hb
  | y => intro c hc; obtain rfl := List.mem_singleton.1 hc; decide
  | more u v _ _ ih1 ih2 =>
    intro c hc
    rcases List.mem_append.1 hc with h | h
    · exact ih1 c h
    · rcases List.mem_cons.1 h with rfl | h
      · decide
      · exact ih2 c h

theorem dot_no_letter : ¬ letter '.' := by decide

/-- At a full stop in cmavo that are written together one ends and another begins, with a letter. -/
theorem cmavo_split {x : Word} (h : Cmavo x) : ∀ w t, x = w ++ '.' :: t → Cmavo w ∧ ∃ c, t.head? = some c ∧ letter c := by
  induction h with
  | nil => intro w t e; simp at e
  | cons c v w' hc hv hw ih =>
    intro w t e
    rcases List.append_eq_append_iff.1 e with ⟨as, e1, e2⟩ | ⟨bs, e1, e2⟩
    · obtain ⟨h1, h2⟩ := ih as t e2
      rw [e1]
      exact ⟨.cons c v as hc hv h1, h2⟩
    · cases bs with
      | nil =>
        obtain ⟨_, h2⟩ := ih [] t e2.symm
        rw [List.append_nil] at e1
        rw [← e1]
        have := Cmavo.cons c v [] hc hv .nil
        rw [List.append_nil] at this
        exact ⟨this, h2⟩
      | cons b bs =>
        rw [List.cons_append, List.cons.injEq] at e2
        obtain ⟨rfl, _⟩ := e2
        have hm : '.' ∈ c :: v := by rw [e1]; exact List.mem_append_right _ (List.mem_cons_self ..)
        rcases List.mem_cons.1 hm with h | h
        · rw [← h] at hc; exact absurd hc dot_not_consonant
        · exact absurd (vowels_letters hv _ h) dot_no_letter
  | dot v w' hv hw ih =>
    intro w t e
    rcases List.append_eq_append_iff.1 e with ⟨as, e1, e2⟩ | ⟨bs, e1, e2⟩
    · obtain ⟨h1, h2⟩ := ih as t e2
      rw [e1]
      exact ⟨.dot v as hv h1, h2⟩
    · cases bs with
      | nil =>
        obtain ⟨_, h2⟩ := ih [] t e2.symm
        rw [List.append_nil] at e1
        rw [← e1]
        have := Cmavo.dot v [] hv .nil
        rw [List.append_nil] at this
        exact ⟨this, h2⟩
      | cons b bs =>
        rw [List.cons_append, List.cons.injEq] at e2
        obtain ⟨rfl, e3⟩ := e2
        cases w with
        | nil =>
          rw [List.nil_append, List.cons.injEq] at e1
          refine ⟨.nil, ?_⟩
          obtain ⟨x, r, rfl⟩ := vowels_some hv
          rw [e3, ← e1.2]
          exact ⟨x, rfl, vowels_letters hv x (List.mem_cons_self ..)⟩
        | cons a w =>
          rw [List.cons_append, List.cons.injEq] at e1
          have hm : '.' ∈ v := by rw [e1.2]; exact List.mem_append_right _ (List.mem_cons_self ..)
          exact absurd (vowels_letters hv _ hm) dot_no_letter

theorem form_split {w t : Word} (hw : w ≠ []) (h : CmavoForm (w ++ '.' :: t)) : CmavoForm w ∧ ∃ c, t.head? = some c ∧ letter c := by
  rcases h with ⟨_, h⟩ | ⟨u, v, e, hu, hv⟩
  · obtain ⟨h1, h2⟩ := cmavo_split h w t rfl
    exact ⟨.inl ⟨hw, h1⟩, h2⟩
  · rcases List.append_eq_append_iff.1 e.symm with ⟨as, e1, e2⟩ | ⟨bs, e1, e2⟩
    · obtain ⟨h1, h2⟩ := cmavo_split hv as t e2
      exact ⟨.inr ⟨u, as, e1, hu, h1⟩, h2⟩
    · cases bs with
      | nil =>
        obtain ⟨_, h2⟩ := cmavo_split hv [] t e2.symm
        rw [List.append_nil] at e1
        exact ⟨.inr ⟨w, [], by simp, e1 ▸ hu, .nil⟩, h2⟩
      | cons b bs =>
        rw [List.cons_append, List.cons.injEq] at e2
        have hm : '.' ∈ u := by rw [e1, ← e2.1]; exact List.mem_append_right _ (List.mem_cons_self ..)
        exact absurd (vowels_letters hu _ hm) dot_no_letter

theorem letters_no_dot {m : Word} (h : Letters m) : '.' ∉ m := by
  induction h with
  | nil => nofun
  | cons c w hc _ ih =>
    intro hm
    rcases List.mem_cons.1 hm with h | h
    · rw [← h] at hc; exact dot_no_letter hc
    · exact ih h
  | comma c w hc _ ih =>
    intro hm
    rcases List.mem_cons.1 hm with h | h
    · rw [← h] at hc; exact dot_no_letter hc
    · rcases List.mem_cons.1 h with h | h
      · exact absurd h (by decide)
      · exact ih h

/-- A name that has a stop inside ends with it, and a consonant is before it. -/
theorem name_stop {w t : Word} (hw : w ≠ []) (h : NameForm (w ++ '.' :: t)) : ∃ m y, w = m ++ [y] ∧ consonant y := by
  obtain ⟨a, m, y, b, e, ha, hb, hy, hm⟩ := h
  have hmy : '.' ∉ m ++ [y] := by
    intro h
    rcases List.mem_append.1 h with h | h
    · exact letters_no_dot hm h
    · rw [← List.mem_singleton.1 h] at hy; exact dot_not_consonant hy
  have key : ∀ w' : Word, w' ++ '.' :: t = m ++ [y] ++ b → w' = m ++ [y] := by
    intro w' e
    rcases List.append_eq_append_iff.1 e with ⟨as, e1, e2⟩ | ⟨bs, e1, e2⟩
    · cases as with
      | nil => rw [e1, List.append_nil]
      | cons z as =>
        rw [List.cons_append, List.cons.injEq] at e2
        exact absurd (by rw [e1, ← e2.1]; exact List.mem_append_right _ (List.mem_cons_self ..)) hmy
    · rcases List.mem_cons.1 hb with rfl | hb
      · have := congrArg List.length e2
        simp at this
      · obtain rfl := List.mem_singleton.1 hb
        have := congrArg List.length e2
        simp only [List.length_append, List.length_cons, List.length_nil] at this
        have : bs = [] := List.eq_nil_of_length_eq_zero (by omega)
        rw [e1, this, List.append_nil]
  rw [List.append_assoc a, List.append_assoc a] at e
  rcases List.mem_cons.1 ha with rfl | ha
  · exact ⟨m, y, key w e, hy⟩
  · obtain rfl := List.mem_singleton.1 ha
    match w, hw with
    | x :: w, _ =>
      rw [List.cons_append, List.cons_append, List.cons.injEq] at e
      exact ⟨x :: m, y, by rw [key w e.2]; rfl, hy⟩

open Jbo.CmMain.Spec (Stopped Other)

/-- The last letter of a brivla or of cmavo is no consonant. -/
theorem no_consonant_last {w : Word} (h : BrivlaForm w ∨ CmavoForm w) : ¬ ∃ m y, w = m ++ [y] ∧ consonant y := by
  rintro ⟨m, y, rfl, hy⟩
  rcases h with ⟨x, m', y', e, _, _, h, _⟩ | h
  · rw [last_inj e] at hy
    exact vowel_not_consonant h hy
  · obtain ⟨m', y', e, h⟩ := form_last h
    rw [last_inj e] at hy
    rcases h with h | rfl
    · exact vowel_not_consonant h hy
    · exact y_not_consonant hy

theorem stopped_no_longer {w t rest : Word} {k : Kind} (hk : Is w k) (h : Stopped w rest) (n : Nat) (hn : n ≠ 0) (ht : rest.take n = t) :
    firstRule rules (w ++ t) = .none := by
  obtain ⟨hw, hc⟩ := is_chars hk
  obtain ⟨r, rfl, h⟩ := h
  obtain ⟨n, rfl⟩ := Nat.exists_eq_succ_of_ne_zero hn
  rw [List.take_succ_cons] at ht
  subst ht
  have hbc : BrivlaForm w ∨ CmavoForm w := h.elim (fun h => .inl h.1) (fun h => .inr h.1)
  have hm : '.' ∈ w ++ '.' :: List.take n r := List.mem_append_right _ (List.mem_cons_self ..)
  have hCM : ¬ CM.Lang (w ++ '.' :: List.take n r) := by
    intro e
    obtain ⟨h1, c, h2, h3⟩ := form_split hw (lang_CM.1 e)
    rcases h with h | h
    · exact h.2 h1
    · refine h.2 c ?_ h3
      cases r with
      | nil => rw [List.take_nil] at h2; cases h2
      | cons a r =>
        cases n with
        | zero => cases h2
        | succ n => exact h2
  have hN : ¬ nameRe.Lang (w ++ '.' :: List.take n r) := fun e => no_consonant_last hbc (name_stop hw (lang_name.1 e))
  match w, hw with
  | x :: w, _ =>
    obtain ⟨o1, o2, o3, o4⟩ := other_rules x (wordChar_starts (hc x (List.mem_cons_self ..)))
    rw [firstRule, Option.map_eq_none_iff, List.find?_eq_none]
    intro r' hr
    rw [accepts_iff]
    rw [rules] at hr
    simp only [List.mem_cons, List.not_mem_nil, or_false] at hr
    have q : ∀ {r' : Re}, void (r'.deriv x) = true → ¬ r'.Lang (x :: w ++ '.' :: List.take n r) := fun o => void_first o
    rcases hr with rfl | rfl | rfl | rfl | rfl | rfl | rfl | rfl | rfl | rfl | rfl
    · exact fun e => dot_no_letter (brivla_chars (lang_BM e).1 _ hm)
    · exact hCM
    · exact fun e => dot_no_letter (brivla_chars (lang_brivla.1 e) _ hm)
    · exact hN
    · exact fun e => dot_no_letter ((isL_iff _).1 ((lang_plus_set.1 e).2 _ hm))
    · exact q o1
    · exact q o2
    · exact q o3
    · exact q o4
    · exact fun e => absurd ((lang_plus_set.1 e).2 _ hm) (by decide)
    · rintro ⟨y, e, _⟩
      rw [List.cons_append, List.cons.injEq] at e
      have := e.2
      simp at this

/-- A word before a full stop is found. -/
theorem stopped_found {w rest : Word} {k : Kind} (hk : Is w k) (h : Stopped w rest) : munch rules (w ++ rest) (w ++ rest).length = some (w.length, k, 0) := by
  refine munch_eq _ _ _ _ (List.length_pos_iff.2 (is_chars hk).1) ?_ _ (by simp) ?_
  · rw [List.take_left]
    exact rule_of hk
  · intro n h1 h2
    rw [List.take_append, List.take_of_length_le (by omega)]
    exact stopped_no_longer hk h (n - w.length) (by omega) rfl

/-- A single character is found. -/
theorem one_found (c : Char) (rest : Word) (h1 : firstRule rules [c] = some (.fallthru, 0)) (h2 : ∀ x, rest.head? = some x → ∀ t, firstRule rules (c :: x :: t) = .none) :
    munch rules ([c] ++ rest) ([c] ++ rest).length = some ([c].length, .fallthru, 0) := by
  refine munch_eq _ _ _ _ (by simp) ?_ _ (by simp) ?_
  · rw [List.take_left]; exact h1
  · intro n h3 h4
    rw [List.take_append, List.take_of_length_le (by omega)]
    obtain ⟨d, hd⟩ : ∃ d, n - [c].length = d + 1 := ⟨n - [c].length - 1, by omega⟩
    rw [hd]
    cases rest with
    | nil => rw [List.append_nil] at h4; omega
    | cons x t =>
      rw [List.take_succ_cons]
      exact h2 x rfl _

theorem void_dot : void (BM.deriv '.') = true ∧ void ((seq C LV).deriv '.') = true ∧ void ((plus L).deriv '.') = true ∧ void (blankRe.deriv '.') = true ∧
    void (NL.deriv '.') = true ∧ void ((seq NL (plus NL)).deriv '.') = true ∧ void ((set isOpen).deriv '.') = true ∧
    void ((plus (set isAlpha)).deriv '.') = true := by decide +kernel

theorem stop_found (rest : Word) (h : ∀ c, rest.head? = some c → ¬ letter c) :
    munch rules (['.'] ++ rest) (['.'] ++ rest).length = some (['.'].length, .fallthru, 0) := by
  refine one_found '.' rest (by decide +kernel) ?_
  intro x hx t
  have hl := h x hx
  obtain ⟨o1, o2, o3, o4, o5, o6, o7, o8⟩ := void_dot
  rw [firstRule, Option.map_eq_none_iff, List.find?_eq_none]
  intro r hr
  rw [accepts_iff]
  rw [rules] at hr
  simp only [List.mem_cons, List.not_mem_nil, or_false] at hr
  rcases hr with rfl | rfl | rfl | rfl | rfl | rfl | rfl | rfl | rfl | rfl | rfl
  · exact void_first o1
  · intro e
    rcases lang_CM.1 e with ⟨_, e⟩ | ⟨u, v, e, hu, _⟩
    · obtain ⟨_, c, h1, h2⟩ := cmavo_split e [] _ rfl
      cases h1
      exact hl h2
    · obtain ⟨z, u', rfl⟩ := vowels_some hu
      rw [List.cons_append, List.cons.injEq] at e
      exact dot_no_letter (e.1 ▸ vowels_letters hu z (List.mem_cons_self ..))
  · exact void_first o2
  · intro e
    obtain ⟨a, m, y, b, e, ha, hb, hy, hm⟩ := lang_name.1 e
    rw [List.append_assoc a, List.append_assoc a] at e
    rcases List.mem_cons.1 ha with rfl | ha
    · cases hm with
      | nil => rw [List.nil_append, List.nil_append, List.cons_append, List.cons.injEq] at e; rw [← e.1] at hy; exact dot_not_consonant hy
      | cons c w hc => rw [List.nil_append, List.cons_append, List.cons_append, List.cons.injEq] at e; rw [← e.1] at hc; exact dot_no_letter hc
      | comma c w hc => rw [List.nil_append, List.cons_append, List.cons_append, List.cons.injEq] at e; rw [← e.1] at hc; exact dot_no_letter hc
    · obtain rfl := List.mem_singleton.1 ha
      rw [List.cons_append, List.cons.injEq, List.nil_append] at e
      replace e := e.2
      cases hm with
      | nil => rw [List.nil_append, List.cons_append, List.cons.injEq] at e; rw [← e.1] at hy; exact hl (consonant_letter hy)
      | cons c w hc => rw [List.cons_append, List.cons_append, List.cons.injEq] at e; rw [← e.1] at hc; exact hl hc
      | comma c w hc => rw [List.cons_append, List.cons_append, List.cons.injEq] at e; rw [← e.1] at hc; exact hl hc
  · exact void_first o3
  · exact void_first o4
  · exact void_first o5
  · exact void_first o6
  · exact void_first o7
  · exact void_first o8
  · rintro ⟨y, e, _⟩
    simp at e

theorem comma_rules : void (BM.deriv ',') = true ∧ void (CM.deriv ',') = true ∧ void ((seq C LV).deriv ',') = true ∧ void (nameRe.deriv ',') = true := by decide +kernel

/-- A sign that is in no word is found alone. -/
theorem other_found {c : Char} (h : Other c) (rest : Word) : munch rules ([c] ++ rest) ([c] ++ rest).length = some ([c].length, .fallthru, 0) := by
  obtain ⟨h1, h2, h4, h5⟩ := h
  simp only [List.mem_cons, List.not_mem_nil, or_false, not_or] at h2
  obtain ⟨b1, b2, b3, b4, b5, b6, b7⟩ := h2
  have hBM : ∀ t, ¬ BM.Lang (c :: t) := fun t e => h1 (brivla_chars (lang_BM e).1 c (List.mem_cons_self ..))
  have hB : ∀ t, ¬ (seq C LV).Lang (c :: t) := fun t e => h1 (brivla_chars (lang_brivla.1 e) c (List.mem_cons_self ..))
  have hCM : ∀ t, ¬ CM.Lang (c :: t) := by
    intro t e
    rcases over_lang _ _ chars_form e c (List.mem_cons_self ..) with h | rfl | h
    · exact h1 h
    · exact void_first comma_rules.2.1 e
    · exact b7 h
  have hN : ∀ t, ¬ nameRe.Lang (c :: t) := by
    intro t e
    rcases over_lang _ _ chars_name e c (List.mem_cons_self ..) with h | rfl | h
    · exact h1 h
    · exact void_first comma_rules.2.2.2 e
    · exact b7 h
  have hL : ∀ t, ¬ (plus L).Lang (c :: t) := fun t e => h1 ((isL_iff c).1 ((lang_plus_set.1 e).2 c (List.mem_cons_self ..)))
  have hS : ∀ t, ¬ blankRe.Lang (c :: t) := by
    intro t e
    have := (lang_plus_set.1 e).2 c (List.mem_cons_self ..)
    rw [Bool.or_eq_true, beq_iff_eq, beq_iff_eq] at this
    exact this.elim b1 b2
  have hNL : ∀ t, ¬ NL.Lang (c :: t) := fun t e => (over_lang _ _ over_NL e c (List.mem_cons_self ..)).elim b3 b4
  have hNLs : ∀ t, ¬ (seq NL (plus NL)).Lang (c :: t) := fun t e =>
    (over_lang (seq NL (plus NL)) _ ⟨over_NL, over_NL, over_NL⟩ e c (List.mem_cons_self ..)).elim b3 b4
  have hO : ∀ t, ¬ (set isOpen).Lang (c :: t) := by
    rintro t ⟨y, e, hy⟩
    obtain ⟨rfl, _⟩ := List.cons.inj e
    rw [isOpen, Bool.or_eq_true, beq_iff_eq, beq_iff_eq] at hy
    exact hy.elim b5 b6
  have hA : ∀ t, ¬ (plus (set isAlpha)).Lang (c :: t) := by
    intro t h
    have := (lang_plus_set.1 h).2 c (List.mem_cons_self ..)
    rw [isAlpha, Bool.or_eq_true, Bool.and_eq_true, Bool.and_eq_true] at this
    rcases this with h | h
    · exact h4 ⟨of_decide_eq_true h.1, of_decide_eq_true h.2⟩
    · exact h5 ⟨of_decide_eq_true h.1, of_decide_eq_true h.2⟩
  have hD : (set (· != '\n')).Lang [c] := ⟨c, rfl, bne_iff_ne.2 b3⟩
  refine one_found c rest ?_ ?_
  · have n4 := not_accepts (hN [])
    rw [nameRe] at n4
    have n6 := not_accepts (hS [])
    rw [blankRe] at n6
    unfold firstRule rules
    simp only [List.find?_cons, not_accepts (hBM []), not_accepts (hCM []), not_accepts (hB []), n4, not_accepts (hL []), n6, not_accepts (hNL []),
      not_accepts (hNLs []), not_accepts (hO []), not_accepts (hA []), (accepts_iff _ _).2 hD]
    rfl
  · intro x _ t
    rw [firstRule, Option.map_eq_none_iff, List.find?_eq_none]
    intro r hr
    rw [accepts_iff]
    rw [rules] at hr
    simp only [List.mem_cons, List.not_mem_nil, or_false] at hr
    rcases hr with rfl | rfl | rfl | rfl | rfl | rfl | rfl | rfl | rfl | rfl | rfl
    · exact hBM _
    · exact hCM _
    · exact hB _
    · exact hN _
    · exact hL _
    · exact hS _
    · exact hNL _
    · exact hNLs _
    · exact hO _
    · exact hA _
    · rintro ⟨y, e, _⟩
      simp at e

end Jbo.CmScan

namespace Jbo.CmMain
open Jbo.CmTrans (Word)
open Jbo.Cm Jbo.CmScan Jbo.CmSpec Jbo.CmMain.Spec
open Jbo.CmScan.Spec (Is Blank)

/-- The matches for a piece. -/
inductive Found : Piece → List (Kind × Word) → Prop
  | word {w k} : Is w k → Found (.word w k) [(k, w)]
  | gap {w} : Found .gap [(.newline, w)]
  | bracket {t : Word} (ps : List (Kind × Word)) : (∀ p ∈ ps, p.1 = .paren) → ps.flatMap (·.2) = t → Found (.bracket t) ps

/-- **Every text is scanned as it reads**, but for matches that are left out. -/
theorem text_scanned {t : Word} {ps : List Piece} (h : Text t ps) : ∃ ts tss, Scans 0 t ts ∧ Each Found ps tss ∧
    ts.filterMap gather = tss.flatten.filterMap gather := by
  induction h with
  | nil => exact ⟨[], [], ⟨0, rfl⟩, .nil, rfl⟩
  | @word w k rest ps hw he _ ih =>
    obtain ⟨ts, tss, h1, h2, h3⟩ := ih
    refine ⟨(k, w) :: ts, [(k, w)] :: tss, scans_step (d' := 0) (fun f => he.elim (scan_word hw)
      (fun he => scan_step (depth := 0) (is_chars hw).1 (stopped_found hw he))) h1, .cons (.word hw) h2, ?_⟩
    rw [List.flatten_cons, List.filterMap_append, ← h3, ← List.filterMap_append]
    rfl
  | @blank s rest ps hn hb hr _ ih =>
    obtain ⟨ts, tss, h1, h2, h3⟩ := ih
    refine ⟨(.skip, s) :: ts, tss, scans_step (d' := 0) (fun f => scan_step (depth := 0) hn (spaces_found hn hb rest hr)) h1, h2, ?_⟩
    rw [List.filterMap_cons, ← h3]
    rfl
  | @line rest ps hr _ ih =>
    obtain ⟨ts, tss, h1, h2, h3⟩ := ih
    refine ⟨(.skip, ['\n']) :: ts, tss, scans_step (d' := 0) (fun f => scan_step (depth := 0) (w := ['\n']) nofun (lines_found 0 rest hr)) h1, h2, ?_⟩
    rw [List.filterMap_cons, ← h3]
    rfl
  | @gap n rest ps hr _ ih =>
    obtain ⟨ts, tss, h1, h2, h3⟩ := ih
    refine ⟨(.newline, List.replicate (n + 2) '\n') :: ts, [(.newline, List.replicate (n + 2) '\n')] :: tss,
      scans_step (d' := 0) (fun f => scan_step (depth := 0) (w := List.replicate (n + 2) '\n') nofun (lines_found (n + 1) rest hr)) h1, .cons .gap h2, ?_⟩
    rw [List.flatten_cons, List.filterMap_append, ← h3, ← List.filterMap_append]
    rfl
  | @stop rest ps hr _ ih =>
    obtain ⟨ts, tss, h1, h2, h3⟩ := ih
    refine ⟨(.fallthru, ['.']) :: ts, tss, scans_step (d' := 0) (fun f => scan_step (depth := 0) (w := ['.']) nofun (stop_found rest hr)) h1, h2, ?_⟩
    rw [List.filterMap_cons, ← h3]
    rfl
  | @other c rest ps hc _ ih =>
    obtain ⟨ts, tss, h1, h2, h3⟩ := ih
    refine ⟨(.fallthru, [c]) :: ts, tss, scans_step (d' := 0) (fun f => scan_step (depth := 0) (w := [c]) nofun (other_found hc rest)) h1, h2, ?_⟩
    rw [List.filterMap_cons, ← h3]
    rfl
  | @bracket a b u rest ps ha hb hu _ ih =>
    obtain ⟨ts, tss, h1, h2, h3⟩ := ih
    obtain ⟨qs, h4, h5, h6⟩ := brackets_found ha hb hu rest ts h1
    refine ⟨qs ++ ts, qs :: tss, h6, .cons (.bracket qs h4 h5) h2, ?_⟩
    rw [List.flatten_cons, List.filterMap_append, List.filterMap_append, h3]

theorem scan_of_scans {t : Word} {ts : List (Kind × Word)} (h : Scans 0 t ts) : scan t.length 0 t = some ts := by
  obtain ⟨us, h1, _⟩ := scan_all t.length 0 t (Nat.le_refl _)
  rw [h1, scans_unique h ⟨_, h1⟩]

theorem doTrans_append (d : Word → Option Word) : ∀ (a b : List Node) (es : List Ev), doTrans d (a ++ b) = .ok es →
    ∃ ea eb, doTrans d a = .ok ea ∧ doTrans d b = .ok eb ∧ es = ea ++ eb
  | [], b, es, h => ⟨[], es, rfl, h, rfl⟩
  | n :: a, b, es, h => by
    rw [List.cons_append, doTrans] at h
    split at h
    · cases h
    · rename_i e he
      split at h
      · cases h
      · rename_i es' hes
        cases h
        obtain ⟨ea, eb, h1, h2, rfl⟩ := doTrans_append d a b es' hes
        exact ⟨e :: ea, eb, by rw [doTrans, he, h1], h2, rfl⟩

theorem paren_entries (d : Word → Option Word) : ∀ ps : List (Kind × Word), (∀ p ∈ ps, p.1 = .paren) → ∀ es, doTrans d (ps.filterMap gather) = .ok es →
    es = (ps.map (·.2)).map .paren
  | [], _, es, h => by cases h; rfl
  | (k, w) :: ps, hp, es, h => by
    obtain rfl := hp (k, w) (List.mem_cons_self ..)
    rw [List.filterMap_cons] at h
    simp only [gather, doTrans, doNode] at h
    split at h
    · cases h
    · rename_i es' hes
      cases h
      rw [paren_entries d ps (fun p hp' => hp p (List.mem_cons_of_mem _ hp')) es' hes]
      rfl

/-- The words of a text are short. -/
def Short (ps : List Piece) : Prop := ∀ w k, .word w k ∈ ps → w.length ≤ 62

/-- **What is printed for a text** of words, brackets and empty lines, in every format, if the program does not crash: for each piece, in their order, its
entries. -/
theorem gloss_text (d : Word → Option Word) (hd : ∀ x, d x ≠ some []) (o : Opts) (t : Word) (ps : List Piece) (h : Text t ps) (hs : Short ps) (out : Word)
    (hg : gloss d o t = .ok out) : ∃ ess, Each (Entries d (CmTrans.translateUnknown d)) ps ess ∧ Shown o ess.flatten out := by
  obtain ⟨ts, tss, h1, h2, h3⟩ := text_scanned h
  rw [gloss, scan_of_scans h1, Option.getD_some, h3] at hg
  split at hg
  · cases hg
  · rename_i es hes
    have hshow := display_shown o es out hg
    clear hg h3 h1 h
    suffices hh : ∃ ess, Each (Entries d (CmTrans.translateUnknown d)) ps ess ∧ es = ess.flatten by
      obtain ⟨ess, h1, rfl⟩ := hh
      exact ⟨ess, h1, hshow⟩
    clear hshow
    induction h2 generalizing es with
    | nil => cases hes; exact ⟨[], .nil, rfl⟩
    | @cons p us ps tss hp _ ih =>
      rw [List.flatten_cons, List.filterMap_append] at hes
      obtain ⟨ea, eb, h1, h2, rfl⟩ := doTrans_append d _ _ _ hes
      obtain ⟨ess, h3, rfl⟩ := ih (fun w k hk => hs w k (List.mem_cons_of_mem _ hk)) eb h2
      refine ⟨ea :: ess, .cons ?_ h3, rfl⟩
      cases hp with
      | @word w k hw =>
        by_cases hk : k = .fallthru
        · subst hk
          cases h1
          exact .unknown
        · obtain ⟨n, hn⟩ := gather_some hw hk
          rw [show [(k, w)].filterMap gather = [n] by rw [List.filterMap_cons, hn]; rfl, doTrans] at h1
          split at h1
          · cases h1
          · rename_i e he
            cases h1
            exact .word (node_glossed hd hw (hs w k (List.mem_cons_self ..)) hn he)
      | gap => cases h1; exact .gap
      | bracket _ hp ht =>
        rw [paren_entries d us hp ea h1]
        exact .bracket _ (by rw [← ht, List.flatMap_def])

theorem doTrans_ok (d : Word → Option Word) : ∀ ns : List Node, (∀ n ∈ ns, ∃ e, doNode d (fun w => some (CmTrans.translateUnknown d w)) n = .ok e) →
    ∃ es, doTrans d ns = .ok es
  | [], _ => ⟨[], rfl⟩
  | n :: ns, h => by
    obtain ⟨e, he⟩ := h n (List.mem_cons_self ..)
    obtain ⟨es, hes⟩ := doTrans_ok d ns (fun m hm => h m (List.mem_cons_of_mem _ hm))
    exact ⟨e :: es, by rw [doTrans, he, hes]⟩

/-- **The program does not crash on a text** before the display if all cmavo are in the dictionary and none has more than 30 letters. -/
theorem text_known (d : Word → Option Word) (o : Opts) (t : Word) (ps : List Piece) (h : Text t ps)
    (hk : ∀ w, .word w .cmavo ∈ ps → (d (bare w)).isSome = true ∧ w.length ≤ 30) : ∃ es, gloss d o t = display o es := by
  obtain ⟨ts, tss, h1, h2, h3⟩ := text_scanned h
  rw [gloss, scan_of_scans h1, Option.getD_some, h3]
  suffices hh : ∃ es, doTrans d (tss.flatten.filterMap gather) = .ok es by
    obtain ⟨es, hes⟩ := hh
    exact ⟨es, by rw [hes]⟩
  refine doTrans_ok d _ ?_
  intro n hn
  obtain ⟨q, hq, hn⟩ : ∃ q, q ∈ tss.flatten ∧ gather q = some n := List.mem_filterMap.1 hn
  rename_i hmem
  clear hmem h h1 h3
  induction h2 with
  | nil => cases hq
  | @cons p us ps tss hp _ ih =>
    rw [List.flatten_cons] at hq
    rcases List.mem_append.1 hq with hq | hq
    · cases hp with
      | @word w k hw =>
        obtain rfl := List.mem_singleton.1 hq
        cases k with
        | brivla => cases hn; exact ⟨_, rfl⟩
        | cmavo =>
          cases hn
          obtain ⟨h4, h5⟩ := hk w (List.mem_cons_self ..)
          obtain ⟨t, ht⟩ := Option.isSome_iff_exists.1 h4
          rw [← bare_body] at ht
          have hb : (body w).length ≤ 30 := by
            have : (body w).length ≤ w.length := by
              unfold body skipDot
              split <;> simp
            omega
          obtain ⟨m, hm⟩ := (known_cmavo d (fun w => some (CmTrans.translateUnknown d w)) w t ht).1 hb
          exact ⟨_, hm⟩
        | cmene => cases hn; exact ⟨_, rfl⟩
        | fallthru => cases hn
        | skip => exact hw.elim
        | newline => exact hw.elim
        | paren => exact hw.elim
      | gap =>
        obtain rfl := List.mem_singleton.1 hq
        cases hn
        exact ⟨_, rfl⟩
      | bracket _ hp _ =>
        obtain ⟨k, w⟩ := q
        obtain rfl := hp _ hq
        cases hn
        exact ⟨_, rfl⟩
    · exact ih (fun w hw => hk w (List.mem_cons_of_mem _ hw)) hq

/-- A text with words, an empty line and brackets. -/
example : Text "mi (x)\n\nklama".toList [.word "mi".toList .cmavo, .bracket "(x)".toList, .gap, .word "klama".toList .brivla] := by
  have h0 : Text ("klama".toList ++ []) [.word "klama".toList .brivla] := .word (gismu_found (by decide)) (.inl nofun) .nil
  have h1 : Text (List.replicate 2 '\n' ++ ("klama".toList ++ [])) [.gap, .word "klama".toList .brivla] :=
    .gap (n := 0) (fun c hc => by cases hc; decide) h0
  have h2 := Text.bracket (a := '(') (b := ')') (u := ['x']) (by decide) (by decide) (.char _ _ (by decide) .nil) h1
  have h3 := Text.blank (s := [' ']) nofun (by decide) (fun c hc => by cases hc; decide) h2
  exact .word is_mi (.inl fun c hc => by cases hc; decide) h3
/-- Full stops and signs. -/
example : Text "klama.i! mi.".toList [.word "klama".toList .brivla, .word ".i".toList .cmavo, .word "mi".toList .cmavo] := by
  have h0 : Text ("mi".toList ++ ['.']) [.word "mi".toList .cmavo] :=
    .word is_mi (.inr ⟨[], rfl, .inr ⟨is_mi.1, nofun⟩⟩) (.stop nofun .nil)
  have h1 := Text.other (c := '!') (by decide) (Text.blank (s := [' ']) nofun (by decide) (fun c hc => by cases hc; decide) h0)
  have h2 := Text.word is_i (.inl fun c hc => by cases hc; decide) h1
  exact .word (w := "klama".toList) (gismu_found (by decide)) (.inr ⟨_, rfl, .inl ⟨(gismu_found (by decide)).1,
    cluster_no_cmavo ⟨[], "ama".toList, 'k', 'l', rfl, by decide, by decide⟩⟩⟩) h2
example : main tiny (fun _ => none) "mi (x)\n\nklama".toList [] = .prints "mi <KOhA3> [I, we] (() (x) ()) \nklama <BRIVLA> [go] \n".toList := by decide +kernel

end Jbo.CmMain
