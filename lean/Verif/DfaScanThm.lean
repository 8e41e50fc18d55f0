import Verif.DfaScanSpec
/-!
# What the scanner of dfasyn reads
-/

namespace Jbo.DfaScan

theorem dropWhile_le {α : Type} (p : α → Bool) (l : List α) : (l.dropWhile p).length ≤ l.length :=
  (List.dropWhile_suffix p).length_le

theorem fence_le {b : Char} {r r' : List Char} (h : fence b r = some r') : r'.length ≤ r.length := by
  cases r with
  | nil => cases h
  | cons c q =>
    rw [fence] at h
    split at h
    · have := dropWhile_le isBlank q
      split at h
      · rename_i d r'' e
        split at h
        · rw [e] at this
          simp only [Option.some.injEq] at h
          rw [← h]; simp only [List.length_cons] at this ⊢; omega
        · cases h
      · cases h
    · cases h

theorem rule_le (st : St) (c : Char) (r : List Char) : (rule st c r).2.2.length ≤ r.length := by
  rw [rule]
  cases st.mode with
  | initial =>
    simp only [initialRule]
    split
    · exact dropWhile_le _ _
    split
    · have := dropWhile_le notNl r
      split
      · exact Nat.le_refl _
      · rename_i e; rw [e] at this; exact this
    split
    · split
      · split
        · simp
        · exact Nat.le_refl _
      · exact Nat.le_refl _
    split
    · exact Nat.le_refl _
    split
    · exact dropWhile_le _ _
    split
    · exact Nat.le_refl _
    split
    · split
      · rename_i h
        split at h
        · exact fence_le h
        · cases h
      · exact Nat.le_refl _
    split <;> exact Nat.le_refl _
  | passthru =>
    simp only [passRule]
    split
    · rename_i h
      split at h
      · exact fence_le h
      · cases h
    · split
      · exact Nat.le_refl _
      · exact dropWhile_le _ _
  | str =>
    simp only [strRule]
    split
    · exact Nat.le_refl _
    · exact dropWhile_le _ _

theorem lex_enough (n m : Nat) (st : St) (s : List Char) (hn : s.length ≤ n) (hm : s.length ≤ m) :
    lex n st s = lex m st s := by
  induction n generalizing m st s with
  | zero =>
    have : s = [] := List.length_eq_zero_iff.1 (by omega)
    subst this
    cases m <;> rfl
  | succ n ih =>
    cases s with
    | nil => cases m <;> rfl
    | cons c r =>
      cases m with
      | zero => simp at hm
      | succ m =>
        have := rule_le st c r
        simp only [List.length_cons] at hn hm
        rw [lex, lex, ih m _ _ (by omega) (by omega)]

/-- The events from a state. -/
def L (st : St) (s : List Char) : List Ev := lex s.length st s

theorem L_nil (st : St) : L st [] = [] := rfl

theorem L_cons {st st' : St} {c : Char} {r r' : List Char} {es : List Ev} (h : rule st c r = (es, st', r')) :
    L st (c :: r) = es ++ L st' r' := by
  have hle := rule_le st c r
  rw [h] at hle
  rw [L, List.length_cons, lex, h]
  simp only
  rw [lex_enough r.length r'.length st' r' hle (Nat.le_refl _)]
  rfl

/-! ## Characters of the kinds -/

theorem dropWhile_app {α : Type} (p : α → Bool) (w r : List α) (hw : ∀ c ∈ w, p c = true)
    (hr : ∀ c ∈ r.head?, p c = false) : (w ++ r).dropWhile p = r ∧ (w ++ r).takeWhile p = w := by
  induction w with
  | nil =>
    cases r with
    | nil => exact ⟨rfl, rfl⟩
    | cons c r =>
      have := hr c rfl
      simp [List.dropWhile_cons, List.takeWhile_cons, this]
  | cons c w ih =>
    obtain ⟨a, b⟩ := ih (fun d hd => hw d (List.mem_cons_of_mem _ hd))
    have := hw c List.mem_cons_self
    simp [this, a, b]

theorem inWord_iff (c : Char) : inWord c = true ↔ c ∈ nameChars := by
  constructor
  · intro h
    have small : ∀ n, n < 128 → inWord (Char.ofNat n) = true → Char.ofNat n ∈ nameChars := by decide +kernel
    have hc : c.toNat < 128 := by
      simp only [inWord, Bool.or_eq_true, Bool.and_eq_true, decide_eq_true_eq, beq_iff_eq, Char.le_def,
        UInt32.le_iff_toNat_le] at h
      have e1 : 'Z'.val.toNat = 90 := rfl
      have e2 : 'z'.val.toNat = 122 := rfl
      have e3 : '9'.val.toNat = 57 := rfl
      show c.val.toNat < 128
      rcases h with (((h | h) | h) | h) | h
      · omega
      · omega
      · omega
      · rw [h]; decide
      · rw [h]; decide
    have := small c.toNat hc
    rw [Char.ofNat_toNat] at this
    exact this h
  · have : ∀ c ∈ nameChars, inWord c = true := by decide +kernel
    exact this c

theorem not_inWord {c : Char} (h : c ∉ nameChars) : inWord c = false := by
  cases hc : inWord c with
  | false => rfl
  | true => exact absurd ((inWord_iff c).1 hc) h

theorem keyword_table : (∀ p ∈ kwParts, ∀ w ∈ forms p.1,
      w ≠ [] ∧ (∀ c ∈ w, inWord c = true) ∧ word w = .kw p.2) ∧
    (∀ c ∈ "EarlySymresult".toList, inWord c = true) ∧ word "EarlySymresult".toList = .kw .earlysymresult ∧
    (∀ q ∈ spellings, (∃ p ∈ kwParts, p.2 = q.2 ∧ q.1.toList ∈ forms p.1) ∨
      (q.2 = .earlysymresult ∧ q.1.toList = "EarlySymresult".toList)) := by
  refine ⟨?_, ?_, ?_, ?_⟩ <;> decide +kernel

theorem spell_word {k : Kw} {w : List Char} (h : Keyword k w) :
    w ≠ [] ∧ (∀ c ∈ w, inWord c = true) ∧ word w = .kw k := by
  rcases h with ⟨p, hp, rfl, hw⟩ | ⟨rfl, rfl⟩
  · exact keyword_table.1 p hp w hw
  · exact ⟨by decide, keyword_table.2.1, keyword_table.2.2.1⟩

theorem word_bare (w : List Char) (h : ∀ k, ¬ Keyword k w) : word w = .str w := by
  rw [word]
  have : spellings.find? (fun p => p.1.toList == w) = none := by
    rw [List.find?_eq_none]
    intro p hp e
    have e : p.1.toList = w := by simpa using e
    refine h p.2 ?_
    rw [← e]
    exact keyword_table.2.2.2 p hp
  rw [this]

/-- States of `INITIAL`. -/
def I (b : Bool) (n : Nat) : St := ⟨.initial, b, n⟩

theorem L_word (b : Bool) (n : Nat) (w r : List Char) (hne : w ≠ []) (hw : ∀ c ∈ w, inWord c = true)
    (hr : ∀ c ∈ r.head?, inWord c = false) : L (I b n) (w ++ r) = .tok n (word w) :: L (I false n) r := by
  cases w with
  | nil => exact absurd rfl hne
  | cons c w =>
    obtain ⟨a, d⟩ := dropWhile_app inWord w r (fun x hx => hw x (List.mem_cons_of_mem _ hx)) hr
    have : rule (I b n) c (w ++ r) = ([.tok n (word (c :: w))], I false n, r) := by
      show initialRule _ _ _ = _
      rw [initialRule.eq_def, if_pos (hw c List.mem_cons_self), a, d]; rfl
    rw [List.cons_append, L_cons this]; rfl

theorem L_nl (b : Bool) (n : Nat) (r : List Char) : L (I b n) ('\n' :: r) = L (I true (n + 1)) r := by
  have : rule (I b n) '\n' r = ([], I true (n + 1), r) := rfl
  rw [L_cons this]; rfl

theorem L_blank (b : Bool) (n : Nat) (c : Char) (r : List Char) (h : c = ' ' ∨ c = '\t') :
    ∃ b', L (I b n) (c :: r) = L (I b' n) (r.dropWhile isBlank) := by
  have : rule (I b n) c r = ([], I false n, r.dropWhile isBlank) := by
    rcases h with rfl | rfl <;> rfl
  exact ⟨false, by rw [L_cons this]; rfl⟩

theorem L_comment (b : Bool) (n : Nat) (s r : List Char) (h : '\n' ∉ s) :
    L (I b n) ('#' :: s ++ '\n' :: r) = L (I true (n + 1)) r := by
  obtain ⟨a, _⟩ := dropWhile_app notNl s ('\n' :: r) (fun c hc => by
    simp only [notNl, bne_iff_ne, ne_eq]; exact fun e => h (e ▸ hc)) (by
    intro c hc
    have : c = '\n' := by simpa using hc.symm
    rw [this]; rfl)
  have : rule (I b n) '#' (s ++ '\n' :: r) = ([], I false n, '\n' :: r) := by
    show initialRule _ _ _ = _
    rw [initialRule.eq_def, if_neg (by decide), if_pos rfl, a]
    rfl
  rw [List.cons_append, L_cons this, List.nil_append, L_nl]

/-- In a text that does not begin with `%` it does not matter whether a line begins. -/
theorem L_bol (b b' : Bool) (n : Nat) (s : List Char) (h : s.head? ≠ some '%') : L (I b n) s = L (I b' n) s := by
  cases s with
  | nil => rfl
  | cons c r =>
    have hc : c ≠ '%' := by simpa using h
    have : rule (I b n) c r = rule (I b' n) c r := by
      show initialRule _ _ _ = initialRule _ _ _
      simp only [initialRule, if_neg hc]
      rfl
    have e : ∀ st, L st (c :: r) = (rule st c r).1 ++ L (rule st c r).2.1 (rule st c r).2.2 := fun _ => L_cons rfl
    rw [e, e, this]

/-- Blanks one at a time. -/
theorem L_blank1 (b : Bool) (n : Nat) (c : Char) (r : List Char) (h : c = ' ' ∨ c = '\t') :
    ∃ b', L (I b n) (c :: r) = L (I b' n) r ∨ r.head? = some '%' := by
  by_cases hp : r.head? = some '%'
  · exact ⟨b, Or.inr hp⟩
  refine ⟨false, Or.inl ?_⟩
  have h1 : rule (I b n) c r = ([], I false n, r.dropWhile isBlank) := by
    rcases h with rfl | rfl <;> rfl
  rw [L_cons h1, List.nil_append]
  cases r with
  | nil => rfl
  | cons d r =>
    by_cases hd : d = ' ' ∨ d = '\t'
    · have h2 : rule (I false n) d r = ([], I false n, r.dropWhile isBlank) := by
        rcases hd with rfl | rfl <;> rfl
      have hb : isBlank d = true := by rcases hd with rfl | rfl <;> rfl
      rw [L_cons h2, List.nil_append, List.dropWhile_cons, if_pos hb]
    · have hb : isBlank d = false := by
        simp only [isBlank, Bool.or_eq_false_iff, beq_eq_false_iff_ne, ne_eq]
        exact ⟨fun e => hd (Or.inl e), fun e => hd (Or.inr e)⟩
      rw [List.dropWhile_cons, hb]
      rfl

/-- Texts that do not begin with `%`. -/
theorem gap_head {g : List Char} (h : Gap g) (x : List Char) (hx : x.head? ≠ some '%') :
    (g ++ x).head? ≠ some '%' := by
  cases h with
  | nil => exact hx
  | blank c r hc _ => rcases hc with rfl | rfl | rfl <;> simp
  | comment s r _ _ => simp

theorem L_gap {g : List Char} (h : Gap g) (x : List Char) (hx : x.head? ≠ some '%') (b b' : Bool) (n : Nat) :
    L (I b n) (g ++ x) = L (I b' (n + nls g)) x := by
  induction h generalizing b n with
  | nil => exact L_bol b b' n x hx
  | blank c r hc hg ih =>
    rw [List.cons_append]
    by_cases hn : c = '\n'
    · subst hn
      rw [L_nl, ih, nls, nls, List.count_cons_self, show n + 1 + List.count '\n' r = n + (List.count '\n' r + 1) by omega]
    · obtain ⟨b2, h2⟩ := L_blank1 b n c (r ++ x) (hc.elim Or.inl (fun h => h.elim Or.inr (fun h => absurd h hn)))
      rcases h2 with h2 | h2
      · rw [h2, ih, nls, nls, List.count_cons_of_ne hn]
      · exact absurd h2 (gap_head hg x hx)
  | comment s r hs hg ih =>
    have : ('#' :: s ++ '\n' :: r) ++ x = '#' :: s ++ '\n' :: (r ++ x) := by simp
    have hc : nls ('#' :: s ++ '\n' :: r) = nls r + 1 := by
      simp only [nls, List.cons_append, List.count_cons, List.count_append, List.count_eq_zero.2 hs]
      simp
    rw [this, L_comment b n s _ hs, ih, hc, show n + 1 + nls r = n + (nls r + 1) by omega]

theorem L_quoted (b : Bool) (n : Nat) (s r : List Char) (hne : s ≠ []) (hq : '"' ∉ s) :
    L (I b n) (('"' :: s ++ ['"']) ++ r) = .tok n (.str s) :: L (I false n) r := by
  have e : ('"' :: s ++ ['"']) ++ r = '"' :: (s ++ '"' :: r) := by simp
  have h1 : rule (I b n) '"' (s ++ '"' :: r) = ([], ⟨.str, false, n⟩, s ++ '"' :: r) := rfl
  rw [e, L_cons h1, List.nil_append]
  cases s with
  | nil => exact absurd rfl hne
  | cons c s =>
    have hc : c ≠ '"' := fun x => hq (by simp [x])
    obtain ⟨a, d⟩ := dropWhile_app notQuote s ('"' :: r) (fun x hx => by
      simp only [notQuote, bne_iff_ne, ne_eq]; exact fun e => hq (e ▸ List.mem_cons_of_mem _ hx)) (by
      intro x hx
      have : x = '"' := by simpa using hx.symm
      rw [this]; rfl)
    have h2 : rule ⟨.str, false, n⟩ c (s ++ '"' :: r) =
        ([.tok n (.str (c :: s))], ⟨.str, (c :: s).getLast? == some '\n', n⟩, '"' :: r) := by
      show strRule _ _ _ = _
      rw [strRule, if_neg hc, a, d]
    have h3 : ∀ b', rule ⟨.str, b', n⟩ '"' r = ([], I false n, r) := fun _ => rfl
    rw [List.cons_append, L_cons h2, L_cons (h3 _)]
    rfl

/-- One token. -/
theorem L_written {t : Tok} {w : List Char} (h : Written t w) (r : List Char) (b : Bool) (n : Nat)
    (hr : (∃ c ∈ w.getLast?, c ∈ nameChars) → ∀ c ∈ r.head?, c ∉ nameChars) :
    L (I b n) (w ++ r) = .tok n t :: L (I false n) r := by
  have lastIn : ∀ w : List Char, w ≠ [] → (∀ c ∈ w, inWord c = true) → ∃ c ∈ w.getLast?, c ∈ nameChars := by
    intro w hne hw
    exact ⟨w.getLast hne, by rw [List.getLast?_eq_some_getLast hne]; rfl, (inWord_iff _).1 (hw _ (List.getLast_mem hne))⟩
  cases h with
  | kw w k hm =>
    obtain ⟨h1, h2, h3⟩ := spell_word hm
    rw [L_word b n _ r h1 h2 (fun c hc => not_inWord (hr (lastIn _ h1 h2) c hc)), h3]
  | bare w h1 h2 h3 =>
    have h2 := fun c hc => (inWord_iff c).2 (h2 c hc)
    rw [L_word b n _ r h1 h2 (fun c hc => not_inWord (hr (lastIn _ h1 h2) c hc)), word_bare _ h3]
  | quoted s h1 h2 => exact L_quoted b n s r h1 h2
  | arrow =>
    have : rule (I b n) '-' ('>' :: r) = ([.tok n .arrow], I false n, r) := rfl
    show L (I b n) ('-' :: '>' :: r) = _
    rw [L_cons this]; rfl
  | not =>
    have : rule (I b n) '!' r = ([.tok n (.sign '~')], I false n, r) := rfl
    show L (I b n) ('!' :: r) = _
    rw [L_cons this]; rfl
  | sign c hc =>
    have : rule (I b n) c r = ([.tok n (.sign c)], I false n, r) := by
      simp only [List.mem_cons, List.not_mem_nil, or_false] at hc
      rcases hc with rfl | rfl | rfl | rfl | rfl | rfl | rfl | rfl | rfl | rfl | rfl | rfl | rfl | rfl <;> rfl
    show L (I b n) (c :: r) = _
    rw [L_cons this]; rfl

theorem written_head {t : Tok} {w : List Char} (h : Written t w) (r : List Char) : (w ++ r).head? ≠ some '%' := by
  have wd : ∀ w : List Char, w ≠ [] → (∀ c ∈ w, inWord c = true) → (w ++ r).head? ≠ some '%' := by
    intro w hne hw
    cases w with
    | nil => exact absurd rfl hne
    | cons c w =>
      intro e
      have : c = '%' := by simpa using e
      have h2 := hw c List.mem_cons_self
      rw [this] at h2
      exact absurd h2 (by decide)
  cases h with
  | kw w k hm => obtain ⟨h1, h2, _⟩ := spell_word hm; exact wd _ h1 h2
  | bare w h1 h2 _ => exact wd _ h1 (fun c hc => (inWord_iff c).2 (h2 c hc))
  | quoted s h1 h2 => simp
  | arrow => simp
  | not => simp
  | sign c hc =>
    simp only [List.mem_cons, List.not_mem_nil, or_false] at hc
    rcases hc with rfl | rfl | rfl | rfl | rfl | rfl | rfl | rfl | rfl | rfl | rfl | rfl | rfl | rfl <;> simp

theorem laid_head {n : Nat} {ts : List (Nat × Tok)} {s : List Char} (h : Laid n ts s) : s.head? ≠ some '%' := by
  cases h with
  | nil n g hg => have := gap_head hg [] (by simp); rwa [List.append_nil] at this
  | cons n g w r t ts hg hw hr hl =>
    rw [List.append_assoc]
    exact gap_head hg _ (written_head hw r)

theorem nls_written {t : Tok} {w : List Char} (h : Written t w) (h1 : ∀ s, t = .str s → '\n' ∉ s) : nls w = 0 := by
  have wd : ∀ w : List Char, (∀ c ∈ w, inWord c = true) → nls w = 0 := by
    intro w hw
    rw [nls, List.count_eq_zero]
    intro hm
    exact absurd (hw _ hm) (by decide)
  cases h with
  | kw w k hm => exact wd _ (spell_word hm).2.1
  | bare w _ h2 _ => exact wd _ (fun c hc => (inWord_iff c).2 (h2 c hc))
  | quoted s _ _ =>
    have := h1 s rfl
    rw [nls, List.count_eq_zero]
    simpa using this
  | arrow => rfl
  | not => rfl
  | sign c hc =>
    simp only [List.mem_cons, List.not_mem_nil, or_false] at hc
    rcases hc with rfl | rfl | rfl | rfl | rfl | rfl | rfl | rfl | rfl | rfl | rfl | rfl | rfl | rfl <;> rfl

theorem L_laid {n : Nat} {ts : List (Nat × Tok)} {s : List Char} (h : Laid n ts s) (ho : OneLine ts) (b : Bool) :
    L (I b n) s = ts.map (fun p => .tok p.1 p.2) := by
  induction h generalizing b with
  | nil n g hg =>
    have := L_gap hg [] (by simp) b false n
    rw [List.append_nil] at this
    rw [this]; rfl
  | cons n g w r t ts hg hw hr hl ih =>
    have hz := nls_written hw (fun s e => ho _ List.mem_cons_self s e)
    have ih := ih (fun p hp => ho p (List.mem_cons_of_mem _ hp)) false
    rw [List.append_assoc, L_gap hg _ (written_head hw r) b false n, L_written hw r false _ hr, List.map_cons]
    rw [hz, Nat.add_zero] at ih ⊢
    rw [ih]

/-- **What is written is read** (part of the claim: files without `%{` and with strings on one line): for every
sequence of tokens in any of their spellings, with any blanks, line ends and comments between them, the scanner
returns these tokens, each with the number of its line, and nothing leaks into the output. -/
theorem scan_laid_partial (ts : List (Nat × Tok)) (s : List Char) (h : Laid 1 ts s) (ho : OneLine ts) :
    scan s = ts.map (fun p => .tok p.1 p.2) := L_laid h ho true

/-- The tokens are read, whatever lines the strings go over; the line numbers may be wrong then. -/
theorem scan_tokens (ts : List (Nat × Tok)) (s : List Char) (n m : Nat) (b : Bool) (h : Laid n ts s) :
    ∃ ns : List Nat, ns.length = ts.length ∧
      L (I b m) s = (ns.zip (ts.map (·.2))).map (fun p => .tok p.1 p.2) := by
  induction h generalizing m b with
  | nil n g hg =>
    refine ⟨[], rfl, ?_⟩
    have := L_gap hg [] (by simp) b false m
    rw [List.append_nil] at this
    rw [this]; rfl
  | cons n g w r t ts hg hw hr hl ih =>
    obtain ⟨ns, h1, h2⟩ := ih (m + nls g) false
    refine ⟨(m + nls g) :: ns, by simp [h1], ?_⟩
    rw [List.append_assoc, L_gap hg _ (written_head hw r) b false m, L_written hw r false _ hr, h2]
    rfl

/-! ## Text that is passed through -/

/-- Lines that do not end the block. -/
def Body (ls : List (List Char)) : Prop :=
  ∀ l ∈ ls, '\n' ∉ l ∧ ∀ b, l = '%' :: '}' :: b → ∃ c ∈ b, isBlank c = false

theorem fence_some (b : Char) (sp r : List Char) (h : ∀ c ∈ sp, isBlank c = true) :
    fence b (b :: sp ++ '\n' :: r) = some r := by
  obtain ⟨a, _⟩ := dropWhile_app isBlank sp ('\n' :: r) h (by
    intro c hc
    have : c = '\n' := by simpa using hc.symm
    rw [this]; rfl)
  rw [List.cons_append, fence, if_pos rfl, a]
  rfl

theorem drop_nonblank (q r : List Char) (hnl : '\n' ∉ q) (h : ∃ c ∈ q, isBlank c = false) :
    ∃ d y, (q ++ '\n' :: r).dropWhile isBlank = d :: y ∧ d ≠ '\n' := by
  induction q with
  | nil => obtain ⟨c, hc, _⟩ := h; cases hc
  | cons d q ih =>
    rw [List.cons_append, List.dropWhile_cons]
    by_cases hd : isBlank d = true
    · rw [if_pos hd]
      refine ih (fun e => hnl (List.mem_cons_of_mem _ e)) ?_
      obtain ⟨c, hc, hb⟩ := h
      rcases List.mem_cons.1 hc with e | hc
      · rw [e, hd] at hb; cases hb
      · exact ⟨c, hc, hb⟩
    · rw [if_neg hd]
      exact ⟨d, _, rfl, fun e => hnl (by simp [e])⟩

theorem fence_none (l r : List Char) (hl : '\n' ∉ l) (h : ∀ b, l = '}' :: b → ∃ c ∈ b, isBlank c = false) :
    fence '}' (l ++ '\n' :: r) = none := by
  cases l with
  | nil => rfl
  | cons c q =>
    rw [List.cons_append, fence]
    split
    · rename_i hc
      obtain ⟨d, y, e, hd⟩ := drop_nonblank q r (fun e => hl (List.mem_cons_of_mem _ e)) (h q (by rw [hc]))
      rw [e]
      simp only
      rw [if_neg hd]
    · rfl

/-- The text of the lines of a block, as leaked. -/
def leaks : List (List Char) → List Ev
  | [] => []
  | [] :: ls => .leak ['\n'] :: leaks ls
  | l :: ls => .leak l :: .leak ['\n'] :: leaks ls

/-- What goes to the output. -/
def output (es : List Ev) : List Char := es.flatMap (fun e => match e with | .tok _ _ => [] | .leak s => s)

theorem output_leaks (ls : List (List Char)) : output (leaks ls) = ls.flatMap (· ++ ['\n']) := by
  induction ls with
  | nil => rfl
  | cons l ls ih =>
    cases l with
    | nil => rw [leaks, List.flatMap_cons, ← ih]; rfl
    | cons c l =>
      show output (.leak (c :: l) :: .leak ['\n'] :: leaks ls) = _
      rw [List.flatMap_cons, ← ih]; simp [output]

/-- A state of `PASSTHRU` at the beginning of a line. -/
def Q (n : Nat) : St := ⟨.passthru, true, n⟩

theorem L_body (ls : List (List Char)) (h : Body ls) (n : Nat) (r : List Char) :
    L (Q n) (ls.flatMap (· ++ ['\n']) ++ r) = leaks ls ++ L (Q (n + ls.length)) r := by
  induction ls generalizing n with
  | nil => rfl
  | cons l ls ih =>
    obtain ⟨h1, h2⟩ := h l List.mem_cons_self
    have ih := ih (fun x hx => h x (List.mem_cons_of_mem _ hx)) (n + 1)
    have e : (l :: ls).flatMap (· ++ ['\n']) ++ r = l ++ '\n' :: (ls.flatMap (· ++ ['\n']) ++ r) := by simp
    generalize hx : ls.flatMap (· ++ ['\n']) ++ r = x at e ih
    have hnl : ∀ b, L ⟨.passthru, b, n⟩ ('\n' :: x) = .leak ['\n'] :: L (Q (n + 1)) x := by
      intro b
      have : rule ⟨.passthru, b, n⟩ '\n' x = ([.leak ['\n']], Q (n + 1), x) := by
        cases b <;> rfl
      rw [L_cons this]; rfl
    have hlen : n + 1 + ls.length = n + (ls.length + 1) := by omega
    rw [e, List.length_cons, ← hlen]
    cases l with
    | nil => rw [List.nil_append, Q, hnl, ih]; rfl
    | cons c l =>
      have hc : c ≠ '\n' := fun e => h1 (by simp [e])
      have hnl' : '\n' ∉ l := fun e => h1 (List.mem_cons_of_mem _ e)
      obtain ⟨a, d⟩ := dropWhile_app notNl l ('\n' :: x) (fun y hy => by
        simp only [notNl, bne_iff_ne, ne_eq]; exact fun e => hnl' (e ▸ hy)) (by
        intro y hy
        have : y = '\n' := by simpa using hy.symm
        rw [this]; rfl)
      have hf : (if (Q n).bol && c == '%' then fence '}' (l ++ '\n' :: x) else none) = none := by
        by_cases hp : c = '%'
        · rw [hp, if_pos (by rfl)]
          exact fence_none l x hnl' (fun b eb => h2 b (by rw [hp, eb]))
        · have : (c == '%') = false := by simpa using hp
          rw [this]; rfl
      have h3 : rule (Q n) c (l ++ '\n' :: x) = ([.leak (c :: l)], ⟨.passthru, false, n⟩, '\n' :: x) := by
        show passRule _ _ _ = _
        rw [passRule, hf]
        simp only
        rw [if_neg hc, a, d]
        rfl
      rw [List.cons_append, L_cons h3, hnl, ih]
      rfl

theorem nls_flat (ls : List (List Char)) (h : ∀ l ∈ ls, '\n' ∉ l) : nls (ls.flatMap (· ++ ['\n'])) = ls.length := by
  induction ls with
  | nil => rfl
  | cons l ls ih =>
    have ih := ih (fun x hx => h x (List.mem_cons_of_mem _ hx))
    have hl := List.count_eq_zero.2 (h l List.mem_cons_self)
    rw [nls] at ih
    rw [List.flatMap_cons, nls, List.count_append, List.count_append, hl, ih, List.length_cons]
    simp; omega

/-- **A block is passed through as it is, and then the line numbers lag by two**: `lineno` does not count the
lines of `%{` and `%}`, so the tokens behind a block of `k` lines at the beginning of a file, which are on line
`k + 3` and below, are numbered from `k + 1`. -/
theorem block_lags (ls : List (List Char)) (h : Body ls) (ts : List (Nat × Tok)) (r : List Char)
    (hr : Laid (1 + ls.length) ts r) (ho : OneLine ts) :
    ∃ es, scan ("%{\n".toList ++ (ls.flatMap (· ++ ['\n']) ++ ("%}\n".toList ++ r))) =
        es ++ ts.map (fun p => .tok p.1 p.2) ∧ output es = ls.flatMap (· ++ ['\n']) ∧
      nls ("%{\n".toList ++ (ls.flatMap (· ++ ['\n']) ++ "%}\n".toList)) = ls.length + 2 := by
  refine ⟨leaks ls, ?_, output_leaks ls, ?_⟩
  · have h1 : ∀ x, rule ⟨.initial, true, 1⟩ '%' ('{' :: '\n' :: x) = ([], Q 1, x) := fun _ => rfl
    have h2 : ∀ n x, rule (Q n) '%' ('}' :: '\n' :: x) = ([], I true n, x) := fun _ _ => rfl
    show L ⟨.initial, true, 1⟩ ('%' :: '{' :: '\n' :: (ls.flatMap (· ++ ['\n']) ++ ("%}\n".toList ++ r))) = _
    rw [L_cons (h1 _), List.nil_append, L_body ls h 1]
    show leaks ls ++ L (Q (1 + ls.length)) ('%' :: '}' :: '\n' :: r) = _
    rw [L_cons (h2 _ _), List.nil_append, L_laid hr ho true]
  · have := nls_flat ls (fun l hl => (h l hl).1)
    simp only [nls] at this
    simp [nls, List.count_append, this]

/-- **A comment on the last line**, if the line has no end, is not a comment: its words are read as tokens, and
the `#` is copied to the output. -/
theorem last_comment_read (ts : List (Nat × Tok)) (s : List Char) (hl : Laid 1 ts s) (h : '\n' ∉ s) (ho : OneLine ts) :
    scan ('#' :: s) = .leak ['#'] :: ts.map (fun p => .tok p.1 p.2) := by
  have : s.dropWhile notNl = [] := by
    have := (dropWhile_app notNl s [] (fun c hc => by
      simp only [notNl, bne_iff_ne, ne_eq]; exact fun e => h (e ▸ hc)) (by simp)).1
    rwa [List.append_nil] at this
  have h2 : rule ⟨.initial, true, 1⟩ '#' s = ([.leak ['#']], I false 1, s) := by
    show initialRule _ _ _ = _
    rw [initialRule.eq_def, if_neg (by decide), if_pos rfl, this]
    rfl
  show L _ ('#' :: s) = _
  rw [L_cons h2, L_laid hl ho]
  rfl

/-- **The empty string** is no token. -/
theorem empty_string_lost (ts : List (Nat × Tok)) (r : List Char) (hl : Laid 1 ts r) (ho : OneLine ts) :
    scan ('"' :: '"' :: r) = ts.map (fun p => .tok p.1 p.2) := by
  have h1 : rule ⟨.initial, true, 1⟩ '"' ('"' :: r) = ([], ⟨.str, false, 1⟩, '"' :: r) := rfl
  have h2 : rule ⟨.str, false, 1⟩ '"' r = ([], I false 1, r) := rfl
  show L _ ('"' :: '"' :: r) = _
  rw [L_cons h1, L_cons h2, L_laid hl ho]
  rfl

/-- **Line ends in strings** are not counted. -/
theorem string_lags : scan "\"a\nb\"\nc".toList = [.tok 1 (.str "a\nb".toList), .tok 2 (.str ['c'])] := by
  decide +kernel

/-! ## Cases -/

example : scan "Tokens UNK V # all\nstate x\n  V | y -> z;!".toList =
    [.tok 1 (.kw .tokens), .tok 1 (.str "UNK".toList), .tok 1 (.str "V".toList), .tok 2 (.kw .state),
     .tok 2 (.str "x".toList), .tok 3 (.str "V".toList), .tok 3 (.sign '|'), .tok 3 (.str "y".toList),
     .tok 3 .arrow, .tok 3 (.str "z".toList), .tok 3 (.sign ';'), .tok 3 (.sign '~')] := by decide +kernel
example : scan "%{\n#include \"morf_dfa.h\"\n%}\nV".toList =
    [.leak "#include \"morf_dfa.h\"".toList, .leak ['\n'], .tok 2 (.str ['V'])] := by decide +kernel
example : scan "# end of".toList = [.leak ['#'], .tok 1 (.str "end".toList), .tok 1 (.str "of".toList)] := by
  decide +kernel
/-- A layout. -/
example : Laid 1 [(1, .kw .state), (2, .str ['x'])] "state # s\nx".toList :=
  .cons 1 [] "state".toList " # s\nx".toList _ _ .nil (.kw _ _ (Or.inl ⟨(["state"], .state), by decide, rfl, by decide⟩)) (by
      intro _ c hc
      have : c = ' ' := by simpa using hc.symm
      rw [this]; decide +kernel)
    (.cons 1 " # s\n".toList ['x'] [] _ _ (.blank _ _ (Or.inl rfl) (.comment " s".toList [] (by decide) .nil))
      (.bare _ (by simp) (by decide +kernel) (by
        intro k hk
        have := (spell_word hk).2.2
        rw [show word ['x'] = .str ['x'] by decide +kernel] at this
        cases this)) (by intro _ c hc; cases hc) (.nil _ _ .nil))
example : Body ["#include \"morf_dfa.h\"".toList] := by
  intro l hl
  rw [List.mem_singleton.1 hl]
  refine ⟨by decide, fun b e => ?_⟩
  have : '#' = '%' := congrArg (·.head!) e
  exact absurd this (by decide)

end Jbo.DfaScan
