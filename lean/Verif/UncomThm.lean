import Verif.UncomSpec
/-!
# Comments are taken out, and nothing else
-/

namespace Jbo.Uncom

theorem errorMark_eq {s r : List Char} (h : errorMark s = some r) : s = "/* error */".toList ++ r := by
  unfold errorMark at h
  split at h
  · simp only [Option.some.injEq] at h; subst h; rfl
  · cases h

theorem marker_eq {s x r : List Char} (h : marker s = some (x, r)) :
    s = "/* ET ".toList ++ x ++ " */".toList ++ r ∧ Name x := by
  unfold marker at h
  split at h
  · rename_i r0
    split at h
    · cases h
    · rename_i r' he hne
      simp only [Option.some.injEq, Prod.mk.injEq] at h
      obtain ⟨h1, h2⟩ := h
      have e := List.takeWhile_append_dropWhile (p := inName) (l := r0)
      rw [he] at e
      subst h1; subst h2
      refine ⟨?_, ?_, ?_⟩
      · simpa using e.symm
      · exact hne
      · intro c hc
        have := List.all_takeWhile (p := inName) (l := r0)
        rw [List.all_eq_true] at this
        have := this c hc
        simp only [inName, Bool.or_eq_true, Bool.and_eq_true, decide_eq_true_eq, beq_iff_eq] at this
        rcases this with h | h
        · exact Or.inr h
        · exact Or.inl h
    · cases h
  · cases h

theorem rule_nil (d : Nat) : rule d [] = none := by cases d <;> rfl

theorem rule_shorter {d d' : Nat} {s o r : List Char} (h : rule d s = some (o, d', r)) : r.length < s.length := by
  cases d with
  | zero =>
    simp only [rule] at h
    split at h
    · rename_i q he
      simp only [Option.some.injEq, Prod.mk.injEq] at h
      rw [errorMark_eq he, h.2.2, List.length_append]
      have h11 : "/* error */".toList.length = 11 := by decide
      omega
    · split at h
      · rename_i x q hm
        simp only [Option.some.injEq, Prod.mk.injEq] at h
        rw [(marker_eq hm).1, h.2.2]
        simp only [List.length_append]
        have h6 : "/* ET ".toList.length = 6 := by decide
        omega
      · split at h
        · simp only [Option.some.injEq, Prod.mk.injEq] at h; rw [← h.2.2]; simp; omega
        · simp only [Option.some.injEq, Prod.mk.injEq] at h; rw [← h.2.2]; simp
        · cases h
  | succ d =>
    simp only [rule] at h
    split at h
    · simp only [Option.some.injEq, Prod.mk.injEq] at h; rw [← h.2.2]; simp; omega
    · simp only [Option.some.injEq, Prod.mk.injEq] at h; rw [← h.2.2]; simp; omega
    · simp only [Option.some.injEq, Prod.mk.injEq] at h; rw [← h.2.2]; simp
    · cases h

theorem lex_enough : ∀ (n m d : Nat) (s : List Char), s.length ≤ n → s.length ≤ m → lex n d s = lex m d s := by
  have hnil : ∀ n d, lex n d [] = [] := by
    intro n d
    cases n with
    | zero => rfl
    | succ n => simp only [lex, rule_nil]
  intro n
  induction n with
  | zero =>
    intro m d s h1 _
    have : s = [] := by cases s with | nil => rfl | cons _ _ => simp at h1
    rw [this, hnil, hnil]
  | succ n ih =>
    intro m d s h1 h2
    cases m with
    | zero =>
      have : s = [] := by cases s with | nil => rfl | cons _ _ => simp at h2
      rw [this, hnil, hnil]
    | succ m =>
      simp only [lex]
      cases hr : rule d s with
      | none => rfl
      | some p =>
        obtain ⟨o, d', r⟩ := p
        have := rule_shorter hr
        simp only
        rw [ih m d' r (by omega) (by omega)]

/-- The scanner with enough turns. -/
def L (d : Nat) (s : List Char) : List Char := lex s.length d s

theorem lex_L {n d : Nat} {s : List Char} (h : s.length ≤ n) : lex n d s = L d s :=
  lex_enough _ _ _ _ h (Nat.le_refl _)

theorem L_nil (d : Nat) : L d [] = [] := by simp [L, lex]

theorem L_step {d d' : Nat} {s o r : List Char} (h : rule d s = some (o, d', r)) : L d s = o ++ L d' r := by
  have hlt := rule_shorter h
  rw [L]
  obtain ⟨n, hn⟩ : ∃ n, s.length = n + 1 := ⟨s.length - 1, by omega⟩
  rw [hn, lex, h]
  simp only
  rw [lex_L (by omega)]

theorem L_open (d : Nat) (r : List Char) : L (d + 1) ('/' :: '*' :: r) = L (d + 2) r :=
  L_step (o := []) rfl

theorem L_close (d : Nat) (r : List Char) : L (d + 1) ('*' :: '/' :: r) = L d r :=
  L_step (o := []) rfl

theorem L_skip (d : Nat) (c : Char) (r : List Char) (h1 : ¬(c = '/' ∧ r.head? = some '*'))
    (h2 : ¬(c = '*' ∧ r.head? = some '/')) : L (d + 1) (c :: r) = L (d + 1) r := by
  have : rule (d + 1) (c :: r) = some ([], d + 1, r) := by
    rw [rule.eq_def]
    simp only
    split
    · rename_i e; simp only [List.cons.injEq] at e
      exact absurd ⟨e.1, by rw [e.2]; rfl⟩ h1
    · rename_i e; simp only [List.cons.injEq] at e
      exact absurd ⟨e.1, by rw [e.2]; rfl⟩ h2
    · rename_i e; simp only [List.cons.injEq] at e
      rw [← e.2]
    · rename_i e; cases e
  exact L_step this

theorem no_marks {s : List Char} (h : ∀ r, s ≠ '/' :: '*' :: r) : errorMark s = none ∧ marker s = none := by
  constructor
  · cases he : errorMark s with
    | none => rfl
    | some r => exact absurd (errorMark_eq he) (h _)
  · cases hm : marker s with
    | none => rfl
    | some p =>
      obtain ⟨x, r⟩ := p
      have := (marker_eq hm).1
      exact absurd (by rw [this]; rfl) (h _)

theorem L_echo (c : Char) (r : List Char) (h : ¬(c = '/' ∧ r.head? = some '*')) : L 0 (c :: r) = c :: L 0 r := by
  have hs : ∀ q, c :: r ≠ '/' :: '*' :: q := by
    intro q e
    simp only [List.cons.injEq] at e
    exact h ⟨e.1, by rw [e.2]; rfl⟩
  obtain ⟨h1, h2⟩ := no_marks hs
  have : rule 0 (c :: r) = some ([c], 0, r) := by
    rw [rule.eq_def]
    simp only [h1, h2]
    split
    · rename_i e; exact absurd e (hs _)
    · rename_i e; simp only [List.cons.injEq] at e
      rw [← e.1, ← e.2]
    · rename_i e; cases e
  exact L_step this

theorem L_error (r : List Char) : L 0 ("/* error */".toList ++ r) = "/* error */".toList ++ L 0 r := by
  have e : "/* error */".toList ++ r = '/' :: '*' :: ' ' :: 'e' :: 'r' :: 'r' :: 'o' :: 'r' :: ' ' :: '*' :: '/' :: r := rfl
  have e1 : errorMark ("/* error */".toList ++ r) = some r := by rw [e]; rfl
  have : rule 0 ("/* error */".toList ++ r) = some ("/* error */".toList, 0, r) := by
    rw [rule.eq_def]; simp only [e1]
  exact L_step this

theorem name_all {x : List Char} (h : Name x) : ∀ c ∈ x, inName c = true := by
  intro c hc
  simp only [inName, Bool.or_eq_true, Bool.and_eq_true, decide_eq_true_eq, beq_iff_eq]
  rcases h.2 c hc with h | h
  · exact Or.inr h
  · exact Or.inl h

theorem take_name (x r : List Char) (h : ∀ c ∈ x, inName c = true) :
    (x ++ ' ' :: r).takeWhile inName = x ∧ (x ++ ' ' :: r).dropWhile inName = ' ' :: r := by
  have hb : inName ' ' = false := by decide
  induction x with
  | nil => simp [hb]
  | cons c x ih =>
    have hc := h c List.mem_cons_self
    obtain ⟨a, b⟩ := ih (fun c hc => h c (List.mem_cons_of_mem _ hc))
    simp [hc, a, b]

theorem L_et (x r : List Char) (hx : Name x) :
    L 0 ("/* ET ".toList ++ x ++ " */".toList ++ r) = "/* ET ".toList ++ x ++ " */".toList ++ L 0 r := by
  have e : "/* ET ".toList ++ x ++ " */".toList ++ r =
      '/' :: '*' :: ' ' :: 'E' :: 'T' :: ' ' :: (x ++ ' ' :: '*' :: '/' :: r) := by simp
  have e1 : errorMark ("/* ET ".toList ++ x ++ " */".toList ++ r) = none := by
    rw [e]; rfl
  have e2 : marker ("/* ET ".toList ++ x ++ " */".toList ++ r) = some (x, r) := by
    rw [e]
    obtain ⟨a, b⟩ := take_name x ('*' :: '/' :: r) (name_all hx)
    simp only [marker, a, b]
    cases x with
    | nil => exact absurd rfl hx.1
    | cons c x => rfl
  have : rule 0 ("/* ET ".toList ++ x ++ " */".toList ++ r) =
      some ("/* ET ".toList ++ x ++ " */".toList, 0, r) := by
    rw [rule.eq_def]; simp only [e1, e2]
  exact L_step this

theorem L_begin (r : List Char) (h1 : errorMark ('/' :: '*' :: r) = none) (h2 : marker ('/' :: '*' :: r) = none) :
    L 0 ('/' :: '*' :: r) = L 1 r := by
  have : rule 0 ('/' :: '*' :: r) = some ([], 1, r) := by
    rw [rule.eq_def]; simp only [h1, h2]
  exact L_step this

/-! ## Texts -/

theorem apart_tail {a b c : Char} {s : List Char} (h : Apart a b (c :: s)) : Apart a b s := by
  intro p q e; exact h (c :: p) q (by rw [e]; rfl)

theorem apart_head {a b c : Char} {s : List Char} (h : Apart a b (c :: s)) : ¬(c = a ∧ s.head? = some b) := by
  rintro ⟨e1, e2⟩
  cases s with
  | nil => cases e2
  | cons d s =>
    simp only [List.head?_cons, Option.some.injEq] at e2
    exact h [] s (by rw [e1, e2]; rfl)

theorem text_inside (d : Nat) (s t : List Char) (h1 : Apart '/' '*' s) (h2 : Apart '*' '/' s)
    (h3 : ¬(s.getLast? = some '/' ∧ t.head? = some '*')) (h4 : ¬(s.getLast? = some '*' ∧ t.head? = some '/')) :
    L (d + 1) (s ++ t) = L (d + 1) t := by
  induction s with
  | nil => rfl
  | cons c s ih =>
    rw [List.cons_append]
    cases s with
    | nil =>
      rw [List.nil_append]
      simp only [List.getLast?_singleton, Option.some.injEq] at h3 h4
      exact L_skip d c t h3 h4
    | cons e s =>
      rw [L_skip d c (e :: s ++ t) (by simpa using apart_head h1) (by simpa using apart_head h2)]
      refine ih (apart_tail h1) (apart_tail h2) ?_ ?_
      · simpa [List.getLast?_cons_cons] using h3
      · simpa [List.getLast?_cons_cons] using h4

theorem text_outside (s t : List Char) (h1 : Apart '/' '*' s)
    (h3 : ¬(s.getLast? = some '/' ∧ t.head? = some '*')) : L 0 (s ++ t) = s ++ L 0 t := by
  induction s with
  | nil => rfl
  | cons c s ih =>
    rw [List.cons_append]
    cases s with
    | nil =>
      rw [List.nil_append]
      simp only [List.getLast?_singleton, Option.some.injEq] at h3
      exact L_echo c t h3
    | cons e s =>
      rw [L_echo c (e :: s ++ t) (by simpa using apart_head h1), ih (apart_tail h1) (by simpa [List.getLast?_cons_cons] using h3)]
      rfl

/-! ## Comments -/

theorem head_show {l : List Item} (h : headComment l) (hne : l ≠ []) (t : List Char) :
    (showAll l ++ t).head? = some '/' := by
  cases l with
  | nil => exact absurd rfl hne
  | cons i l =>
    cases i with
    | text s => exact absurd h (by simp [headComment])
    | comment k => simp [showAll, Item.show]

theorem endOk_last {s : List Char} {l : List Item} (h : endOk s l) (hh : headComment l) (r : List Char) :
    ¬(s.getLast? = some '/' ∧ (showAll l ++ '*' :: '/' :: r).head? = some '*') ∧
    ¬(s.getLast? = some '*' ∧ (showAll l ++ '*' :: '/' :: r).head? = some '/') := by
  cases l with
  | nil =>
    simp only [endOk] at h
    simp [showAll, h]
  | cons i l =>
    simp only [endOk] at h
    rw [head_show hh (by simp)]
    simp [h]

theorem comment_skipped : ∀ (l : List Item) (d : Nat) (r : List Char), GoodAll l →
    L (d + 1) (showAll l ++ '*' :: '/' :: r) = L d r
  | [], d, r, _ => by simp only [showAll, List.nil_append]; exact L_close d r
  | .text s :: l, d, r, h => by
    simp only [GoodAll, Item.Good] at h
    obtain ⟨⟨h1, h2⟩, h3, h4, h5⟩ := h
    have e : showAll (.text s :: l) ++ '*' :: '/' :: r = s ++ (showAll l ++ '*' :: '/' :: r) := by
      simp [showAll, Item.show]
    obtain ⟨a, b⟩ := endOk_last h4 h3 r
    rw [e, text_inside d s _ h1 h2 a b]
    exact comment_skipped l d r h5
  | .comment k :: l, d, r, h => by
    simp only [GoodAll] at h
    have e : showAll (.comment k :: l) ++ '*' :: '/' :: r =
        '/' :: '*' :: (showAll k ++ '*' :: '/' :: (showAll l ++ '*' :: '/' :: r)) := by
      simp [showAll, Item.show]
    rw [e, L_open, comment_skipped k (d + 1) _ h.1]
    exact comment_skipped l d r h.2
termination_by l => sizeOf l

theorem unclosed_skipped : ∀ (l : List Item) (d : Nat), GoodAll l → L (d + 1) (showAll l) = []
  | [], d, _ => by simp only [showAll]; exact L_nil _
  | .text s :: l, d, h => by
    simp only [GoodAll, Item.Good] at h
    obtain ⟨⟨h1, h2⟩, h3, h4, h5⟩ := h
    have e : showAll (.text s :: l) = s ++ showAll l := by simp [showAll, Item.show]
    have hh : ¬(s.getLast? = some '/' ∧ (showAll l).head? = some '*') ∧
        ¬(s.getLast? = some '*' ∧ (showAll l).head? = some '/') := by
      cases l with
      | nil => simp [showAll]
      | cons i l =>
        have := head_show h3 (by simp) []
        rw [List.append_nil] at this
        simp only [endOk] at h4
        rw [this]; simp [h4]
    rw [e, text_inside d s _ h1 h2 hh.1 hh.2]
    exact unclosed_skipped l d h5
  | .comment k :: l, d, h => by
    simp only [GoodAll] at h
    have e : showAll (.comment k :: l) = '/' :: '*' :: (showAll k ++ '*' :: '/' :: showAll l) := by
      simp [showAll, Item.show]
    rw [e, L_open, comment_skipped k (d + 1) _ h.1]
    exact unclosed_skipped l d h.2
termination_by l => sizeOf l

/-- A comment that begins like one that is kept, up to its end, is that comment. -/
theorem same_comment {l : List Item} (hl : GoodAll l) {w t r : List Char}
    (hw : ∀ c ∈ w, c ≠ '/' ∧ c ≠ '*') (ht : t = [] ∨ ∃ q, t = '*' :: '/' :: q)
    (e : showAll l ++ t = w ++ '*' :: '/' :: r) : showAll l = w ∧ t ≠ [] := by
  have key : ∀ (w u : List Char), (∀ c ∈ w, c ≠ '/' ∧ c ≠ '*') → u = w ++ '*' :: '/' :: r →
      u.head? ≠ some '/' := by
    intro w u hw e
    rw [e]
    cases w with
    | nil => simp
    | cons c w => simpa using (hw c List.mem_cons_self).1
  have base : ∀ (w : List Char), (∀ c ∈ w, c ≠ '/' ∧ c ≠ '*') → t = w ++ '*' :: '/' :: r → w = [] ∧ t ≠ [] := by
    intro w hw e
    cases w with
    | nil => exact ⟨rfl, by rw [e]; simp⟩
    | cons c w =>
      rcases ht with h | ⟨q, h⟩
      · rw [h] at e; cases e
      · rw [h] at e
        simp only [List.cons_append, List.cons.injEq] at e
        exact absurd e.1.symm (hw c List.mem_cons_self).2
  cases l with
  | nil =>
    simp only [showAll, List.nil_append] at e
    obtain ⟨a, b⟩ := base w hw e
    exact ⟨by rw [a, showAll], b⟩
  | cons i l =>
    cases i with
    | comment k =>
      exact absurd (by simp [showAll, Item.show]) (key w _ hw e)
    | text s =>
      simp only [GoodAll, Item.Good] at hl
      obtain ⟨⟨_, h2⟩, h3, h4, _⟩ := hl
      have e' : s ++ (showAll l ++ t) = w ++ '*' :: '/' :: r := by
        rw [← e]; simp [showAll, Item.show]
      rcases List.append_eq_append_iff.1 e' with ⟨w', hw', hr⟩ | ⟨s', hs', hr⟩
      · have hw2 : ∀ c ∈ w', c ≠ '/' ∧ c ≠ '*' := by
          intro c hc; exact hw c (by rw [hw']; simp [hc])
        cases l with
        | nil =>
          simp only [showAll, List.nil_append] at hr
          obtain ⟨a, b⟩ := base w' hw2 hr
          refine ⟨?_, b⟩
          rw [hw', a]; simp [showAll, Item.show]
        | cons j l =>
          exact absurd (head_show h3 (by simp) t) (key w' _ hw2 hr)
      · cases s' with
        | nil =>
          simp only [List.nil_append] at hr
          rw [List.append_nil] at hs'
          cases l with
          | nil =>
            simp only [showAll, List.nil_append] at hr
            refine ⟨by rw [← hs']; simp [showAll, Item.show], ?_⟩
            rw [← hr]; simp
          | cons j l =>
            have := head_show h3 (by simp) t
            rw [← hr] at this
            simp at this
        | cons c s' =>
          simp only [List.cons_append, List.cons.injEq] at hr
          obtain ⟨hc, hr⟩ := hr
          cases s' with
          | nil =>
            simp only [List.nil_append] at hr
            cases l with
            | nil =>
              simp only [showAll, List.nil_append] at hr
              rcases ht with h | ⟨q, h⟩
              · rw [h] at hr; cases hr
              · rw [h] at hr; simp at hr
            | cons j l =>
              simp only [endOk] at h4
              refine absurd ?_ h4
              rw [hs', ← hc]; simp
          | cons c2 s' =>
            simp only [List.cons_append, List.cons.injEq] at hr
            exact absurd (by rw [hs', ← hc, ← hr.1]) (h2 w s')

theorem no_keep {l : List Item} (hl : GoodAll l) (hp : Plain l) {t : List Char}
    (ht : t = [] ∨ ∃ q, t = '*' :: '/' :: q) :
    errorMark ('/' :: '*' :: (showAll l ++ t)) = none ∧ marker ('/' :: '*' :: (showAll l ++ t)) = none := by
  constructor
  · cases he : errorMark ('/' :: '*' :: (showAll l ++ t)) with
    | none => rfl
    | some r =>
      have := errorMark_eq he
      have e : showAll l ++ t = " error ".toList ++ '*' :: '/' :: r := by simpa using this
      exact absurd (same_comment hl (by decide) ht e).1 hp.1
  · cases hm : marker ('/' :: '*' :: (showAll l ++ t)) with
    | none => rfl
    | some p =>
      obtain ⟨x, r⟩ := p
      obtain ⟨h1, h2⟩ := marker_eq hm
      have e : showAll l ++ t = (" ET ".toList ++ x ++ [' ']) ++ '*' :: '/' :: r := by simpa using h1
      refine absurd (same_comment hl ?_ ht e).1 (hp.2 x h2)
      intro c hc
      simp only [List.mem_append, List.mem_singleton] at hc
      rcases hc with (hc | hc) | hc
      · have : ∀ c ∈ " ET ".toList, c ≠ '/' ∧ c ≠ '*' := by decide
        exact this c hc
      · rcases h2.2 c hc with h | ⟨ha, _⟩
        · rw [h]; decide
        · constructor
          · intro e; rw [e] at ha; revert ha; decide
          · intro e; rw [e] at ha; revert ha; decide
      · rw [hc]; decide

/-! ## Files -/

theorem head_pieces {ps : List Piece} (h : headMark ps) (t : List Char) (ht : t.head? ≠ some '*') :
    (ps.flatMap Piece.show ++ t).head? ≠ some '*' := by
  cases ps with
  | nil => simpa using ht
  | cons p ps =>
    cases p with
    | text s => exact absurd h (by simp [headMark])
    | error => exact (by decide : (some '/' : Option Char) ≠ some '*')
    | et x => exact (by decide : (some '/' : Option Char) ≠ some '*')
    | comment k =>
      rw [List.flatMap_cons, show (Piece.comment k).show = (Item.comment k).show from rfl, Item.show]
      exact (by decide : (some '/' : Option Char) ≠ some '*')

theorem pieces (ps : List Piece) (t : List Char) (ht : t.head? ≠ some '*') (h : GoodFile ps) :
    L 0 (ps.flatMap Piece.show ++ t) = ps.flatMap Piece.kept ++ L 0 t := by
  induction ps with
  | nil => rfl
  | cons p ps ih =>
    rw [List.flatMap_cons, List.flatMap_cons, List.append_assoc]
    cases p with
    | text s =>
      simp only [GoodFile, Piece.Good] at h
      rw [show (Piece.text s).show = s from rfl, show (Piece.text s).kept = s from rfl,
        text_outside s _ h.1 (fun e => head_pieces h.2.1 t ht e.2), ih h.2.2, List.append_assoc]
    | error =>
      simp only [GoodFile] at h
      rw [show Piece.error.show = "/* error */".toList from rfl, show Piece.error.kept = "/* error */".toList from rfl,
        L_error, ih h, List.append_assoc]
    | et x =>
      simp only [GoodFile] at h
      rw [show (Piece.et x).show = "/* ET ".toList ++ x ++ " */".toList from rfl,
        show (Piece.et x).kept = "/* ET ".toList ++ x ++ " */".toList from rfl,
        L_et x _ h.1, ih h.2]
      simp only [List.append_assoc]
    | comment k =>
      simp only [GoodFile, Piece.Good] at h
      obtain ⟨⟨h1, h2⟩, h3⟩ := h
      have e : (Piece.comment k).show ++ (ps.flatMap Piece.show ++ t) =
          '/' :: '*' :: (showAll k ++ '*' :: '/' :: (ps.flatMap Piece.show ++ t)) := by
        rw [show (Piece.comment k).show = (Item.comment k).show from rfl, Item.show]; simp
      obtain ⟨a, b⟩ := no_keep h1 h2 (t := '*' :: '/' :: (ps.flatMap Piece.show ++ t)) (Or.inr ⟨_, rfl⟩)
      rw [e, L_begin _ a b, comment_skipped k 0 _ h1, ih h3]
      rfl

/-- **Comments are taken out**: every file that is made of text, of the two kinds of comments that are
kept, and of other comments, nested to any depth, loses just the other comments. -/
theorem comments_gone (ps : List Piece) (h : GoodFile ps) :
    uncom (ps.flatMap Piece.show) = ps.flatMap Piece.kept := by
  have := pieces ps [] (by simp) h
  rw [List.append_nil, L_nil, List.append_nil] at this
  exact this

/-- A text without the beginning of a comment is not changed. -/
theorem text_unchanged (s : List Char) (h : Apart '/' '*' s) : uncom s = s := by
  have := comments_gone [.text s] ⟨h, trivial, trivial⟩
  simp only [List.flatMap_cons, List.flatMap_nil, List.append_nil] at this
  exact this

/-- What follows the beginning of a comment that has no end is lost, without an error. -/
theorem unclosed_lost (ps : List Piece) (l : List Item) (h : GoodFile ps) (hl : GoodAll l) (hp : Plain l) :
    uncom (ps.flatMap Piece.show ++ '/' :: '*' :: showAll l) = ps.flatMap Piece.kept := by
  have := pieces ps ('/' :: '*' :: showAll l) (by simp) h
  obtain ⟨a, b⟩ := no_keep hl hp (t := []) (Or.inl rfl)
  rw [List.append_nil] at a b
  rw [L_begin _ a b, unclosed_skipped l 0 hl, List.append_nil] at this
  exact this

/-- Taking out a comment can make a new one: the output may hold the beginning of a comment. -/
theorem not_idempotent : ¬ ∀ s, uncom (uncom s) = uncom s := by
  intro h
  have := h "//**/* x */ y".toList
  revert this; decide +kernel

/-! ## Cases -/

def fileEx : List Piece :=
  [.text "a : B ".toList, .comment [.text " x ".toList, .comment [.text " y*".toList], .text " z".toList],
   .text " ".toList, .et "KEhE".toList, .text " | C/".toList, .error, .comment [], .text "* d\n".toList]

example : fileEx.flatMap Piece.show = "a : B /* x /* y**/ z*/ /* ET KEhE */ | C//* error *//**/* d\n".toList := by
  decide +kernel
example : uncom "a : B /* x /* y**/ z*/ /* ET KEhE */ | C//* error *//**/* d\n".toList =
    "a : B  /* ET KEhE */ | C//* error */* d\n".toList := by decide +kernel
/-- A name with a small letter is not kept. -/
example : uncom "/* ET Ku */".toList = [] := by decide +kernel
/-- Strings are not known. -/
example : uncom "f(\"/*\"); g();".toList = "f(\"".toList := by decide +kernel

theorem apart_of {a b : Char} {s : List Char} (h : ∀ i < s.length, ¬(s[i]? = some a ∧ s[i + 1]? = some b)) :
    Apart a b s := by
  intro p q e
  refine h p.length (by rw [e]; simp) ?_
  rw [e]; simp

example : GoodFile fileEx := by
  have nm : Name "KEhE".toList := by unfold Name; decide
  have pl : ∀ l : List Item, (showAll l).head? = some ' ' → (showAll l)[1]? = some 'x' → Plain l := by
    intro l _ h
    constructor
    · intro e; rw [e] at h; revert h; decide
    · intro x _ e; rw [e] at h; revert h; simp
  refine ⟨apart_of (by decide), trivial, ⟨⟨⟨apart_of (by decide), apart_of (by decide)⟩, trivial, by simp [endOk],
    ⟨⟨apart_of (by decide), apart_of (by decide)⟩, trivial, by simp [endOk], trivial⟩,
    ⟨apart_of (by decide), apart_of (by decide)⟩, trivial, by simp [endOk], trivial⟩, pl _ (by decide) (by decide)⟩,
    apart_of (by decide), trivial, nm, apart_of (by decide), trivial, ⟨trivial, by decide, ?_⟩,
    apart_of (by decide), trivial, trivial⟩
  intro x _ e
  have := congrArg List.length e
  simp [showAll] at this

end Jbo.Uncom
