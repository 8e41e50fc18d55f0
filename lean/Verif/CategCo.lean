import Verif.CategAhead
import Verif.CategTenseThm

/-!
# What stands behind the marker of an ek or gihek
-/

namespace Jbo.Categ
open Jbo Jbo.CategSpec

/-- The optional words `ss` in this order, then a word `c`. -/
def optHead (c : Sel) : List Sel → List Tok → Bool
  | [], b => headSel c b
  | _ :: _, [] => false
  | s :: ss, t :: b => if t.isSel s then optHead c ss b else optHead c ss (t :: b)

/-- Every marker `s` is followed by such words. -/
def CoOk (s c : Sel) (L : List Tok) : Prop := ∀ a b, L = a ++ .marker s :: b → optHead c [.NA, .SE] b = true

theorem optHead_mono (c : Sel) : ∀ (ss : List Sel) (a b : List Tok), optHead c ss a = true → optHead c ss (a ++ b) = true
  | [], [], b, h => by simp [optHead, headSel] at h
  | [], t :: a, b, h => h
  | s :: ss, [], b, h => by simp [optHead] at h
  | s :: ss, t :: a, b, h => by
    simp only [optHead, List.cons_append] at h ⊢
    split
    · rename_i hs; rw [if_pos hs] at h; exact optHead_mono c ss a b h
    · rename_i hs; rw [if_neg hs] at h; exact optHead_mono c ss (t :: a) b h

/-- Either the whole lies in the first part, or the rest of it begins the second. -/
theorem optHead_split (c : Sel) : ∀ (ss : List Sel) (a b : List Tok), optHead c ss (a ++ b) = true →
    optHead c ss a = true ∨ (AllSel ss a ∧ ∃ ss', ss' <:+ ss ∧ optHead c ss' b = true)
  | [], [], b, h => Or.inr ⟨by simp [AllSel], [], by simp, h⟩
  | [], t :: a, b, h => Or.inl h
  | s :: ss, [], b, h => Or.inr ⟨by simp [AllSel], s :: ss, List.suffix_refl _, h⟩
  | s :: ss, t :: a, b, h => by
    simp only [optHead, List.cons_append] at h ⊢
    by_cases hs : t.isSel s = true
    · rw [if_pos hs] at h
      simp only [if_pos hs]
      rcases optHead_split c ss a b h with h1 | ⟨h1, ss', h2, h3⟩
      · exact Or.inl h1
      · refine Or.inr ⟨?_, ss', h2.trans (List.suffix_cons _ _), h3⟩
        intro u hu
        replace hu := List.mem_cons.1 hu
        rcases hu with rfl | hu
        · exact ⟨s, by simp, hs⟩
        · obtain ⟨s', h4, h5⟩ := h1 u hu
          exact ⟨s', by simp [h4], h5⟩
    · rw [if_neg hs] at h
      simp only [if_neg hs]
      rcases optHead_split c ss (t :: a) b h with h1 | ⟨h1, ss', h2, h3⟩
      · exact Or.inl h1
      · refine Or.inr ⟨?_, ss', h2.trans (List.suffix_cons _ _), h3⟩
        intro u hu
        obtain ⟨s', h4, h5⟩ := h1 u hu
        exact ⟨s', by simp [h4], h5⟩

/-- Words that do not lead to `c`. -/
theorem optHead_false (c : Sel) : ∀ (ss : List Sel) (p : List Tok) (x : Tok) (w : List Tok),
    (∀ t ∈ p, t.isSel c = false) → x.isSel c = false → (∀ s ∈ ss, x.isSel s = false) →
    optHead c ss (p ++ x :: w) = false
  | [], [], x, w, _, h, _ => h
  | [], t :: p, x, w, h, _, _ => h t (by simp)
  | s :: ss, [], x, w, h1, h2, h3 => by
    have := optHead_false c ss [] x w h1 h2 (fun s' hs' => h3 s' (by simp [hs']))
    simp only [List.nil_append] at this
    simp only [List.nil_append, optHead, h3 s (by simp), Bool.false_eq_true, if_false]
    exact this
  | s :: ss, t :: p, x, w, h1, h2, h3 => by
    simp only [List.cons_append, optHead]
    split
    · exact optHead_false c ss p x w (fun u hu => h1 u (by simp [hu])) h2 (fun s' hs' => h3 s' (by simp [hs']))
    · exact optHead_false c ss (t :: p) x w h1 h2 (fun s' hs' => h3 s' (by simp [hs']))

/-- A place at which a marker can be inserted without coming between. -/
def SafeAt (c : Sel) (a b : List Tok) : Prop :=
  (∀ ss', ss' <:+ [.NA, .SE] → optHead c ss' b = false) ∨
  ∃ q y, a = q ++ [y] ∧ (∀ m, y ≠ .marker m) ∧ y.isSel .NA = false ∧ y.isSel .SE = false

theorem split_marker {m s : Sel} {a b p q : List Tok} (hne : m ≠ s)
    (h : a ++ .marker m :: b = p ++ .marker s :: q) :
    (∃ d, a = p ++ .marker s :: d ∧ q = d ++ .marker m :: b) ∨ (∃ d, p = a ++ .marker m :: d ∧ b = d ++ .marker s :: q) := by
  rcases List.append_eq_append_iff.1 h with ⟨x, h1, h2⟩ | ⟨x, h1, h2⟩
  · cases x with
    | nil => simp at h2; exact absurd h2.1 hne
    | cons t x =>
      simp only [List.cons_append, List.cons.injEq] at h2
      obtain ⟨rfl, h2⟩ := h2
      exact Or.inr ⟨x, h1, h2⟩
  · cases x with
    | nil => simp at h2; exact absurd h2.1.symm hne
    | cons t x =>
      simp only [List.cons_append, List.cons.injEq] at h2
      obtain ⟨rfl, h2⟩ := h2
      exact Or.inl ⟨x, h1, h2⟩

theorem CoOk.insert {s c m : Sel} {a b : List Tok} (hne : m ≠ s) (h : CoOk s c (a ++ b)) (hs : SafeAt c a b) :
    CoOk s c (a ++ .marker m :: b) := by
  intro p q e
  rcases split_marker hne e with ⟨d, rfl, rfl⟩ | ⟨d, rfl, rfl⟩
  · have h1 := h p (d ++ b) (by simp)
    rcases optHead_split _ _ _ _ h1 with h2 | ⟨h2, ss', h3, h4⟩
    · exact optHead_mono _ _ _ _ h2
    · exfalso
      rcases hs with hs | ⟨q', y, e', hy1, hy2, hy3⟩
      · rw [hs _ h3] at h4; cases h4
      · rcases List.eq_nil_or_concat d with rfl | ⟨d', z, rfl⟩
        · obtain ⟨_, e2⟩ := List.append_inj' (s₁ := p) (t₁ := [.marker s]) (s₂ := q') (t₂ := [y]) (by simpa using e') rfl
          simp at e2
          exact hy1 s e2.symm
        · rw [List.concat_eq_append] at e' h2
          obtain ⟨_, e2⟩ := List.append_inj' (s₁ := p ++ .marker s :: d') (t₁ := [z]) (s₂ := q') (t₂ := [y])
            (by simpa using e') rfl
          simp at e2
          subst e2
          obtain ⟨s', h5, h6⟩ := h2 z (by simp)
          simp at h5
          rcases h5 with rfl | rfl
          · rw [hy2] at h6; cases h6
          · rw [hy3] at h6; cases h6
  · exact h (a ++ d) q (by simp)

theorem Ins.coOk {P : Sel → List Tok → List Tok → Prop} {l l' : List Tok} (h : Ins P l l') {s c : Sel}
    (hk : ∀ m a b, P m a b → m ≠ s ∧ SafeAt c a b) (h0 : CoOk s c l) : CoOk s c l' := by
  induction h with
  | refl => exact h0
  | step _ hp ih => exact ih.insert (hk _ _ _ hp).1 (hk _ _ _ hp).2

theorem safe_head {c : Sel} {a p w : List Tok} {x : Tok} (h1 : ∀ t ∈ p, t.isSel c = false) (h2 : x.isSel c = false)
    (h3 : x.isSel .NA = false) (h4 : x.isSel .SE = false) : SafeAt c a (p ++ x :: w) := by
  refine Or.inl (fun ss' hss => optHead_false c ss' p x w h1 h2 (fun s hs => ?_))
  have := hss.subset hs
  simp at this
  rcases this with rfl | rfl
  · exact h3
  · exact h4

theorem not_isSel {t : Tok} {s s' : Sel} (h : t.isSel s = true) (hne : s ≠ s') : t.isSel s' = false := by
  cases hb : t.isSel s' with
  | false => rfl
  | true => exact absurd (isSel_unique h hb) hne

theorem safe_sel {c : Sel} {a w : List Tok} {x : Tok} {s : Sel} (h : x.isSel s = true) (h1 : s ≠ c) (h2 : s ≠ .NA)
    (h3 : s ≠ .SE) : SafeAt c a (x :: w) :=
  safe_head (p := []) (by simp) (not_isSel h h1) (not_isSel h h2) (not_isSel h h3)

theorem safe_mkr {c m : Sel} {a b : List Tok} (h : headMkr m b = true) : SafeAt c a b := by
  obtain ⟨r, rfl⟩ := headMkr_true h
  exact safe_head (p := []) (by simp) rfl rfl rfl

/-! ## The pass that puts the marker -/

theorem insOpt_two (m : Sel) : ∀ (l : List Tok), ∃ p q, l = p ++ q ∧ insOpt m [.SE, .NA] l = p ++ .marker m :: q ∧
    AllSel [.SE, .NA] p ∧ ∀ (c : Sel) (x : Tok) (w : List Tok), c ≠ .NA → c ≠ .SE → x.isSel c = true →
      optHead c [.NA, .SE] (p.reverse ++ x :: w) = true := by
  intro l
  have hx : ∀ (c : Sel) (x : Tok) (w : List Tok), c ≠ .NA → c ≠ .SE → x.isSel c = true →
      optHead c [.NA, .SE] (x :: w) = true := by
    intro c x w h1 h2 h3
    simp [optHead, not_isSel h3 h1, not_isSel h3 h2, headSel, h3]
  have hs : ∀ (c : Sel) (x y : Tok) (w : List Tok), c ≠ .NA → c ≠ .SE → x.isSel c = true → y.isSel .SE = true →
      optHead c [.NA, .SE] (y :: x :: w) = true := by
    intro c x y w h1 h2 h3 h4
    simp [optHead, not_isSel h4 (show Sel.SE ≠ .NA by decide), h4, headSel, h3]
  have hn : ∀ (c : Sel) (x y : Tok) (w : List Tok), c ≠ .NA → c ≠ .SE → x.isSel c = true → y.isSel .NA = true →
      optHead c [.NA, .SE] (y :: x :: w) = true := by
    intro c x y w h1 h2 h3 h4
    simp [optHead, h4, not_isSel h3 h2, headSel, h3]
  have hns : ∀ (c : Sel) (x y z : Tok) (w : List Tok), c ≠ .NA → c ≠ .SE → x.isSel c = true → y.isSel .NA = true →
      z.isSel .SE = true → optHead c [.NA, .SE] (y :: z :: x :: w) = true := by
    intro c x y z w h1 h2 h3 h4 h5
    simp [optHead, h4, h5, headSel, h3]
  cases l with
  | nil => exact ⟨[], [], rfl, rfl, by simp [AllSel], by simpa using hx⟩
  | cons t l =>
    by_cases ht : t.isSel .SE = true
    · cases l with
      | nil => exact ⟨[t], [], rfl, by simp [insOpt, ht], by simp [AllSel, ht], fun c x w h1 h2 h3 => by
          simpa using hs c x t w h1 h2 h3 ht⟩
      | cons u l =>
        by_cases hu : u.isSel .NA = true
        · exact ⟨[t, u], l, rfl, by simp [insOpt, ht, hu], by simp [AllSel, ht, hu], fun c x w h1 h2 h3 => by
            simpa using hns c x u t w h1 h2 h3 hu ht⟩
        · exact ⟨[t], u :: l, rfl, by simp [insOpt, ht, hu], by simp [AllSel, ht], fun c x w h1 h2 h3 => by
            simpa using hs c x t w h1 h2 h3 ht⟩
    · by_cases hu : t.isSel .NA = true
      · exact ⟨[t], l, rfl, by simp [insOpt, ht, hu], by simp [AllSel, hu], fun c x w h1 h2 h3 => by
          simpa using hn c x t w h1 h2 h3 hu⟩
      · exact ⟨[], t :: l, rfl, by simp [insOpt, ht, hu], by simp [AllSel], by simpa using hx⟩

theorem walk_coOk {rule : Tok → Option Rule} {m c : Sel} (hc1 : c ≠ .NA) (hc2 : c ≠ .SE)
    (hrule : ∀ x, rule x = if x.isSel c then some ⟨[.SE, .NA], m, none⟩ else none) :
    ∀ (n : Nat) (l r out : List Tok), CoOk m c l.reverse → (∀ t ∈ r, mkr m t = false) →
    walk rule n l r = .ok out → CoOk m c out
  | 0, _, _, _, _, _, h => by simp [walk] at h
  | n + 1, l, [], out, hl, _, h => by simp [walk] at h; exact h ▸ hl
  | n + 1, l, x :: r, out, hl, hr, h => by
    have hr' : ∀ t ∈ r, mkr m t = false := fun t ht => hr t (by simp [ht])
    unfold walk at h
    rw [hrule] at h
    by_cases hx : x.isSel c = true
    · rw [if_pos hx] at h
      refine walk_coOk hc1 hc2 hrule n _ r out ?_ hr' h
      obtain ⟨p, q, rfl, h2, h3, h4⟩ := insOpt_two m l
      rw [h2]
      intro a b e
      have e' : (q.reverse ++ .marker m :: (p.reverse ++ [x])) = a ++ .marker m :: b := by simpa using e
      -- the marker found is the new one or one before it
      have hnm : ∀ t ∈ p.reverse ++ [x], t ≠ .marker m := by
        intro t ht he
        subst he
        simp only [List.mem_append, List.mem_reverse, List.mem_singleton] at ht
        rcases ht with ht | ht
        · obtain ⟨s, _, hs⟩ := h3 _ ht
          simp [Tok.isSel] at hs
        · subst ht; simp [Tok.isSel] at hx
      rcases List.append_eq_append_iff.1 e' with ⟨y, h5, h6⟩ | ⟨y, h5, h6⟩
      · cases y with
        | nil => simp at h6; rw [← h6]; exact h4 c x [] hc1 hc2 hx
        | cons t y =>
          simp only [List.cons_append, List.cons.injEq] at h6
          exact absurd rfl (hnm (.marker m) (by rw [h6.2]; simp))
      · cases y with
        | nil => simp at h6; rw [h6]; exact h4 c x [] hc1 hc2 hx
        | cons t y =>
          simp only [List.cons_append, List.cons.injEq] at h6
          obtain ⟨rfl, rfl⟩ := h6
          have h7 := hl a (y ++ p.reverse) (by simp [h5])
          rcases optHead_split _ _ _ _ h7 with h8 | ⟨_, ss', h9, h10⟩
          · exact optHead_mono _ _ _ _ h8
          · exfalso
            -- `p` holds no word `c`
            have : optHead c ss' (p.reverse ++ [.marker m]) = true := optHead_mono _ _ _ _ h10
            rw [optHead_false c ss' p.reverse (.marker m) [] ?_ rfl (fun _ _ => rfl)] at this
            · cases this
            · intro t ht
              obtain ⟨s, h11, h12⟩ := h3 t (by simpa using ht)
              simp at h11
              rcases h11 with rfl | rfl
              · exact not_isSel h12 (Ne.symm hc2)
              · exact not_isSel h12 (Ne.symm hc1)
    · rw [if_neg hx] at h
      refine walk_coOk hc1 hc2 hrule n _ r out ?_ hr' h
      intro a b e
      simp only [List.reverse_cons] at e
      rcases List.eq_nil_or_concat b with rfl | ⟨b', y, rfl⟩
      · obtain ⟨_, e2⟩ := List.append_inj' (s₁ := l.reverse) (t₁ := [x]) (s₂ := a) (t₂ := [.marker m]) e rfl
        simp at e2
        have := hr x (by simp)
        simp [mkr, e2] at this
      · rw [List.concat_eq_append] at e ⊢
        obtain ⟨e1, _⟩ := List.append_inj' (s₁ := l.reverse) (t₁ := [x]) (s₂ := a ++ .marker m :: b') (t₂ := [y])
          (by simpa using e) rfl
        exact optHead_mono _ _ _ _ (hl a b' e1)

theorem pass_coOk {rule : Tok → Option Rule} {m c : Sel} (hc1 : c ≠ .NA) (hc2 : c ≠ .SE)
    (hrule : ∀ x, rule x = if x.isSel c then some ⟨[.SE, .NA], m, none⟩ else none) {ts out : List Tok}
    (hno : ∀ t ∈ ts, mkr m t = false) (h : pass rule ts = .ok out) : CoOk m c out :=
  walk_coOk hc1 hc2 hrule _ [] ts out (by intro a b e; simp at e) hno h

theorem optHead_opts {c : Sel} {r : List Tok} (h : optHead c [.NA, .SE] r = true) :
    ∃ p x w, r = p ++ x :: w ∧ Opts [.NA, .SE] p ∧ x.isSel c = true ∧
      skip .NA r + skip .SE (r.drop (skip .NA r)) = p.length := by
  cases r with
  | nil => simp [optHead] at h
  | cons t r =>
    simp only [optHead] at h
    by_cases ht : t.isSel .NA = true
    · have e1 : skip .NA (t :: r) = 1 := by simp [skip, headSel, ht]
      rw [e1]
      rw [if_pos ht] at h
      cases r with
      | nil => simp [optHead] at h
      | cons u r =>
        simp only [optHead] at h
        by_cases hu : u.isSel .SE = true
        · have e2 : skip .SE ((t :: u :: r).drop 1) = 1 := by simp [skip, headSel, hu]
          rw [e2]; rw [if_pos hu] at h
          obtain ⟨x, w, rfl, hx⟩ := headSel_cons h
          exact ⟨[t, u], x, w, rfl, .take ht (.take hu .nil), hx, rfl⟩
        · have e2 : skip .SE ((t :: u :: r).drop 1) = 0 := by simp [skip, headSel, hu]
          rw [e2]; rw [if_neg hu] at h
          exact ⟨[t], u, r, rfl, .take ht (.skip .nil), h, rfl⟩
    · have e1 : skip .NA (t :: r) = 0 := by simp [skip, headSel, ht]
      rw [e1]
      rw [if_neg ht] at h
      by_cases hu : t.isSel .SE = true
      · have e2 : skip .SE ((t :: r).drop 0) = 1 := by simp [skip, headSel, hu]
        rw [e2]; rw [if_pos hu] at h
        obtain ⟨x, w, rfl, hx⟩ := headSel_cons h
        exact ⟨[t], x, w, rfl, .skip (.take hu .nil), hx, rfl⟩
      · have e2 : skip .SE ((t :: r).drop 0) = 0 := by simp [skip, headSel, hu]
        rw [e2]; rw [if_neg hu] at h
        exact ⟨[], t, r, rfl, .skip (.skip .nil), h, rfl⟩

/-- With the words in place the assertions at `categ.c:399` and `430` hold. -/
theorem straddleCo_ok {s c : Sel} {L : List Tok} (h : CoOk s c L) : ∀ a r, L = a ++ r → headMkr s r = true →
    ∃ k, straddleCo s c r = .ok (some k) ∧ k ≤ r.length ∧ 1 ≤ k ∧ EkWords c (words (r.take k)) := by
  intro a r e hm
  obtain ⟨r, rfl⟩ := headMkr_true hm
  obtain ⟨p, x, w, h1, h2, h3, h4⟩ := optHead_opts (h a r e)
  unfold straddleCo
  dsimp only
  rw [if_pos (by simp [mkr]), h4]
  have hd : r.drop p.length = x :: w := by rw [h1, List.drop_left' rfl]
  have hd' : r.drop (p.length + 1) = w := by rw [← List.drop_drop, hd]; rfl
  rw [hd, hd', if_pos (show headSel c (x :: w) = true from h3)]
  have hs : skip .NAI w ≤ w.length ∧ Opts [.NAI] (w.take (skip .NAI w)) := by
    unfold skip
    split
    · rename_i hn
      obtain ⟨y, w', rfl, hy⟩ := headSel_cons hn
      exact ⟨by simp, .take hy .nil⟩
    · exact ⟨by omega, .skip .nil⟩
  refine ⟨_, rfl, by rw [h1]; simp; omega, by omega, ?_⟩
  have ht : (Tok.marker s :: r).take (1 + p.length + 1 + skip .NAI w) = .marker s :: (p ++ x :: w.take (skip .NAI w)) := by
    rw [show 1 + p.length + 1 + skip .NAI w = (p.length + (1 + skip .NAI w)) + 1 by omega, List.take_succ_cons, h1,
      List.take_append, List.take_of_length_le (by omega), show p.length + (1 + skip .NAI w) - p.length =
      skip .NAI w + 1 by omega, List.take_succ_cons]
  rw [ht, words_marker, words_append, words_allSel (opts_allSel h2), words_word h3, words_allSel (opts_allSel hs.2)]
  exact ⟨p, x, _, rfl, h2, h3, hs.2⟩

end Jbo.Categ
