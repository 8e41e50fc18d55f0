import Verif.CategGroup

/-!
# The passes that look at markers
-/

namespace Jbo.Categ
open Jbo Jbo.CategSpec

theorem headMkr_true {m : Sel} {r : List Tok} (h : headMkr m r = true) : ∃ r', r = .marker m :: r' := by
  cases r with
  | nil => simp [headMkr] at h
  | cons t r => exact ⟨r, by rw [mkr_true.1 h]⟩

theorem headSel_cons {s : Sel} {b : List Tok} (h : headSel s b = true) : ∃ x w, b = x :: w ∧ x.isSel s = true := by
  cases b with
  | nil => simp [headSel] at h
  | cons x w => exact ⟨x, w, rfl, h⟩

/-- The steps over a group. -/
theorem findMk_grp {s e : Sel} (hne : s ≠ e) {K : List Tok → Prop} {L a b : List Tok} (h : Grp s e K L)
    (hL : L = a ++ .marker s :: b) : ∃ k, findMk e b = some k ∧ k ≤ b.length ∧ 1 ≤ k ∧ K (words (b.take k)) := by
  subst hL
  obtain ⟨mid, rest, rfl, hm, hK⟩ := grp_after hne h
  refine ⟨mid.length + 1, findMk_mid (fun t ht => (hm t ht).2), by simp, by omega, ?_⟩
  have : (mid ++ .marker e :: rest).take (mid.length + 1) = mid ++ [.marker e] := by
    rw [show mid ++ Tok.marker e :: rest = (mid ++ [.marker e]) ++ rest by simp, List.take_left' (by simp)]
  rw [this, words_append]
  simpa [words, Tok.kind] using hK

theorem straddle_ok {s e : Sel} (hne : s ≠ e) {K : List Tok → Prop} {L a r : List Tok} (h : Grp s e K L) (hL : L = a ++ r) :
    (headMkr s r = false ∧ straddle s e r = .ok none) ∨
    (headMkr s r = true ∧ ∃ k, straddle s e r = .ok (some k) ∧ k ≤ r.length ∧ 1 ≤ k ∧ K (words (r.take k))) := by
  cases r with
  | nil => exact Or.inl ⟨rfl, rfl⟩
  | cons t r =>
    by_cases ht : mkr s t = true
    · have := mkr_true.1 ht
      subst this
      obtain ⟨k, hk, hk1, _, hK⟩ := findMk_grp hne h hL
      refine Or.inr ⟨ht, k + 1, ?_, by simp; omega, by omega, by rw [List.take_succ_cons, words_marker]; exact hK⟩
      simp only [straddle, ht, hk, if_true]
    · exact Or.inl ⟨by simpa [headMkr] using ht, by simp [straddle, ht]⟩

/-- What a result of `lookahead` says. -/
def Means (T : List Stag → Prop) (b : Boke) (ws : List Tok) : Prop :=
  match b with
  | .bo => Follow T .BO ws
  | .ke => Follow T .KE ws
  | .other => True

theorem means_result {T : List Stag → Prop} (r : List Tok) : Means T (bokeResult r) (words r) := by
  unfold bokeResult
  split
  · rename_i h
    obtain ⟨x, w, rfl, h⟩ := headSel_cons h
    exact ⟨[], x, words w, by rw [words_word h]; rfl, h, Or.inl rfl⟩
  · split
    · rename_i h
      obtain ⟨x, w, rfl, h⟩ := headSel_cons h
      exact ⟨[], x, words w, by rw [words_word h]; rfl, h, Or.inl rfl⟩
    · trivial

/-- The same with the condition that tenses come first if there is a marker for them. -/
def MeansT (T : List Stag → Prop) (b : Boke) (ws : List Tok) : Prop :=
  match b with
  | .bo => ∃ g x w, ws = g ++ x :: w ∧ x.isSel .BO = true ∧ Tenses T g
  | .ke => ∃ g x w, ws = g ++ x :: w ∧ x.isSel .KE = true ∧ Tenses T g
  | .other => True

theorem MeansT.means {T : List Stag → Prop} {b : Boke} {ws : List Tok} (h : MeansT T b ws) : Means T b ws := by
  cases b with
  | bo => obtain ⟨g, x, w, h1, h2, h3⟩ := h; exact ⟨g, x, w, h1, h2, Or.inr h3⟩
  | ke => obtain ⟨g, x, w, h1, h2, h3⟩ := h; exact ⟨g, x, w, h1, h2, Or.inr h3⟩
  | other => trivial

/-- A tense just before what the result says. -/
theorem meansT_one {T : List Stag → Prop} {g r : List Tok} (hg : In T g) :
    MeansT T (bokeResult r) (g ++ words r) := by
  unfold bokeResult
  split
  · rename_i h
    obtain ⟨x, w, rfl, h⟩ := headSel_cons h
    exact ⟨g, x, words w, by rw [words_word h], h, .one hg⟩
  · split
    · rename_i h
      obtain ⟨x, w, rfl, h⟩ := headSel_cons h
      exact ⟨g, x, words w, by rw [words_word h], h, .one hg⟩
    · trivial

theorem meansT_more {T : List Stag → Prop} {b : Boke} {g c r : List Tok} (hg : In T g) (hc : Connective c)
    (h : MeansT T b r) : MeansT T b (g ++ (c ++ r)) := by
  cases b with
  | bo =>
    obtain ⟨g', x, w, rfl, h2, h3⟩ := h
    exact ⟨g ++ (c ++ g'), x, w, by simp, h2, .more hg hc h3⟩
  | ke =>
    obtain ⟨g', x, w, rfl, h2, h3⟩ := h
    exact ⟨g ++ (c ++ g'), x, w, by simp, h2, .more hg hc h3⟩
  | other => trivial

theorem words_take_drop (r : List Tok) (k : Nat) : words r = words (r.take k) ++ words (r.drop k) := by
  rw [← words_append, List.take_append_drop]

theorem lookahead_ok {T : List Stag → Prop} {L : List Tok} (hC : Known T L) : ∀ (n : Nat) (a r : List Tok), L = a ++ r →
    r.length < n → ∃ b i, lookahead n r = .ok (b, i) ∧ i ≤ r.length ∧ Means T b (words r) ∧
      (headMkr .PRIVATE_START_TENSE r = true → MeansT T b (words r))
  | 0, _, _, _, h => by omega
  | n + 1, a, r, hL, h => by
    unfold lookahead
    by_cases ht : headMkr .PRIVATE_START_TENSE r = true
    · obtain ⟨r', rfl⟩ := headMkr_true ht
      obtain ⟨k, hk, hk1, _, hK⟩ := findMk_grp (by decide) hC.tense hL
      rw [if_pos ht]
      simp only [List.tail_cons, hk]
      have hsuf : ∀ j, L = (a ++ (Tok.marker Sel.PRIVATE_START_TENSE :: r').take j) ++
          (Tok.marker Sel.PRIVATE_START_TENSE :: r').drop j := by
        intro j; rw [List.append_assoc, List.take_append_drop]; exact hL
      have hwx : words (Tok.marker Sel.PRIVATE_START_TENSE :: r') = words (r'.take k) ++
          words ((Tok.marker Sel.PRIVATE_START_TENSE :: r').drop (k + 1)) := by
        rw [words_marker, words_take_drop r' k]; rfl
      generalize hx : (Tok.marker Sel.PRIVATE_START_TENSE :: r').drop (k + 1) = x at hwx
      have hxl : x.length = r'.length - k := by rw [← hx]; simp
      have hLx : L = (a ++ (Tok.marker Sel.PRIVATE_START_TENSE :: r').take (k + 1)) ++ x := by
        rw [← hx]; exact hsuf _
      have fin : ∀ {e : Except Crash (Boke × Nat)}, (∃ b i, e = .ok (b, i) ∧ i ≤ r'.length + 1 ∧
          MeansT T b (words (r'.take k) ++ words x)) →
          ∃ b i, e = .ok (b, i) ∧ i ≤ (Tok.marker Sel.PRIVATE_START_TENSE :: r').length ∧
          Means T b (words (Tok.marker Sel.PRIVATE_START_TENSE :: r')) ∧
          (headMkr .PRIVATE_START_TENSE (Tok.marker Sel.PRIVATE_START_TENSE :: r') = true →
            MeansT T b (words (Tok.marker Sel.PRIVATE_START_TENSE :: r'))) := by
        rintro e ⟨b, i, h1, h2, h3⟩
        rw [hwx]
        exact ⟨b, i, h1, by simpa using h2, h3.means, fun _ => h3⟩
      have hj : ∀ j, 1 ≤ j → j ≤ x.length → Connective (words (x.take j)) → ∃ b i,
          (if headMkr .PRIVATE_START_TENSE (x.drop j) = true then
              (lookahead n (x.drop j)).map (fun p => (p.1, k + 1 + j + p.2))
            else .ok (.other, k + 1) : Except Crash (Boke × Nat)) = .ok (b, i) ∧ i ≤ r'.length + 1 ∧
          MeansT T b (words (r'.take k) ++ words x) := by
        intro j hj1 hj2 hcon
        split
        · rename_i hhd
          obtain ⟨b, i, hb, hi, _, hm⟩ := lookahead_ok hC n _ (x.drop j)
            (show L = (a ++ (Tok.marker Sel.PRIVATE_START_TENSE :: r').take (k + 1) ++ x.take j) ++ x.drop j by
              rw [List.append_assoc _ (x.take j), List.take_append_drop]; exact hLx) (by simp at h ⊢; omega)
          rw [hb]
          refine ⟨b, _, rfl, by simp at hi; simp; omega, ?_⟩
          rw [words_take_drop x j]
          exact meansT_more hK hcon (hm hhd)
        · exact ⟨_, _, rfl, by omega, trivial⟩
      by_cases h1 : headMkr .PRIVATE_START_JEK x = true
      · rcases straddle_ok (by decide) hC.jek hLx with ⟨h2, _⟩ | ⟨_, j, hj3, hj4, hj5, hj6⟩
        · simp [h1] at h2
        · simp only [h1, Bool.true_or, if_true, hj3]
          exact fin (hj j hj5 hj4 (Or.inl hj6))
      · by_cases h2 : headMkr .PRIVATE_START_JOIK x = true
        · rcases straddle_ok (by decide) hC.joik hLx with ⟨h3, _⟩ | ⟨_, j, hj3, hj4, hj5, hj6⟩
          · simp [h2] at h3
          · simp only [h1, h2, Bool.or_true, if_true, hj3]
            exact fin (hj j hj5 hj4 (Or.inr hj6))
        · simp only [h1, h2]
          exact fin ⟨_, _, rfl, by omega, meansT_one hK⟩
    · simp only [ht]
      exact ⟨_, _, rfl, by omega, means_result r, fun h => by simp at h⟩

theorem connective_ok {T : List Stag → Prop} {L a r : List Tok} (hC : Known T L) (hL : L = a ++ r) :
    ∃ k, connective r = .ok k ∧ k ≤ r.length ∧ (k = 0 ∨ Connective (words (r.take k))) := by
  unfold connective
  rcases straddle_ok (by decide) hC.jek hL with ⟨_, h⟩ | ⟨_, k, h, hk, _, hK⟩
  · rw [h]
    rcases straddle_ok (by decide) hC.joik hL with ⟨_, h'⟩ | ⟨_, k, h', hk, _, hK⟩
    · rw [h']; exact ⟨0, rfl, by omega, Or.inl rfl⟩
    · rw [h']; exact ⟨k, rfl, hk, Or.inr (Or.inr hK)⟩
  · rw [h]; exact ⟨k, rfl, hk, Or.inr (Or.inl hK)⟩

/-- Where `categorize_ibo` puts its marker. -/
def IboP (T : List Stag → Prop) (m : Sel) (a b : List Tok) : Prop :=
  m = .PRIVATE_I_BO ∧ headSel .I b = true ∧ Place T .PRIVATE_I_BO a b

theorem iboLoop_ok {T : List Stag → Prop} {L : List Tok} (hC : Known T L) : ∀ (n : Nat) (a l r : List Tok), L = a ++ r →
    r.length < n → ∃ out, iboLoop n l r = .ok out ∧ Ins (IboP T) (l.reverse ++ r) out
  | 0, _, _, _, _, h => by omega
  | n + 1, a, l, [], _, _ => ⟨_, rfl, by simpa using Ins.refl _⟩
  | n + 1, a, l, x :: r, hL, h => by
    unfold iboLoop
    simp only [List.length_cons] at h
    have hL' : L = (a ++ [x]) ++ r := by simp [hL]
    by_cases hx : x.isSel .I = true
    · obtain ⟨k, hk, hk1, hk2⟩ := connective_ok hC hL'
      have hsuf : ∀ j, L = ((a ++ [x]) ++ r.take j) ++ r.drop j := by
        intro j; rw [List.append_assoc _ (r.take j), List.take_append_drop]; exact hL'
      obtain ⟨b, i, hb, hi, hm, _⟩ := lookahead_ok hC (r.length + 1) _ (r.drop k) (hsuf k) (by simp; omega)
      rw [if_pos hx, hk]
      dsimp only
      rw [hb]
      have hskip : ∀ l, (l ++ (x :: r.take (k + i))) ++ r.drop (k + i) = l ++ x :: r := by
        intro l; rw [List.append_assoc, List.cons_append, List.take_append_drop]
      cases b with
      | bo =>
        obtain ⟨out, h1, h2⟩ := iboLoop_ok hC n _ ((r.take (k + i)).reverse ++ x :: .marker .PRIVATE_I_BO :: l)
          _ (hsuf (k + i)) (by simp; omega)
        refine ⟨out, h1, ?_⟩
        have hpl : Place T .PRIVATE_I_BO l.reverse (x :: r) := by
          refine ⟨x, words r, words_word hx r, hx, ?_⟩
          rcases hk2 with rfl | hk2
          · exact Or.inl hm
          · exact Or.inr ⟨_, _, words_take_drop r k, hk2, hm⟩
        have h3 : Ins (IboP T) (l.reverse ++ x :: r) (l.reverse ++ .marker .PRIVATE_I_BO :: x :: r) :=
          Ins.one ⟨rfl, hx, hpl⟩
        refine h3.trans ?_
        have h4 := hskip (l.reverse ++ [.marker .PRIVATE_I_BO])
        simp only [List.append_assoc, List.cons_append, List.nil_append] at h4
        rw [← h4]
        simpa using h2
      | ke =>
        obtain ⟨out, h1, h2⟩ := iboLoop_ok hC n _ ((r.take (k + i)).reverse ++ x :: l)
          _ (hsuf (k + i)) (by simp; omega)
        refine ⟨out, h1, ?_⟩
        rw [← hskip l.reverse]
        simpa using h2
      | other =>
        obtain ⟨out, h1, h2⟩ := iboLoop_ok hC n _ ((r.take (k + i)).reverse ++ x :: l)
          _ (hsuf (k + i)) (by simp; omega)
        refine ⟨out, h1, ?_⟩
        rw [← hskip l.reverse]
        simpa using h2
    · rw [if_neg hx]
      obtain ⟨out, h1, h2⟩ := iboLoop_ok hC n (a ++ [x]) (x :: l) r hL' (by omega)
      exact ⟨out, h1, by simpa using h2⟩

/-- Where the passes for bo and ke put their markers. -/
def KeboP (T : List Stag → Prop) (C : List Tok → Prop) (s bo ke : Sel) (m : Sel) (_ b : List Tok) : Prop :=
  ((m = bo ∧ Joined T C .BO (words b)) ∨ (m = ke ∧ Joined T C .KE (words b))) ∧ headMkr s b = true

theorem keboLoop_ok {T : List Stag → Prop} {C : List Tok → Prop} {L : List Tok} (hC : Known T L) {s bo ke : Sel}
    {strad : List Tok → Except Crash (Option Nat)} {guard : Bool}
    (hst : ∀ a r, L = a ++ r → headMkr s r = true →
      ∃ k, strad r = .ok (some k) ∧ k ≤ r.length ∧ 1 ≤ k ∧ C (words (r.take k))) :
    ∀ (n : Nat) (a l r : List Tok), L = a ++ r → r.length < n →
    ∃ out, keboLoop s bo ke strad guard n l r = .ok out ∧ Ins (KeboP T C s bo ke) (l.reverse ++ r) out
  | 0, _, _, _, _, h => by omega
  | n + 1, a, l, [], _, _ => ⟨_, rfl, by simpa using Ins.refl _⟩
  | n + 1, a, l, x :: r, hL, h => by
    unfold keboLoop
    simp only [List.length_cons] at h
    have hL' : L = (a ++ [x]) ++ r := by simp [hL]
    by_cases hx : mkr s x = true
    · rw [if_pos hx]
      split
      · obtain ⟨out, h1, h2⟩ := keboLoop_ok hC hst n (a ++ [x]) (x :: l) r hL' (by omega)
        exact ⟨out, h1, by simpa using h2⟩
      · obtain ⟨k, hk, hk1, hk2, hk3⟩ := hst a (x :: r) hL hx
        have hsuf : ∀ j, L = (a ++ (x :: r).take j) ++ (x :: r).drop j := by
          intro j; rw [List.append_assoc, List.take_append_drop]; exact hL
        obtain ⟨b, i, hb, hi, hm, _⟩ := lookahead_ok hC (r.length + 2) _ ((x :: r).drop k) (hsuf k) (by simp; omega)
        simp only [hk, hb]
        obtain ⟨out, h1, h2⟩ := keboLoop_ok hC hst n _ (((x :: r).take (k + i)).reverse ++ bokeMark bo ke b ++ l)
          _ (hsuf (k + i)) (by simp; omega)
        refine ⟨out, h1, ?_⟩
        have h3 : Ins (KeboP T C s bo ke) (l.reverse ++ x :: r) (l.reverse ++ (bokeMark bo ke b ++ x :: r)) := by
          cases b with
          | bo => exact Ins.one ⟨Or.inl ⟨rfl, _, _, words_take_drop (x :: r) k, hk3, hm⟩, hx⟩
          | ke => exact Ins.one ⟨Or.inr ⟨rfl, _, _, words_take_drop (x :: r) k, hk3, hm⟩, hx⟩
          | other => exact Ins.refl _
        refine h3.trans ?_
        have hrev : (bokeMark bo ke b).reverse = bokeMark bo ke b := by cases b <;> rfl
        have h4 : (((x :: r).take (k + i)).reverse ++ bokeMark bo ke b ++ l).reverse ++ (x :: r).drop (k + i) =
            l.reverse ++ (bokeMark bo ke b ++ x :: r) := by
          simp only [List.reverse_append, List.reverse_reverse, hrev, List.append_assoc, List.take_append_drop]
        rw [h4] at h2
        exact h2
    · rw [if_neg hx]
      obtain ⟨out, h1, h2⟩ := keboLoop_ok hC hst n (a ++ [x]) (x :: l) r hL' (by omega)
      exact ⟨out, h1, by simpa using h2⟩

/-! ## `categorize_gek` -/

/-- Where `categorize_gek` puts its marker. -/
def GekP (T : List Stag → Prop) (m : Sel) (a b : List Tok) : Prop := m = .PRIVATE_START_GEK ∧
  ((∃ p x w, b = p ++ x :: w ∧ Opts [.SE] p ∧ x.isSel .GA = true) ∨ headMkr .PRIVATE_START_TENSE b = true ∨
    headMkr .PRIVATE_START_JOIK b = true) ∧ Place T .PRIVATE_START_GEK a b

/-- Stepping back over a group. -/
theorem findMk_back {s e : Sel} (hne : s ≠ e) {K : List Tok → Prop} {l w : List Tok}
    (h : Grp s e K (l.reverse ++ .marker e :: w)) :
    ∃ mid rest, l = mid ++ .marker s :: rest ∧ findMk s l = some (mid.length + 1) ∧ NoMk s e mid ∧ K (words mid.reverse) := by
  obtain ⟨p, mid, hl, hm, hK⟩ := grp_before hne h
  have hl' : l = mid.reverse ++ .marker s :: p.reverse := by
    have := congrArg List.reverse hl
    simpa using this
  refine ⟨mid.reverse, p.reverse, hl', ?_, ?_, by simpa using hK⟩
  · rw [hl']
    exact findMk_mid (fun t ht => (hm t (by simpa using ht)).1)
  · intro t ht; exact hm t (by simpa using ht)

theorem backup_ok {T : List Stag → Prop} {l w : List Tok} (hC : Known T (l.reverse ++ w)) :
    ∃ z, backup l = .ok z ∧ ∀ k, z = some k → k < l.length ∧ Connective (words (l.take k).reverse) := by
  have take_eq : ∀ (s e : Sel) (mid rest : List Tok),
      (Tok.marker e :: (mid ++ .marker s :: rest)).take (mid.length + 1 + 1) = .marker e :: (mid ++ [.marker s]) := by
    intro s e mid rest
    rw [List.take_succ_cons, show mid ++ Tok.marker s :: rest = (mid ++ [.marker s]) ++ rest by simp,
      List.take_left' (by simp)]
  have words_eq : ∀ (s e : Sel) (mid : List Tok),
      words (Tok.marker e :: (mid ++ [.marker s])).reverse = words mid.reverse := by
    intro s e mid
    simp only [List.reverse_cons, List.reverse_append, List.reverse_nil, List.nil_append, List.cons_append]
    rw [words_marker, words_append]
    simp [words, Tok.kind]
  cases l with
  | nil => exact ⟨none, rfl, by simp⟩
  | cons x l =>
    unfold backup
    dsimp only
    split
    · rename_i hx
      have := mkr_true.1 hx
      subst this
      obtain ⟨mid, rest, rfl, hk, _, hK⟩ := findMk_back (s := .PRIVATE_START_JOIK) (e := .PRIVATE_END_JOIK)
        (by decide) (by simpa using hC.joik)
      rw [hk]
      dsimp only
      split
      · exact ⟨none, rfl, by simp⟩
      · rename_i hlen
        refine ⟨_, rfl, ?_⟩
        intro j hj; cases hj
        refine ⟨by simp only [List.length_append, List.length_cons] at hlen ⊢; omega, ?_⟩
        rw [take_eq, words_eq]
        exact Or.inr hK
    · split
      · rename_i hx
        have := mkr_true.1 hx
        subst this
        obtain ⟨mid, rest, rfl, hk, _, hK⟩ := findMk_back (s := .PRIVATE_START_JEK) (e := .PRIVATE_END_JEK)
          (by decide) (by simpa using hC.jek)
        rw [hk]
        dsimp only
        split
        · exact ⟨none, rfl, by simp⟩
        · rename_i hlen
          refine ⟨_, rfl, ?_⟩
          intro j hj; cases hj
          refine ⟨by simp only [List.length_append, List.length_cons] at hlen ⊢; omega, ?_⟩
          rw [take_eq, words_eq]
          exact Or.inl hK
      · exact ⟨none, rfl, by simp⟩

theorem seekTense_skip : ∀ (pre : List Tok) (n : Nat) (l : List Tok), (∀ t ∈ pre, mkr .PRIVATE_START_TENSE t = false) →
    seekTense (n + pre.length) (pre ++ l) = (seekTense n l).map (pre ++ ·)
  | [], n, l, _ => by cases h : seekTense n l <;> simp [Except.map, h]
  | t :: pre, n, l, h => by
    have ih := seekTense_skip pre n l (fun u hu => h u (by simp [hu]))
    rw [List.length_cons, ← Nat.add_assoc, List.cons_append]
    rw [seekTense]
    rw [if_neg (by simp [h t (by simp)]), ih]
    cases seekTense n l <;> rfl

/-- What stands between the tense found and gi: nothing, or a connective and more tenses. -/
def SeqAfter (T : List Stag → Prop) (ws : List Tok) : Prop :=
  ∃ g x w, ws = g ++ x :: w ∧ x.isSel .GI = true ∧ (g = [] ∨ ∃ c r, g = c ++ r ∧ Connective c ∧ Tenses T r)

theorem seqAfter_tense {T : List Stag → Prop} {g ws : List Tok} (hg : In T g) (h : SeqAfter T ws) :
    ∃ g' x w, g ++ ws = g' ++ x :: w ∧ x.isSel .GI = true ∧ Tenses T g' := by
  obtain ⟨g0, x, w, rfl, hx, rfl | ⟨c, r, rfl, hc, hr⟩⟩ := h
  · exact ⟨g, x, w, rfl, hx, .one hg⟩
  · exact ⟨g ++ (c ++ r), x, w, by simp, hx, .more hg hc hr⟩

theorem seekTense_ok {T : List Stag → Prop} : ∀ (n : Nat) (l w : List Tok),
    Known T (l.reverse ++ .marker .PRIVATE_END_TENSE :: w) → l.length < n → SeqAfter T (words w) →
    ∃ l', seekTense n l = .ok l' ∧ Ins (GekP T) (l.reverse ++ .marker .PRIVATE_END_TENSE :: w)
      (l'.reverse ++ .marker .PRIVATE_END_TENSE :: w)
  | 0, _, _, _, h, _ => by omega
  | n + 1, l, w, hC, h, hseq => by
    obtain ⟨mid, rest, rfl, _, hmid, hK⟩ := findMk_back (by decide) hC.tense
    have hfuel : ∃ m, n + 1 = m + 1 + mid.length ∧ rest.length ≤ m ∧ m ≤ n := ⟨n - mid.length, by
      simp at h; omega, by simp at h; omega, by omega⟩
    obtain ⟨m, hm, hm1, hmn⟩ := hfuel
    rw [hm, seekTense_skip mid (m + 1) _ (fun t ht => (hmid t ht).1)]
    have hz : mkr .PRIVATE_START_TENSE (.marker .PRIVATE_START_TENSE) = true := by decide
    unfold seekTense
    rw [if_pos hz]
    -- the words from the tense on
    obtain ⟨g', x, w', hg', hx, hT⟩ := seqAfter_tense hK hseq
    have hC' : Known T (rest.reverse ++ .marker .PRIVATE_START_TENSE :: (mid.reverse ++ .marker .PRIVATE_END_TENSE :: w)) := by
      simpa using hC
    have hw2 : words (.marker .PRIVATE_START_TENSE :: (mid.reverse ++ .marker .PRIVATE_END_TENSE :: w)) =
        words mid.reverse ++ words w := by
      rw [words_marker, words_append, words_marker]
    have hmark : Ins (GekP T) ((mid ++ .marker .PRIVATE_START_TENSE :: rest).reverse ++ .marker .PRIVATE_END_TENSE :: w)
        ((mid ++ .marker .PRIVATE_START_TENSE :: .marker .PRIVATE_START_GEK :: rest).reverse ++
          .marker .PRIVATE_END_TENSE :: w) := by
      have : Ins (GekP T) (rest.reverse ++ .marker .PRIVATE_START_TENSE :: (mid.reverse ++ .marker .PRIVATE_END_TENSE :: w))
          (rest.reverse ++ .marker .PRIVATE_START_GEK :: .marker .PRIVATE_START_TENSE ::
            (mid.reverse ++ .marker .PRIVATE_END_TENSE :: w)) :=
        Ins.one ⟨rfl, Or.inr (Or.inl hz), Or.inr ⟨g', x, w', by rw [hw2, hg'], Or.inl hT, hx⟩⟩
      simpa using this
    obtain ⟨y, hy, hyk⟩ := backup_ok hC'
    rw [hy]
    cases y with
    | none => exact ⟨_, rfl, hmark⟩
    | some k =>
      dsimp only
      obtain ⟨hk, hcon⟩ := hyk k rfl
      split
      · rename_i hh
        obtain ⟨r', hr'⟩ := headMkr_true hh
        have hd : rest.drop (k + 1) = r' := by
          rw [← List.drop_drop, hr']; rfl
        have htk : rest.take (k + 1) = rest.take k ++ [.marker .PRIVATE_END_TENSE] := by
          rw [List.take_add, hr']; rfl
        have hrest : rest = rest.take k ++ .marker .PRIVATE_END_TENSE :: r' := by
          rw [← hr', List.take_append_drop]
        have e1 : (mid ++ Tok.marker Sel.PRIVATE_START_TENSE :: rest).reverse ++ Tok.marker Sel.PRIVATE_END_TENSE :: w =
            r'.reverse ++ .marker .PRIVATE_END_TENSE :: ((rest.take k).reverse ++
              .marker .PRIVATE_START_TENSE :: (mid.reverse ++ .marker .PRIVATE_END_TENSE :: w)) := by
          conv => lhs; rw [hrest]
          simp
        have hlen : r'.length < rest.length := by rw [← hd]; simp; omega
        obtain ⟨l', h1, h2⟩ := seekTense_ok m r' ((rest.take k).reverse ++
          .marker .PRIVATE_START_TENSE :: (mid.reverse ++ .marker .PRIVATE_END_TENSE :: w)) (e1 ▸ hC) (by omega) (by
            rw [words_append, hw2, hg']
            exact ⟨words (rest.take k).reverse ++ g', x, w', by simp, hx, Or.inr ⟨_, _, rfl, hcon, hT⟩⟩)
        rw [hd, h1]
        refine ⟨_, rfl, ?_⟩
        rw [e1, htk]
        simpa using h2
      · exact ⟨_, rfl, hmark⟩

theorem insJoik_ins {T : List Stag → Prop} {l : List Tok} {x : Tok} {w : List Tok} (hx : x.isSel .GI = true)
    (hC : Known T (l.reverse ++ .marker .PRIVATE_END_JOIK :: x :: w)) :
    Ins (GekP T) (l.reverse ++ .marker .PRIVATE_END_JOIK :: x :: w)
      ((insJoik l).reverse ++ .marker .PRIVATE_END_JOIK :: x :: w) := by
  obtain ⟨mid, rest, rfl, hf, _, hK⟩ := findMk_back (by decide) hC.joik
  unfold insJoik
  rw [hf]
  dsimp only
  have e1 : mid ++ Tok.marker Sel.PRIVATE_START_JOIK :: rest =
      (mid ++ [.marker .PRIVATE_START_JOIK]) ++ rest := by simp
  rw [e1, List.take_left' (by simp), List.drop_left' (by simp)]
  have : Ins (GekP T) (rest.reverse ++ (.marker .PRIVATE_START_JOIK :: (mid.reverse ++ .marker .PRIVATE_END_JOIK :: x :: w)))
      (rest.reverse ++ .marker .PRIVATE_START_GEK :: .marker .PRIVATE_START_JOIK ::
        (mid.reverse ++ .marker .PRIVATE_END_JOIK :: x :: w)) :=
    Ins.one ⟨rfl, Or.inr (Or.inr rfl), Or.inr ⟨words mid.reverse, x, words w, by
      rw [words_marker, words_append, words_marker, words_word hx], Or.inr hK, hx⟩⟩
  simpa using this

theorem gekP_closed {T : List Stag → Prop} : ∀ m a b, GekP T m a b → m ∉ ([.PRIVATE_START_TENSE, .PRIVATE_END_TENSE,
    .PRIVATE_START_JEK, .PRIVATE_END_JEK, .PRIVATE_START_JOIK, .PRIVATE_END_JOIK] : List Sel) := by
  rintro m a b ⟨rfl, _⟩; decide

theorem gekLoop_ok {T : List Stag → Prop} : ∀ (r l : List Tok), Known T (l.reverse ++ r) →
    ∃ out, gekLoop l r = .ok out ∧ Ins (GekP T) (l.reverse ++ r) out
  | [], l, _ => ⟨_, rfl, by simpa using Ins.refl _⟩
  | x :: r, l, hC => by
    have goOn : ∀ l', Ins (GekP T) (l.reverse ++ x :: r) (l'.reverse ++ x :: r) →
        ∃ out, gekLoop (x :: l') r = .ok out ∧ Ins (GekP T) (l.reverse ++ x :: r) out := by
      intro l' hi
      obtain ⟨out, h1, h2⟩ := gekLoop_ok r (x :: l') (by simpa using hi.known gekP_closed hC)
      exact ⟨out, h1, hi.trans (by simpa using h2)⟩
    unfold gekLoop
    split
    · rename_i hx
      refine goOn _ (ins_left (by decide) (fun p q _ hp hp' => ⟨rfl, Or.inl ⟨p.reverse, x, r, rfl, hp, hx⟩, Or.inl
        ⟨p.reverse, x, words r, ?_, hp, hx, hp'⟩⟩))
      rw [words_append, words_allSel (opts_allSel hp), words_word hx]
    · split
      · rename_i hgi
        split
        · rename_i hh
          obtain ⟨l', rfl⟩ := headMkr_true hh
          obtain ⟨l2, h1, h2⟩ := seekTense_ok (l'.length + 1) l' (x :: r) (by simpa using hC) (Nat.lt_succ_self _)
            ⟨[], x, words r, by rw [words_word hgi]; rfl, hgi, Or.inl rfl⟩
          have h3 := seekTense_skip [.marker .PRIVATE_END_TENSE] (l'.length + 1) l' (by simp [mkr])
          rw [h1] at h3
          have h4 : seekTense ((Tok.marker Sel.PRIVATE_END_TENSE :: l').length + 1) (Tok.marker Sel.PRIVATE_END_TENSE :: l') =
              .ok (.marker .PRIVATE_END_TENSE :: l2) := by simpa [Except.map] using h3
          rw [h4]
          refine goOn _ ?_
          simpa using h2
        · cases l with
          | nil => exact goOn [] (.refl _)
          | cons z l' =>
            dsimp only
            split
            · rename_i hz
              have := mkr_true.1 hz
              subst this
              refine goOn (.marker .PRIVATE_END_JOIK :: insJoik l') ?_
              have := insJoik_ins (T := T) (l := l') (w := r) hgi (by simpa using hC)
              simpa using this
            · exact goOn (z :: l') (.refl _)
      · exact goOn l (.refl _)

end Jbo.Categ
