import Verif.MorfSplitThm
import Verif.MorfName
/-!
# What the morphology scanner does: pieces, safety, names
-/

namespace Jbo.Morf
open Jbo.Dfasyn

/-! ## Pieces of a text and pieces of a word -/

theorem offsets_snoc (k : Nat) (ps : List (List Char)) (p : List Char) :
    offsets k (ps ++ [p]) = offsets k ps ++ [k + ps.flatten.length] := by
  induction ps generalizing k with
  | nil => simp [offsets]
  | cons q ps ih =>
    simp only [List.cons_append, offsets, ih, List.flatten_cons, List.length_append]
    rw [Nat.add_assoc]

/-- Dividing the text of a word divides the word. -/
theorem cut_word (pss : List (List At)) : ∀ (s : List Char), (∀ p ∈ pss, p ≠ []) → pss.flatten = backwards s →
    ∃ lead ps, Silent lead ∧ s = lead ++ ps.flatten ∧ (pss.map firstPos).reverse = offsets lead.length ps ∧
      ∀ q ∈ ps, (∃ c t, q = c :: t ∧ c ≠ ',') ∧ ∃ p ∈ pss, ∃ n, p = (backwards q).map (mv n) := by
  induction pss with
  | nil =>
    intro s _ h
    exact ⟨s, [], backwards_nil.1 h.symm, by simp, rfl, by simp⟩
  | cons p pss ih =>
    intro s hne h
    rcases List.eq_nil_or_concat p with hp | ⟨x, a, hp⟩
    · exact absurd hp (hne p List.mem_cons_self)
    · rw [List.concat_eq_append] at hp
      subst hp
      have h' : backwards s = x ++ a :: pss.flatten := by rw [← h]; simp
      obtain ⟨pre, post, h1, h2, h3, h4, h5⟩ := backwards_cut h'
      obtain ⟨lead, ps, g1, g2, g3, g4⟩ := ih pre (fun p hp => hne p (List.mem_cons_of_mem _ hp)) h3.symm
      refine ⟨lead, ps ++ [post], g1, ?_, ?_, ?_⟩
      · rw [h1, g2]; simp
      · rw [List.map_cons, List.reverse_cons, g3, offsets_snoc]
        have hf : firstPos (x ++ [a]) = pre.length := by
          unfold firstPos
          rw [List.getLastD_eq_getLast?, List.getLast?_append]
          simp [h2]
        rw [hf, g2, List.length_append]
      · intro q hq
        rcases List.mem_append.1 hq with hq | hq
        · obtain ⟨k1, p, k2, k3⟩ := g4 q hq
          exact ⟨k1, p, List.mem_cons_of_mem _ k2, k3⟩
        · rw [List.mem_singleton] at hq
          subst hq
          exact ⟨h5, _, List.mem_cons_self, pre.length, h4⟩

/-- Positions (last first) at which a text can be divided, the first letter among them. -/
def Divides (r : List At) (l : List Nat) : Prop :=
  ∃ pss : List (List At), (∀ p ∈ pss, p ≠ []) ∧ pss.flatten = r ∧ pss.map firstPos = l

theorem Divides.cut {s : List Char} {l : List Nat} (h : Divides (backwards s) l) : ∃ ps, CutInto s l.reverse ps := by
  obtain ⟨pss, h1, h2, h3⟩ := h
  obtain ⟨lead, ps, g1, g2, g3, g4⟩ := cut_word pss s h1 h2
  exact ⟨ps, lead, g1, g2, fun p hp => (g4 p hp).1, by rw [← h3, g3]⟩

theorem Divides.less {r : List At} {a b : Nat} {l : List Nat} (h : Divides r (a :: b :: l)) : Divides r (b :: l) := by
  obtain ⟨pss, h1, h2, h3⟩ := h
  match pss, h3 with
  | p :: q :: pss, h3 =>
    simp only [List.map_cons, List.cons.injEq] at h3
    refine ⟨(p ++ q) :: pss, ?_, ?_, ?_⟩
    · intro x hx
      rcases List.mem_cons.1 hx with rfl | hx
      · have := h1 q (by simp)
        simp [this]
      · exact h1 x (by simp [hx])
    · rw [← h2]; simp
    · have hq := h1 q (by simp)
      have : firstPos (p ++ q) = firstPos q := by
        unfold firstPos
        cases q with
        | nil => exact absurd rfl hq
        | cons c q =>
          rw [List.getLastD_eq_getLast?, List.getLastD_eq_getLast?, List.getLast?_append]
          rw [List.getLast?_cons]; rfl
      rw [List.map_cons, this, h3.2.1, h3.2.2]

theorem Divides.longer {r : List At} {l : List Nat} (h : Divides r l) (hr : r ≠ []) (x : List At) : Divides (x ++ r) l := by
  obtain ⟨pss, h1, h2, h3⟩ := h
  match pss with
  | [] => exact absurd h2.symm hr
  | q :: pss =>
    refine ⟨(x ++ q) :: pss, ?_, ?_, ?_⟩
    · intro y hy
      rcases List.mem_cons.1 hy with rfl | hy
      · have := h1 q (by simp)
        simp [this]
      · exact h1 y (by simp [hy])
    · rw [← h2]; simp
    · have hq := h1 q (by simp)
      have : firstPos (x ++ q) = firstPos q := by
        unfold firstPos
        cases q with
        | nil => exact absurd rfl hq
        | cons c q =>
          rw [List.getLastD_eq_getLast?, List.getLastD_eq_getLast?, List.getLast?_append]
          rw [List.getLast?_cons]; rfl
      rw [← h3, List.map_cons, List.map_cons, this]

theorem divides_starts (r : List At) : Divides r (starts r) := by
  induction r with
  | nil => exact ⟨[], by simp, rfl, rfl⟩
  | cons a r ih =>
    rw [starts]
    by_cases h : isStart a.2 (chars r) = true
    · rw [if_pos h]
      obtain ⟨pss, h1, h2, h3⟩ := ih
      refine ⟨[a] :: pss, ?_, by rw [← h2]; rfl, by rw [← h3]; rfl⟩
      intro p hp
      rcases List.mem_cons.1 hp with rfl | hp
      · simp
      · exact h1 p hp
    · rw [if_neg h]
      have hr : r ≠ [] := by rintro rfl; exact h (isStart_nil _)
      exact ih.longer hr [a]

theorem Divides.first {r : List At} {l : List Nat} (h : Divides r l) : Divides r (l.reverse.take 1).reverse := by
  induction l with
  | nil => exact h
  | cons a l ih =>
    match l with
    | [] => exact h
    | b :: l =>
      have := ih h.less
      rw [List.reverse_cons, List.take_append_of_le_length (by simp)]
      exact this

theorem divides_cuts (r : List At) : (∀ p ∈ cuts r, p ≠ []) ∧ (cuts r).flatten = r := by
  induction r with
  | nil => exact ⟨by simp [cuts], rfl⟩
  | cons a r ih =>
    rw [cuts]
    by_cases h : isMark a r = true
    · rw [if_pos h]
      refine ⟨?_, by rw [List.flatten_cons, ih.2]; rfl⟩
      intro p hp
      rcases List.mem_cons.1 hp with rfl | hp
      · simp
      · exact ih.1 p hp
    · rw [if_neg h]
      cases hc : cuts r with
      | nil =>
        exfalso
        rw [hc] at ih
        have : r = [] := by simpa using ih.2.symm
        subst this
        apply h
        rw [isMark, show chars [] = ([] : List Char) from rfl, isStart_nil]; rfl
      | cons p ps =>
        rw [hc] at ih
        refine ⟨?_, ?_⟩
        · intro q hq
          rcases List.mem_cons.1 hq with rfl | hq
          · simp
          · exact ih.1 q (by simp [hq])
        · have := ih.2
          rw [List.flatten_cons] at this ⊢
          rw [List.cons_append, this]

theorem divides_all {r : List At} (h : (cuts r).map firstPos = cstarts r ++ starts r) : Divides r (cstarts r ++ starts r) :=
  ⟨cuts r, (divides_cuts r).1, (divides_cuts r).2, h⟩

/-! ## C40 -/

theorem kind_words : ∀ k < 32, ((kind k).1 = .cmavos ↔ k = 22) ∧ ((kind k).1 = .cmavosEndCy ↔ k = 23) ∧
    ((kind k).1 = .cmene ↔ k = 21) ∧ ((kind k).1 = .unknown → (kind k).2 = false) := by decide +kernel

/-- **C40**: whatever the scanner answers, the positions that it reports divide the word: they are
increasing positions of letters inside the word, the first of them that of the first letter, and the
pieces between them are, one after the other, the word (but for commas before the first letter). -/
theorem starts_partition {M B : Generated} (hM : Tables M) {cultural : Bool} {s : List Char} (hs : s.length ≤ 65536)
    {res : Result} (h : morfScan M B cultural s = .ok res) : ∃ ps, CutInto s res.starts ps := by
  have hscan := morfScan_eq (B := B) hM cultural s hs
  cases hi : node (chars (backwards s)) with
  | none =>
    rw [hi] at hscan
    obtain ⟨r, h1, ⟨x, h2⟩, h3⟩ := hscan
    rw [h3] at h
    simp only [Except.ok.injEq] at h
    subst h
    apply Divides.cut
    rw [← h2]
    exact (divides_starts r).longer h1 x
  | some i =>
    rw [hi] at hscan
    simp only at hscan
    rw [hscan] at h
    have hd : Divides (backwards s) (starts (backwards s)) := divides_starts _
    have hc := backwards_noComma s
    obtain ⟨k1, k2, _, _⟩ := kind_words _ (exit_lt i)
    have hcy : (kind (morfCert.cls i).exit).1 = .cmavosEndCy →
        Divides (backwards s) (cstarts (backwards s) ++ starts (backwards s)) := fun h =>
      divides_all (cmavo_pieces hc hi (Or.inr (k2.1 h))).2.2.1
    have hdec : (kind (morfCert.cls i).exit).1.long = true → (kind (morfCert.cls i).exit).2 = true →
        Divides (backwards s) ((starts (backwards s)).reverse.dropLast).reverse := by
      intro hl h2
      obtain ⟨x, a, b, j, e1, e2, _, _, e5, _⟩ := brivla_tail hc hi hl
      rw [h2, if_pos rfl] at e5
      have : starts (backwards s) = starts (x ++ [a]) ++ starts b := by
        rw [e1]; exact cut_starts e2 (by rw [e1, chars_append, noComma_append] at hc; exact fun c h => hc.2 c (List.mem_cons_of_mem _ h)) x
      match hl : starts (x ++ [a]), e5 with
      | [y, z], _ =>
        rw [hl] at this
        rw [this] at hd ⊢
        simp only [List.cons_append, List.nil_append] at hd ⊢
        rw [List.reverse_cons, List.dropLast_concat, List.reverse_reverse]
        exact hd.less
    have hres : (∃ l, Divides (backwards s) l ∧ res.starts = l.reverse) := by
      unfold result at h
      rw [classify_exitName] at h
      generalize kind (morfCert.cls i).exit = k at h hcy hdec
      obtain ⟨w, d⟩ := k
      dsimp only at h hcy hdec
      unfold finish at h
      dsimp only at h
      have hboth : w.long = true → ∃ l, Divides (backwards s) l ∧
          (if d = true then (starts (backwards s)).reverse.dropLast else (starts (backwards s)).reverse) = l.reverse := by
        intro hl
        cases d with
        | false => exact ⟨_, hd, rfl⟩
        | true => exact ⟨_, hdec hl rfl, by rw [List.reverse_reverse]; rfl⟩
      cases w <;> simp only at h
      case cmavosEndCy =>
        injection h with h; subst h
        exact ⟨_, hcy rfl, by rw [List.reverse_append]⟩
      case cmavos => injection h with h; subst h; exact ⟨_, hd, rfl⟩
      case unknown => injection h with h; subst h; exact ⟨_, hd, rfl⟩
      case cmene =>
        split at h
        · cases h
        · injection h with h; subst h
          exact ⟨_, hd.first, by rw [List.reverse_reverse]⟩
      all_goals
        injection h with h; subst h
        exact hboth rfl
    obtain ⟨l, h1, h2⟩ := hres
    rw [h2]
    exact h1.cut

/-- Positions that divide a word are increasing, and each is that of a letter. -/
theorem CutInto.increasing {s : List Char} {st : List Nat} {ps : List (List Char)} (h : CutInto s st ps) :
    st.Pairwise (· < ·) ∧ ∀ p ∈ st, ∃ c, s[p]? = some c ∧ c ≠ ',' := by
  obtain ⟨lead, -, h2, h3, h4⟩ := h
  subst h4 h2
  induction ps generalizing lead with
  | nil => exact ⟨.nil, by simp [offsets]⟩
  | cons q ps ih =>
    obtain ⟨c, t, hq, hc⟩ := h3 q List.mem_cons_self
    obtain ⟨i1, i2⟩ := ih (lead := lead ++ q) (fun p hp => h3 p (List.mem_cons_of_mem _ hp))
    rw [List.length_append] at i1 i2
    have hle : ∀ (ps : List (List Char)) k, ∀ p ∈ offsets k ps, k ≤ p := by
      intro ps
      induction ps with
      | nil => intro k p hp; cases hp
      | cons q ps ih =>
        intro k p hp
        rcases List.mem_cons.1 hp with rfl | hp
        · exact Nat.le_refl _
        · have := ih _ _ hp; omega
    rw [offsets]
    refine ⟨List.pairwise_cons.2 ⟨fun p hp => ?_, i1⟩, fun p hp => ?_⟩
    · have := hle _ _ _ hp
      rw [hq, List.length_cons] at this
      omega
    · rcases List.mem_cons.1 hp with rfl | hp
      · exact ⟨c, by rw [hq]; simp, hc⟩
      · have := i2 p hp
        rwa [List.append_assoc] at this

/-! ## Cmavo -/

theorem result_cmavos_inv {B : Generated} {cultural : Bool} {s : List Char} {i : Nat} {st : List Nat} {x : Xtra}
    (h : result B cultural s i = .ok ⟨.cmavos, st, x⟩) :
    upper (chars (backwards s)) = false ∧ x = .none ∧
      (((morfCert.cls i).exit = 22 ∧ st = (starts (backwards s)).reverse) ∨
       ((morfCert.cls i).exit = 23 ∧ st = (cstarts (backwards s) ++ starts (backwards s)).reverse)) := by
  obtain ⟨k1, k2, _, _⟩ := kind_words _ (exit_lt i)
  unfold result at h
  rw [classify_exitName] at h
  generalize kind (morfCert.cls i).exit = k at h k1 k2
  obtain ⟨w, d⟩ := k
  dsimp only at h k1 k2
  unfold finish small at h
  dsimp only at h
  cases hu : upper (chars (backwards s)) with
  | true =>
    exfalso
    rw [hu] at h
    cases w <;> simp at h
    case cmene => split at h <;> simp at h
  | false =>
    rw [hu] at h
    cases w <;> simp at h
    case cmavos => exact ⟨rfl, h.2.symm, Or.inl ⟨k1.1 rfl, h.1.symm⟩⟩
    case cmavosEndCy => exact ⟨rfl, h.2.symm, Or.inr ⟨k2.1 rfl, by rw [List.reverse_append]; exact h.1.symm⟩⟩
    case culturalLujvo => split at h <;> simp at h
    case cmene => split at h <;> simp at h

/-- If the scanner finds a series of cmavo, each of the pieces into which it divides the word is by
itself one cmavo. -/
theorem cmavos_split {M B : Generated} (hM : Tables M) {cultural : Bool} {s : List Char} (hs : s.length ≤ 65536)
    {st : List Nat} {x : Xtra} (h : morfScan M B cultural s = .ok ⟨.cmavos, st, x⟩) :
    x = .none ∧ ∃ ps, ps ≠ [] ∧ CutInto s st ps ∧ ∀ p ∈ ps, morfScan M B cultural p = .ok ⟨.cmavos, [0], .none⟩ := by
  have hscan := morfScan_eq (B := B) hM cultural s hs
  cases hi : node (chars (backwards s)) with
  | none =>
    rw [hi] at hscan
    obtain ⟨r, _, _, h3⟩ := hscan
    rw [h3] at h
    simp at h
  | some i =>
    rw [hi] at hscan
    simp only at hscan
    rw [hscan] at h
    obtain ⟨h1, h2, h3⟩ := result_cmavos_inv h
    obtain ⟨c1, c2, c3, c4⟩ := cmavo_pieces (backwards_noComma s) hi (h3.imp And.left And.left)
    have hst : st = (cstarts (backwards s) ++ starts (backwards s)).reverse := by
      rcases h3 with ⟨h3, h4⟩ | ⟨h3, h4⟩
      · rw [c4 h3, h4]; rfl
      · exact h4
    obtain ⟨lead, ps, g1, g2, g3, g4⟩ := cut_word _ s (divides_cuts _).1 (divides_cuts _).2
    refine ⟨h2, ps, ?_, ⟨lead, g1, g2, fun p hp => (g4 p hp).1, by rw [hst, ← c3, g3]⟩, ?_⟩
    · rintro rfl
      simp at g2
      subst g2
      exact c1 (backwards_nil.2 g1)
    · intro q hq
      obtain ⟨_, p, k1, n, k2⟩ := g4 q hq
      obtain ⟨m1, m2, m3⟩ := c2 p k1
      have hlen : q.length ≤ 65536 := by
        have := (List.sublist_flatten_of_mem hq).length_le
        have : s.length = lead.length + ps.flatten.length := by rw [g2, List.length_append]
        omega
      have hupq : upper (chars (backwards q)) = false := by
        have : upper (chars p) = false := by
          have hm : ∀ c ∈ chars p, c ∈ chars (backwards s) := by
            intro c hc
            rw [← (divides_cuts (backwards s)).2]
            unfold chars at hc ⊢
            obtain ⟨a, ha, rfl⟩ := List.mem_map.1 hc
            exact List.mem_map.2 ⟨a, List.mem_flatten.2 ⟨p, k1, ha⟩, rfl⟩
          unfold upper at h1 ⊢
          rw [List.any_eq_false] at h1 ⊢
          exact fun c hc => h1 c (hm c hc)
        rwa [k2, chars_mv] at this
      have hp := morfScan_eq (B := B) hM cultural q hlen
      rw [k2, chars_mv] at m1
      rw [k2, starts_mv, List.length_map] at m2
      rw [k2, cstarts_mv, List.map_eq_nil_iff] at m3
      cases hj : node (chars (backwards q)) with
      | none =>
        exfalso
        unfold nodeN at m1
        rw [hj] at m1
        simp [exitN] at m1
      | some j =>
        rw [hj] at hp
        simp only at hp
        rw [hp]
        unfold nodeN at m1
        rw [hj] at m1
        simp only [exitN, exitX_eq] at m1
        -- the only beginning is the first letter
        have h0 : starts (backwards q) = [0] := by
          obtain ⟨⟨c, t, e1, e2⟩, _⟩ := g4 q hq
          have : backwards q = (lettersAt 1 t).reverse ++ [(0, c)] := by
            unfold backwards
            rw [e1, lettersAt, if_neg e2, List.reverse_cons]
          rw [this] at m2 ⊢
          obtain ⟨y, hy⟩ := starts_first (lettersAt 1 t).reverse (0, c)
          rw [hy] at m2 ⊢
          cases y with
          | nil => rfl
          | cons z y => simp at m2
        unfold result
        rw [classify_exitName]
        have k22 : kind 22 = (.cmavos, false) := by decide +kernel
        have k23 : kind 23 = (.cmavosEndCy, false) := by decide +kernel
        rcases m1 with m1 | m1
        · rw [m1, k22]; simp only [finish, small, hupq, h0]; rfl
        · rw [m1, k23]; simp only [finish, small, hupq, h0, m3]; rfl

/-! ## Names -/

theorem low_backwards (s : List Char) : low (chars (backwards s)) = Bc.letters s := by
  have : ∀ k, chars (lettersAt k s) = s.filter (· ≠ ',') := by
    induction s with
    | nil => intro k; rfl
    | cons c s ih =>
      intro k
      rw [lettersAt]
      by_cases hc : c = ','
      · rw [if_pos hc, ih]; simp [hc]
      · rw [if_neg hc, chars_cons, ih]; simp [hc]
  unfold low Bc.letters backwards
  rw [← this 0]
  simp [chars, List.map_reverse]

theorem result_crash {B : Generated} {cultural : Bool} {s : List Char} {i : Nat} {e : Crash}
    (h : result B cultural s i = .error e) : (morfCert.cls i).exit = 21 ∧ Bc.isBadCmene B s = .error e := by
  obtain ⟨_, _, k3, _⟩ := kind_words _ (exit_lt i)
  unfold result at h
  rw [classify_exitName] at h
  generalize kind (morfCert.cls i).exit = k at h k3
  obtain ⟨w, d⟩ := k
  dsimp only at h k3
  unfold finish at h
  dsimp only at h
  cases w <;> simp at h
  case cmene =>
    refine ⟨k3.1 rfl, ?_⟩
    split at h
    · rename_i e' he
      injection h with h
      rw [he, h]
    · cases h

theorem shaped_not_double {s : List Char} (h : Bc.Shaped s) : ¬ DoubleY s := by
  rintro ⟨u, v, h1, h2⟩
  exact h.lone u 'y' v h1 h2 (Or.inr rfl)

theorem bad_errors {B : Generated} (hB : Bc.Tables B) {s : List Char} {e : Crash} (h : Bc.isBadCmene B s = .error e) :
    e = .uninit ∨ e = .bounds := by
  rw [Bc.isBadCmene_eq hB] at h
  have hl : ∀ (s : List Char) (pos : Nat) (a : Bc.A) (ns : Option Bc.A) (l : Option Nat) (e : Crash),
      Bc.aLoop s pos a ns l = .error e → e = .uninit ∨ e = .bounds := by
    intro s
    induction s with
    | nil => intro pos a ns l e h; simp [Bc.aLoop] at h
    | cons c s ih =>
      intro pos a ns l e h
      rw [Bc.aLoop] at h
      split at h
      · exact ih _ _ _ _ _ h
      · split at h
        · injection h with h; exact Or.inr h.symm
        · split at h
          · split at h
            · injection h with h; exact Or.inl h.symm
            · cases h
          · exact ih _ _ _ _ _ h
  unfold Bc.aBad at h
  split at h
  · rename_i e' he
    injection h with h
    subst h
    exact hl _ _ _ _ _ _ he
  · injection h with h; exact Or.inl h.symm
  · cases h

/-- **Safety**: the scanner reads and writes only what it may, for every word, unless the word has a lone
`y` with another `y` after it; then it can happen that the test for bad names reads in front of its table. -/
theorem scan_safe {M B : Generated} (hM : Tables M) (hB : Bc.Tables B) {cultural : Bool} {s : List Char}
    (hs : s.length ≤ 65536) {e : Crash} (h : morfScan M B cultural s = .error e) :
    e = .bounds ∧ DoubleY (Bc.letters s) := by
  have hscan := morfScan_eq (B := B) hM cultural s hs
  cases hi : node (chars (backwards s)) with
  | none =>
    rw [hi] at hscan
    obtain ⟨r, _, _, h3⟩ := hscan
    rw [h3] at h; cases h
  | some i =>
    rw [hi] at hscan
    simp only at hscan
    rw [hscan] at h
    obtain ⟨h1, h2⟩ := result_crash h
    have hshape := name_shape (backwards_noComma s) hi h1
    rw [low_backwards] at hshape
    have hne : Bc.letters s ≠ [] := by
      intro h0
      rw [h0] at hshape
      rcases hshape with ⟨_, u, c, hu, _⟩ | ⟨u, v, hu, _⟩ <;> simp at hu
    have hsays := (Bc.bad_cmene_exact hB s _).1 rfl
    rw [h2] at hsays
    rcases bad_errors hB h2 with rfl | rfl
    · exfalso
      change Bc.Says s .unset at hsays
      cases hsays with
      | nothing h => exact hne h
    · refine ⟨rfl, ?_⟩
      change Bc.Says s .outside at hsays
      cases hsays with
      | shapeless p p1 p2 p3 =>
        rcases hshape with ⟨h3, _⟩ | h3
        · exact absurd (Bc.shaped_prefix h3 p1) p2
        · exact h3

theorem result_cmene_inv {B : Generated} {cultural : Bool} {s : List Char} {i : Nat} {st : List Nat} {x : Xtra}
    (h : result B cultural s i = .ok ⟨.cmene, st, x⟩) :
    (morfCert.cls i).exit = 21 ∧ ∃ a, Bc.isBadCmene B s = .ok a ∧ x = .cmene a ∧
      st = (starts (backwards s)).reverse.take 1 := by
  obtain ⟨_, _, k3, _⟩ := kind_words _ (exit_lt i)
  unfold result at h
  rw [classify_exitName] at h
  generalize kind (morfCert.cls i).exit = k at h k3
  obtain ⟨w, d⟩ := k
  dsimp only at h k3
  unfold finish small at h
  dsimp only at h
  cases w <;> simp at h
  case cmene =>
    refine ⟨k3.1 rfl, ?_⟩
    split at h
    · cases h
    · rename_i a ha
      injection h with h
      simp only [Result.mk.injEq, true_and] at h
      exact ⟨a, ha, h.2.symm, h.1.symm⟩
  all_goals exact absurd h.1 (by split <;> (try split) <;> simp)

/-- If the scanner finds a name, it reports one beginning and the answer of the test for bad names; and a
name that is bad is bad because of a trap, so that the two pointers are set. -/
theorem name_answer {M B : Generated} (hM : Tables M) (hB : Bc.Tables B) {cultural : Bool} {s : List Char}
    (hs : s.length ≤ 65536) {st : List Nat} {x : Xtra} (h : morfScan M B cultural s = .ok ⟨.cmene, st, x⟩) :
    st.length = 1 ∧ ∃ a, x = .cmene a ∧ Bc.isBadCmene B s = .ok a ∧ (a.bad = true ↔ a.found.isSome = true) ∧
      (a.bad = false → Bc.EndsInConsonant (Bc.letters s)) := by
  have hscan := morfScan_eq (B := B) hM cultural s hs
  cases hi : node (chars (backwards s)) with
  | none =>
    rw [hi] at hscan
    obtain ⟨r, _, _, h3⟩ := hscan
    rw [h3] at h; simp at h
  | some i =>
    rw [hi] at hscan
    simp only at hscan
    rw [hscan] at h
    obtain ⟨h1, a, h2, h3, h4⟩ := result_cmene_inv h
    have hshape := name_shape (backwards_noComma s) hi h1
    rw [low_backwards] at hshape
    have hsays := (Bc.bad_cmene_exact hB s _).1 rfl
    rw [h2] at hsays
    have hne : backwards s ≠ [] := by
      intro h0
      rw [h0] at hi
      have : i = 0 := (Option.some.inj hi).symm
      subst this
      have : (morfCert.cls 0).exit = 0 := rfl
      rw [this] at h1; cases h1
    refine ⟨?_, a, h3, h2, ?_, ?_⟩
    · rw [h4]
      rcases List.eq_nil_or_concat (backwards s) with h0 | ⟨x, b, h0⟩
      · exact absurd h0 hne
      · rw [h0, List.concat_eq_append]
        obtain ⟨y, hy⟩ := starts_first x b
        rw [hy]
        simp
    · obtain ⟨bad, cut, found⟩ := a
      change Bc.Says s (.says bad cut found) at hsays
      cases hsays with
      | cut => simp
      | weak => simp
      | good => simp
      | noEnd n1 n2 n3 n4 =>
        exfalso
        rcases hshape with ⟨_, hc⟩ | hd
        · exact n4 hc
        · exact shaped_not_double n2 hd
    · obtain ⟨bad, cut, found⟩ := a
      change Bc.Says s (.says bad cut found) at hsays
      rintro rfl
      cases hsays with
      | good _ _ h => exact h

/-! ## Words -/

/-- The answer for a word, without the generated tables (if the automaton does not get stuck). -/
def known (cultural : Bool) (s : List Char) : Option (Except Crash Result) :=
  match node (chars (backwards s)) with
  | none => none
  | some i =>
    if (kind (morfCert.cls i).exit).1 = .cmene then
      some (match Bc.aBad s with
        | .error x => .error x
        | .ok a => .ok ⟨.cmene, (starts (backwards s)).reverse.take 1, .cmene a⟩)
    else some (result (generate default default 0 []) cultural s i)

theorem known_scan {M B : Generated} (hM : Tables M) (hB : Bc.Tables B) {cultural : Bool} {s : List Char}
    (hs : s.length ≤ 65536) {r : Except Crash Result} (h : known cultural s = some r) : morfScan M B cultural s = r := by
  have hscan := morfScan_eq (B := B) hM cultural s hs
  unfold known at h
  cases hi : node (chars (backwards s)) with
  | none => rw [hi] at h; cases h
  | some i =>
    rw [hi] at hscan h
    simp only at hscan h
    rw [hscan]
    unfold result at h ⊢
    rw [classify_exitName] at h ⊢
    generalize kind (morfCert.cls i).exit = k at h
    obtain ⟨w, d⟩ := k
    dsimp only at h ⊢
    split at h
    · rename_i hw
      subst hw
      simp only [finish, Bc.isBadCmene_eq hB]
      exact Option.some.inj h
    · rename_i hw
      have h := Option.some.inj h
      rw [← h]
      cases w <;> first | rfl | exact absurd rfl hw

/-- A word at which the automaton gets stuck is nothing. -/
theorem stuck_scan {M B : Generated} (hM : Tables M) {cultural : Bool} {s : List Char}
    (hs : s.length ≤ 65536) (h : node (chars (backwards s)) = none) :
    ∃ st, morfScan M B cultural s = .ok ⟨.bogus, st, .none⟩ := by
  have hscan := morfScan_eq (B := B) hM cultural s hs
  rw [h] at hscan
  obtain ⟨r, _, _, h3⟩ := hscan
  exact ⟨_, h3⟩

/-- There are tables, so the theorems speak about something. -/
example : (∃ M, Tables M) ∧ ∃ B, Bc.Tables B := by
  constructor
  · obtain ⟨a, start, nodes, h1, h2⟩ := tables_exist insertionSorter false
    exact ⟨_, _, _, _, _, _, h1, h2.1, rfl⟩
  · obtain ⟨a, start, nodes, h1, h2⟩ := Bc.tables_exist insertionSorter false
    exact ⟨_, _, _, _, _, _, h1, h2, rfl⟩

/-- Series of cmavo, brivla with cmavo before them, a name; the hyphen of a borrowed word. -/
example {M B : Generated} (hM : Tables M) (hB : Bc.Tables B) :
    morfScan M B false "lenu".toList = .ok ⟨.cmavos, [0, 2], .none⟩ ∧
    morfScan M B false ",,lenuby".toList = .ok ⟨.cmavos, [2, 4, 6], .none⟩ ∧
    morfScan M B false "lemlatu".toList = .ok ⟨.gismu, [0, 2], .none⟩ ∧
    morfScan M B false "lojbo".toList = .ok ⟨.gismu, [0], .none⟩ ∧
    morfScan M B false "mi,jbobau".toList = .ok ⟨.lujvo, [0, 3], .none⟩ ∧
    morfScan M B false "lecidjrspageti".toList = .ok ⟨.fuivla3, [0, 2], .stage3 (some 6)⟩ ∧
    morfScan M B false "Djan".toList = .ok ⟨.cmene, [0], .cmene ⟨false, false, none⟩⟩ ∧
    morfScan M B false "doladjan".toList = .ok ⟨.cmene, [0], .cmene ⟨true, true, some (2, 4)⟩⟩ := by
  refine ⟨?_, ?_, ?_, ?_, ?_, ?_, ?_, ?_⟩ <;> exact known_scan hM hB (by decide) (by decide +kernel)

/-- **Defect**: for `byyn` the scanner reads in front of a table. -/
theorem byyn_crashes {M B : Generated} (hM : Tables M) (hB : Bc.Tables B) (cultural : Bool) :
    morfScan M B cultural "byyn".toList = .error .bounds ∧ DoubleY (Bc.letters "byyn".toList) := by
  refine ⟨?_, ['b'], ['n'], by decide, Or.inr ⟨[], 'b', rfl, by decide⟩⟩
  exact known_scan hM hB (by decide) (by revert cultural; decide +kernel)

/-- **Defect**: for a word without letters there is no beginning at all, so that `*buf_end` points in front
of the array. -/
theorem no_letters_no_start {M B : Generated} (hM : Tables M) {cultural : Bool} {s : List Char}
    (hs : s.length ≤ 65536) (h : Silent s) : morfScan M B cultural s = .ok ⟨.bogus, [], .none⟩ := by
  have hscan := morfScan_eq (B := B) hM cultural s hs
  have h0 := backwards_nil.2 h
  have hn : node (chars (backwards s)) = some 0 := by rw [h0]; rfl
  rw [hn] at hscan
  rw [hscan]
  unfold result
  rw [h0, classify_exitName, show kind (morfCert.cls 0).exit = (.unknown, false) from by decide +kernel]
  rfl

end Jbo.Morf
