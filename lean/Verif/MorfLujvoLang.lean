import Verif.MorfLujvoNfa
/-!
# The automaton accepts exactly the lujvo
-/

namespace Jbo.Lujvo.Nfa
open Jbo.Lujvo.Spec

variable {p x a b c d e : Char} {t w u v : List Char}

theorem k1n_iff : Acc .k1n c d t ↔ Acc .k1 c d t ∧ ∀ e t', t = e :: t' → [c, d, e] ∉ badTriples := by
  cases t with
  | nil => simp [Acc, final]
  | cons e t =>
    rw [acc_k1n, acc_k1]
    constructor
    · rintro (⟨h1, h2⟩ | ⟨⟨h1, h2⟩, h3⟩)
      · refine ⟨Or.inl ⟨h1, h2⟩, ?_⟩
        rintro e' t' he hb
        simp only [List.cons.injEq] at he
        obtain ⟨rfl, rfl⟩ := he
        exact (cNotV (bad_C hb).2.2.1) h1
      · refine ⟨Or.inr ⟨h1, h3⟩, ?_⟩
        rintro e' t' he hb
        simp only [List.cons.injEq] at he
        obtain ⟨rfl, rfl⟩ := he
        exact h2 hb
    · rintro ⟨⟨h1, h2⟩ | ⟨h1, h2⟩, h3⟩
      · exact Or.inl ⟨h1, h2⟩
      · exact Or.inr ⟨⟨h1, h3 _ _ rfl⟩, h2⟩

theorem k1b_iff : Acc .k1b c d t ↔ Acc .k1 c d t ∧ ∃ e t', t = e :: t' ∧ [c, d, e] ∈ badTriples := by
  cases t with
  | nil => simp [Acc, final]
  | cons e t =>
    rw [acc_k1b, acc_k1]
    constructor
    · rintro ⟨h1, h2⟩
      exact ⟨Or.inr ⟨(bad_C h1).2.2.2.1, h2⟩, e, t, rfl, h1⟩
    · rintro ⟨⟨h1, h2⟩ | ⟨h1, h2⟩, e', t', he, h3⟩ <;> simp only [List.cons.injEq] at he <;> obtain ⟨rfl, rfl⟩ := he
      · exact absurd h1 (cNotV (bad_C h3).2.2.1)
      · exact ⟨h3, h2⟩

/-- Only the first letter needs to be looked at. -/
theorem tail_any {p' x' : Char} (h : Acc .tail p x t) : Acc .tail p' x' t := by
  cases t with
  | nil => simp [Acc, final] at h
  | cons c t =>
    rw [acc_tail] at h ⊢
    refine ⟨h.1, ?_⟩
    cases t with
    | nil => simp [Acc, final] at h
    | cons d t => rw [acc_k1] at h ⊢; exact h.2

/-- What joins. -/
theorem join_iff : (∃ d t', t = d :: t' ∧ (C d ∧ Medial c d) ∧ Acc .k1n c d t') ↔ Acc .tail p x t ∧ Joins c t := by
  constructor
  · rintro ⟨d, t', rfl, ⟨h1, h2⟩, h3⟩
    obtain ⟨h4, h5⟩ := k1n_iff.1 h3
    have h6 : Acc .tail p c (d :: t') := acc_tail.2 ⟨h1, h4⟩
    refine ⟨tail_any h6, ?_⟩
    cases t' with
    | nil => simp [Acc, final] at h4
    | cons e t' => exact ⟨h2, h5 _ _ rfl⟩
  · rintro ⟨h1, h2⟩
    match t, h2 with
    | d :: e :: t', ⟨h2, h3⟩ =>
      obtain ⟨h4, h5⟩ := acc_tail.1 (tail_any (p' := p) (x' := c) h1)
      refine ⟨d, e :: t', rfl, ⟨h4, h2⟩, k1n_iff.2 ⟨h5, ?_⟩⟩
      rintro e' t'' he
      simp only [List.cons.injEq] at he
      obtain ⟨rfl, rfl⟩ := he
      exact h3

theorem sep_iff : Acc .sep p c t ↔ Acc .tail p x t ∧ ¬ Joins c t := by
  cases t with
  | nil => simp [Acc, final]
  | cons d t =>
    rw [acc_sep]
    constructor
    · rintro (⟨⟨h1, h2⟩, h3⟩ | ⟨⟨h1, h2⟩, h3⟩)
      · refine ⟨tail_any (acc_tail.2 ⟨h1, h3⟩ : Acc .tail p c _), ?_⟩
        intro hj
        cases t with
        | nil => exact hj
        | cons e t => exact h2 hj.1
      · obtain ⟨h4, e, t', rfl, h5⟩ := k1b_iff.1 h3
        exact ⟨tail_any (acc_tail.2 ⟨h1, h4⟩ : Acc .tail p c _), fun hj => hj.2 h5⟩
    · rintro ⟨h1, h2⟩
      obtain ⟨h3, h4⟩ := acc_tail.1 (tail_any (p' := p) (x' := c) h1)
      by_cases hm : Medial c d
      · refine Or.inr ⟨⟨h3, hm⟩, k1b_iff.2 ⟨h4, ?_⟩⟩
        cases t with
        | nil => simp [Acc, final] at h4
        | cons e t =>
          refine ⟨e, t, rfl, ?_⟩
          by_cases hb : [c, d, e] ∈ badTriples
          · exact hb
          · exact absurd ⟨hm, hb⟩ h2
      · exact Or.inl ⟨⟨h3, hm⟩, h4⟩

theorem cNeApos (h : C c) : c ≠ '\'' := by rintro rfl; exact notC_apos h
theorem vNotC (h : V c) : ¬ C c := fun h' => (cNotV h') h

/-- The part after the first component is accepted. -/
theorem tail_acc {n : Nat} (h : Tail true n w) : Flows w → Acc .tail p x w := by
  induction h generalizing p x with
  | cvccv h =>
    intro hf
    obtain ⟨a, b, c, d, e, rfl, h1, h2, h3, h4, h5, h6⟩ := rafsi_cvccv.1 h
    exact acc_tail.2 ⟨h1, acc_k1.2 (.inl ⟨h2, acc_cv.2 (.inl ⟨h3, acc_cvc.2 (.inl ⟨⟨h4, h6⟩,
      .inl (acc_cvcc.2 (.inl ⟨h5, acc_acc.2 rfl⟩))⟩)⟩)⟩)⟩
  | @ccvcv a b w h h1 h2 =>
    intro hf
    obtain ⟨_, _, c, d, e, he, g1, g2, g3, g4, g5, g6⟩ := rafsi_ccvcv.1 (⟨h, h2 rfl⟩ : Rafsi .ccvcv (a :: b :: w))
    simp only [List.cons.injEq] at he
    obtain ⟨rfl, rfl, rfl⟩ := he
    exact acc_tail.2 ⟨g1, acc_k1.2 (.inr ⟨g6, acc_k2.2 ⟨g3, acc_ccv.2 ⟨g4, .inr (acc_ccvc.2 (.inl ⟨g5, acc_acc.2 rfl⟩))⟩⟩⟩)⟩
  | cvv h =>
    intro hf
    obtain ⟨a, b, c, rfl, h1, h2, h3⟩ := rafsi_cvv.1 h
    exact acc_tail.2 ⟨h1, acc_k1.2 (.inl ⟨h2, acc_cv.2 (.inr (.inl ⟨(flows_cons.1 (flows_cons.1 hf).2).1 h2 h3, rfl⟩))⟩)⟩
  | cvhv h =>
    intro hf
    obtain ⟨a, b, c, rfl, h1, h2, h3⟩ := rafsi_cvhv.1 h
    exact acc_tail.2 ⟨h1, acc_k1.2 (.inl ⟨h2, acc_cv.2 (.inr (.inr ⟨rfl, acc_cvh.2 ⟨h3, rfl⟩⟩))⟩)⟩
  | ccv h =>
    intro hf
    obtain ⟨a, b, c, rfl, h1, h2, h3, h4⟩ := rafsi_ccv.1 h
    exact acc_tail.2 ⟨h1, acc_k1.2 (.inr ⟨h4, acc_k2.2 ⟨h3, rfl⟩⟩)⟩
  | @cvccy w t n h ht ih =>
    intro hf
    obtain ⟨a, b, c, d, rfl, h1, h2, h3, h4, h5⟩ := rafsi_cvcc.1 h
    have hf' : Flows t := flows_suffix (u := [a, b, c, d, 'y']) hf
    exact acc_tail.2 ⟨h1, acc_k1.2 (.inl ⟨h2, acc_cv.2 (.inl ⟨h3, acc_cvc.2 (.inl ⟨⟨h4, h5⟩,
      .inl (acc_cvcc.2 (.inr ⟨rfl, ih hf'⟩))⟩)⟩)⟩)⟩
  | @ccvcy w t n h ht ih =>
    intro hf
    obtain ⟨a, b, c, d, rfl, h1, h2, h3, h4, h5⟩ := rafsi_ccvc.1 h
    have hf' : Flows t := flows_suffix (u := [a, b, c, d, 'y']) hf
    exact acc_tail.2 ⟨h1, acc_k1.2 (.inr ⟨h5, acc_k2.2 ⟨h3, acc_ccv.2 ⟨h4, .inr (acc_ccvc.2 (.inr ⟨rfl, ih hf'⟩))⟩⟩⟩)⟩
  | @cvcJoin a b c t n h1 h2 h3 ht hj ih =>
    intro hf
    have hf' : Flows t := flows_suffix (u := [a, b, c]) hf
    obtain ⟨d, t', rfl, h4, h5⟩ := join_iff.2 ⟨ih (p := p) (x := x) hf', hj⟩
    exact acc_tail.2 ⟨h1, acc_k1.2 (.inl ⟨h2, acc_cv.2 (.inl ⟨h3, acc_cvc.2 (.inl ⟨h4, .inr h5⟩)⟩)⟩)⟩
  | @cvcy a b c t n h1 h2 h3 ht hj ih =>
    intro hf
    have hf' : Flows t := flows_suffix (u := [a, b, c, 'y']) hf
    exact acc_tail.2 ⟨h1, acc_k1.2 (.inl ⟨h2, acc_cv.2 (.inl ⟨h3, acc_cvc.2 (.inr ⟨rfl,
      (sep_iff (x := x)).2 ⟨ih hf', hj⟩⟩)⟩)⟩)⟩
  | @cvvMore w t n h ht ih =>
    intro hf
    obtain ⟨a, b, c, rfl, h1, h2, h3⟩ := rafsi_cvv.1 h
    have hf' : Flows t := flows_suffix (u := [a, b, c]) hf
    have hd := (flows_cons.1 (flows_cons.1 hf).2).1 h2 h3
    have := ih (p := b) (x := c) hf'
    cases t with
    | nil => simp [Acc, final] at this
    | cons d t =>
      exact acc_tail.2 ⟨h1, acc_k1.2 (.inl ⟨h2, acc_cv.2 (.inr (.inl ⟨hd, acc_fin.2 (acc_tail.1 this)⟩))⟩)⟩
  | @cvhvMore w t n h ht ih =>
    intro hf
    obtain ⟨a, b, c, rfl, h1, h2, h3⟩ := rafsi_cvhv.1 h
    have hf' : Flows t := flows_suffix (u := [a, b, '\'', c]) hf
    have := ih (p := b) (x := c) hf'
    cases t with
    | nil => simp [Acc, final] at this
    | cons d t =>
      exact acc_tail.2 ⟨h1, acc_k1.2 (.inl ⟨h2, acc_cv.2 (.inr (.inr ⟨rfl, acc_cvh.2 ⟨h3,
        acc_fin.2 (acc_tail.1 this)⟩⟩))⟩)⟩
  | @ccvMore w t n h ht ih =>
    intro hf
    obtain ⟨a, b, c, rfl, h1, h2, h3, h4⟩ := rafsi_ccv.1 h
    have hf' : Flows t := flows_suffix (u := [a, b, c]) hf
    have := ih (p := b) (x := c) hf'
    cases t with
    | nil => simp [Acc, final] at this
    | cons d t =>
      obtain ⟨h5, h6⟩ := acc_tail.1 this
      exact acc_tail.2 ⟨h1, acc_k1.2 (.inr ⟨h4, acc_k2.2 ⟨h3, acc_ccv.2 ⟨h5, .inl h6⟩⟩⟩)⟩

/-- A part of a lujvo with its diphthongs. -/
def Good (w : List Char) : Prop := (∃ n, Tail true n w) ∧ Flows w

theorem not_nil {q : Item} (hq : final q = false) (h : Acc q p x w) : ∃ c t, w = c :: t := by
  cases w with
  | nil => simp [Acc, hq] at h
  | cons c t => exact ⟨c, t, rfl⟩

theorem acc_good : ∀ (k : Nat) (w : List Char), w.length ≤ k → ∀ p x, Acc .tail p x w → Good w := by
  intro k
  induction k with
  | zero =>
    intro w hw p x h
    obtain ⟨c, t, rfl⟩ := not_nil rfl h
    simp at hw
  | succ k ih =>
    intro w hw p x h
    obtain ⟨a, w, rfl⟩ := not_nil rfl h
    obtain ⟨h1, h2⟩ := acc_tail.1 h
    obtain ⟨b, w, rfl⟩ := not_nil rfl h2
    simp only [List.length_cons] at hw
    rcases acc_k1.1 h2 with ⟨h3, h4⟩ | ⟨h3, h4⟩
    · obtain ⟨c, w, rfl⟩ := not_nil rfl h4
      simp only [List.length_cons] at hw
      rcases acc_cv.1 h4 with ⟨h5, h6⟩ | ⟨h5, h6⟩ | ⟨h5, h6⟩
      · -- CVC
        have hfl : ∀ {t}, Flows t → Flows (a :: b :: c :: t) := fun h =>
          (flows_notV (cNotV h1)).2 ((flows_V_notV (cNotV h5)).2 h)
        obtain ⟨d, w, rfl⟩ := not_nil rfl h6
        simp only [List.length_cons] at hw
        rcases acc_cvc.1 h6 with ⟨⟨h7, h8⟩, h9 | h9⟩ | ⟨h7, h8⟩
        · obtain ⟨e, w, rfl⟩ := not_nil rfl h9
          simp only [List.length_cons] at hw
          rcases acc_cvcc.1 h9 with ⟨h10, h11⟩ | ⟨h10, h11⟩
          · have := acc_acc.1 h11
            subst this
            exact ⟨⟨1, .cvccv (rafsi_cvccv.2 ⟨a, b, c, d, e, rfl, h1, h3, h5, h7, h10, h8⟩)⟩,
              hfl ((flows_notV (cNotV h7)).2 flows_one)⟩
          · subst h10
            obtain ⟨⟨n, hn⟩, hf⟩ := ih w (by omega) _ _ h11
            exact ⟨⟨n + 1, .cvccy (w := [a, b, c, d]) (rafsi_cvcc.2 ⟨a, b, c, d, rfl, h1, h3, h5, h7, h8⟩) hn⟩,
              hfl ((flows_notV (cNotV h7)).2 ((flows_notV notV_y).2 hf))⟩
        · obtain ⟨h10, h11⟩ := (join_iff (p := b) (x := c)).1 ⟨d, w, rfl, ⟨h7, h8⟩, h9⟩
          obtain ⟨⟨n, hn⟩, hf⟩ := ih (d :: w) (by simp only [List.length_cons]; omega) _ _ h10
          exact ⟨⟨n + 1, .cvcJoin h1 h3 h5 hn h11⟩, hfl hf⟩
        · subst h7
          obtain ⟨h10, h11⟩ := (sep_iff (x := c)).1 h8
          obtain ⟨⟨n, hn⟩, hf⟩ := ih w (by omega) _ _ h10
          exact ⟨⟨n + 1, .cvcy h1 h3 h5 hn h11⟩, hfl ((flows_notV notV_y).2 hf)⟩
      · -- CVV
        have hV := (dip_V h5).2
        have hraf : Rafsi .cvv [a, b, c] := rafsi_cvv.2 ⟨a, b, c, rfl, h1, h3, hV⟩
        cases w with
        | nil =>
          exact ⟨⟨1, .cvv hraf⟩, (flows_notV (cNotV h1)).2 (flows_cons.2 ⟨fun _ _ => h5, flows_one⟩)⟩
        | cons d w =>
          have h7 := acc_fin.1 h6
          obtain ⟨⟨n, hn⟩, hf⟩ := ih (d :: w) (by simp only [List.length_cons] at hw ⊢; omega) c c (acc_tail.2 h7)
          refine ⟨⟨n + 1, .cvvMore hraf hn⟩, (flows_notV (cNotV h1)).2 (flows_cons.2 ⟨fun _ _ => h5, ?_⟩)⟩
          exact flows_cons.2 ⟨fun _ hv => absurd hv (cNotV h7.1), hf⟩
      · -- CV'V
        subst h5
        obtain ⟨c, w, rfl⟩ := not_nil rfl h6
        simp only [List.length_cons] at hw
        obtain ⟨h7, h8⟩ := acc_cvh.1 h6
        have hraf : Rafsi .cvhv [a, b, '\'', c] := rafsi_cvhv.2 ⟨a, b, c, rfl, h1, h3, h7⟩
        have hfl : ∀ {t}, Flows t → Flows (a :: b :: '\'' :: t) := fun h =>
          (flows_notV (cNotV h1)).2 ((flows_V_notV notV_apos).2 h)
        cases w with
        | nil => exact ⟨⟨1, .cvhv hraf⟩, hfl flows_one⟩
        | cons d w =>
          have h9 := acc_fin.1 h8
          obtain ⟨⟨n, hn⟩, hf⟩ := ih (d :: w) (by simp only [List.length_cons] at hw ⊢; omega) c c (acc_tail.2 h9)
          refine ⟨⟨n + 1, .cvhvMore hraf hn⟩, hfl (flows_cons.2 ⟨fun _ hv => absurd hv (cNotV h9.1), hf⟩)⟩
    · obtain ⟨c, w, rfl⟩ := not_nil rfl h4
      simp only [List.length_cons] at hw
      obtain ⟨h5, h6⟩ := acc_k2.1 h4
      have hb := (ini_C h3).2
      have hraf : Rafsi .ccv [a, b, c] := rafsi_ccv.2 ⟨a, b, c, rfl, h1, hb, h5, h3⟩
      have hfl : ∀ {t}, Flows (c :: t) → Flows (a :: b :: c :: t) := fun h =>
        (flows_notV (cNotV h1)).2 ((flows_notV (cNotV hb)).2 h)
      cases w with
      | nil => exact ⟨⟨1, .ccv hraf⟩, hfl flows_one⟩
      | cons d w =>
        obtain ⟨h7, h8⟩ := acc_ccv.1 h6
        rcases h8 with h8 | h8
        · obtain ⟨⟨n, hn⟩, hf⟩ := ih (d :: w) (by simp only [List.length_cons] at hw ⊢; omega) c c (acc_tail.2 ⟨h7, h8⟩)
          exact ⟨⟨n + 1, .ccvMore hraf hn⟩, hfl (flows_cons.2 ⟨fun _ hv => absurd hv (cNotV h7), hf⟩)⟩
        · obtain ⟨e, w, rfl⟩ := not_nil rfl h8
          simp only [List.length_cons] at hw
          rcases acc_ccvc.1 h8 with ⟨h10, h11⟩ | ⟨h10, h11⟩
          · have := acc_acc.1 h11
            subst this
            refine ⟨⟨1, .ccvcv ⟨h1, hb, h5, h7, h10⟩ (ini_medial h3) (fun _ => h3)⟩, hfl ((flows_V_notV (cNotV h7)).2 flows_one)⟩
          · subst h10
            obtain ⟨⟨n, hn⟩, hf⟩ := ih w (by omega) _ _ h11
            refine ⟨⟨n + 1, .ccvcy (w := [a, b, c, d]) (rafsi_ccvc.2 ⟨a, b, c, d, rfl, h1, hb, h5, h7, h3⟩) hn⟩, ?_⟩
            exact hfl ((flows_V_notV (cNotV h7)).2 ((flows_notV notV_y).2 hf))

theorem tail_iff : Acc .tail p x w ↔ Good w :=
  ⟨acc_good _ w (Nat.le_refl _) p x, fun ⟨⟨_, h⟩, hf⟩ => tail_acc h hf⟩

theorem good_first (h : Good w) : ∃ d t, w = d :: t ∧ C d := by
  have h := (tail_iff (p := 'a') (x := 'a')).2 h
  obtain ⟨d, t, rfl⟩ := not_nil rfl h
  exact ⟨d, t, rfl, (acc_tail.1 h).1⟩

theorem flows_good (h : Good t) : Flows (c :: t) := by
  obtain ⟨d, t, rfl, hd⟩ := good_first h
  exact flows_cons.2 ⟨fun _ hv => absurd hv (cNotV hd), h.2⟩

/-- What follows CCV: nothing, or more of the word. -/
theorem more_iff : (Acc .k1 x d t ∨ Acc .xc x d t) ∧ C d ↔
    Good (d :: t) ∨ ∃ t', C d ∧ t = 'y' :: t' ∧ Good t' := by
  constructor
  · rintro ⟨h | h, hd⟩
    · exact .inl (tail_iff.1 (acc_tail.2 ⟨hd, h⟩ : Acc .tail x x _))
    · obtain ⟨y, t', rfl⟩ := not_nil rfl h
      obtain ⟨rfl, h'⟩ := acc_xc.1 h
      exact .inr ⟨t', hd, rfl, tail_iff.1 h'⟩
  · rintro (h | ⟨t', hd, rfl, h⟩)
    · obtain ⟨h1, h2⟩ := acc_tail.1 ((tail_iff (p := x) (x := x)).2 h)
      exact ⟨.inl h2, h1⟩
    · exact ⟨.inr (acc_xc.2 ⟨rfl, tail_iff.2 h⟩), hd⟩

/-- The lujvo that begin with two consonants, letter by letter. -/
theorem cc_cases : CcLujvo true w ∧ Flows w ↔ ∃ a b c t, w = a :: b :: c :: t ∧ Initial a b ∧ V c ∧
    (t = [] ∨ Good t ∨ ∃ d t', C d ∧ t = d :: 'y' :: t' ∧ Good t') := by
  constructor
  · rintro ⟨h, hf⟩
    cases h with
    | single h =>
      obtain ⟨a, b, c, rfl, h1, h2, h3, h4⟩ := rafsi_ccv.1 h
      exact ⟨a, b, c, [], rfl, h4, h3, .inl rfl⟩
    | @ccv w t n h ht =>
      obtain ⟨a, b, c, rfl, h1, h2, h3, h4⟩ := rafsi_ccv.1 h
      exact ⟨a, b, c, t, rfl, h4, h3, .inr (.inl ⟨⟨n, ht⟩, flows_suffix (u := [a, b, c]) hf⟩)⟩
    | @ccvcy w t n h ht =>
      obtain ⟨a, b, c, d, rfl, h1, h2, h3, h4, h5⟩ := rafsi_ccvc.1 h
      exact ⟨a, b, c, d :: 'y' :: t, rfl, h5, h3, .inr (.inr ⟨d, t, h4, rfl, ⟨n, ht⟩,
        flows_suffix (u := [a, b, c, d, 'y']) hf⟩)⟩
  · rintro ⟨a, b, c, t, rfl, h1, h2, h3⟩
    obtain ⟨ha, hb⟩ := ini_C h1
    have hraf : Rafsi .ccv [a, b, c] := rafsi_ccv.2 ⟨a, b, c, rfl, ha, hb, h2, h1⟩
    have hfl : Flows (c :: t) → Flows (a :: b :: c :: t) := fun h =>
      (flows_notV (cNotV ha)).2 ((flows_notV (cNotV hb)).2 h)
    rcases h3 with rfl | h3 | ⟨d, t', h3, rfl, h4⟩
    · exact ⟨.single hraf, hfl flows_one⟩
    · have hf := flows_good (c := c) h3
      obtain ⟨⟨n, hn⟩, _⟩ := h3
      exact ⟨.ccv hraf hn, hfl hf⟩
    · obtain ⟨⟨n, hn⟩, hf⟩ := h4
      exact ⟨.ccvcy (w := [a, b, c, d]) (rafsi_ccvc.2 ⟨a, b, c, d, rfl, ha, hb, h2, h3, h1⟩) hn,
        hfl ((flows_V_notV (cNotV h3)).2 ((flows_notV notV_y).2 hf))⟩

theorem x1_iff : Acc .x1 p a w ↔ CcLujvo true (a :: w) ∧ Flows (a :: w) := by
  rw [cc_cases]
  constructor
  · intro h
    obtain ⟨b, w, rfl⟩ := not_nil rfl h
    obtain ⟨h1, h⟩ := acc_x1.1 h
    obtain ⟨c, w, rfl⟩ := not_nil rfl h
    obtain ⟨h2, h⟩ := acc_x2.1 h
    refine ⟨a, b, c, w, rfl, h1, h2, ?_⟩
    cases w with
    | nil => exact .inl rfl
    | cons d t =>
      obtain ⟨h3, h4⟩ := acc_xv.1 h
      rcases more_iff.1 ⟨h4, h3⟩ with h5 | ⟨t', h5, rfl, h6⟩
      · exact .inr (.inl h5)
      · exact .inr (.inr ⟨d, t', h5, rfl, h6⟩)
  · rintro ⟨a', b, c, t, he, h1, h2, h3⟩
    simp only [List.cons.injEq] at he
    obtain ⟨rfl, rfl⟩ := he
    refine acc_x1.2 ⟨h1, acc_x2.2 ⟨h2, ?_⟩⟩
    rcases h3 with rfl | h3 | ⟨d, t', h3, rfl, h4⟩
    · rfl
    · obtain ⟨d, t, rfl, _⟩ := good_first h3
      exact acc_xv.2 (and_comm.1 (more_iff.2 (.inl h3)))
    · exact acc_xv.2 (and_comm.1 (more_iff.2 (.inr ⟨t', h3, rfl, h4⟩)))

/-- The same for a whole word; CCV alone is left out. -/
theorem xa2_iff : C a → (V b ∧ Acc .xav x b t ↔ ∃ d t', t = d :: t' ∧ V b ∧
    (Good (d :: t') ∨ ∃ t'', C d ∧ t' = 'y' :: t'' ∧ Good t'')) := by
  intro _
  constructor
  · rintro ⟨h1, h2⟩
    obtain ⟨d, t, rfl⟩ := not_nil rfl h2
    obtain ⟨h3, h4⟩ := acc_xav.1 h2
    exact ⟨d, t, rfl, h1, more_iff.1 ⟨h4, h3⟩⟩
  · rintro ⟨d, t', rfl, h1, h2⟩
    exact ⟨h1, acc_xav.2 (and_comm.1 (more_iff.2 h2))⟩

/-! ## After a hyphen -/

theorem h1_iff : C d → (Acc .h1 p d t ↔ Good (d :: t) ∧ ¬ Rafsi .ccv (d :: t)) := by
  intro hd
  have hg : Good (d :: t) ↔ Acc .k1 p d t := by
    rw [← tail_iff (p := p) (x := p), acc_tail]; exact ⟨fun h => h.2, fun h => ⟨hd, h⟩⟩
  rw [hg]
  cases t with
  | nil => simp [Acc, final]
  | cons a t =>
    rw [acc_h1, acc_k1]
    constructor
    · rintro (⟨h1, h2⟩ | ⟨h1, h2⟩)
      · refine ⟨.inl ⟨h1, h2⟩, fun h => ?_⟩
        obtain ⟨_, _, _, he, _, h3, _⟩ := rafsi_ccv.1 h
        simp only [List.cons.injEq] at he
        obtain ⟨_, rfl, _⟩ := he
        exact cNotV h3 h1
      · obtain ⟨b, t, rfl⟩ := not_nil rfl h2
        obtain ⟨h3, h4⟩ := acc_h2.1 h2
        obtain ⟨c, t, rfl⟩ := not_nil rfl h4
        refine ⟨.inr ⟨h1, acc_k2.2 ⟨h3, acc_ccv.2 (acc_hv.1 h4)⟩⟩, fun h => ?_⟩
        obtain ⟨_, _, _, he, _⟩ := rafsi_ccv.1 h
        simp at he
    · rintro ⟨⟨h1, h2⟩ | ⟨h1, h2⟩, h3⟩
      · exact .inl ⟨h1, h2⟩
      · obtain ⟨b, t, rfl⟩ := not_nil rfl h2
        obtain ⟨h4, h5⟩ := acc_k2.1 h2
        cases t with
        | nil => exact absurd (rafsi_ccv.2 ⟨d, a, b, rfl, hd, (ini_C h1).2, h4, h1⟩) h3
        | cons c t => exact .inr ⟨h1, acc_h2.2 ⟨h4, acc_hv.2 (acc_ccv.1 h5)⟩⟩

theorem medial_r : C c → (Medial 'r' c ↔ c ≠ 'r') := by
  intro h
  have : ∀ c ∈ consonants, (Medial 'r' c ↔ c ≠ 'r') := by decide +kernel
  exact this c h

/-- What follows an initial CVV or CV'V. -/
theorem svv_iff : Acc .svv p x w ↔
    (∃ t, w = rnHyphen t :: t ∧ Good t ∧ ¬ Rafsi .ccv t) ∨ Rafsi .ccv w := by
  cases w with
  | nil => simp [Acc, final, rafsi_ccv]
  | cons h t =>
    rw [acc_svv]
    have hC : ∀ {t}, Good t → ∃ d t', t = d :: t' ∧ C d := good_first
    constructor
    · rintro (⟨rfl, h1⟩ | ⟨rfl, h1⟩ | ⟨h1, h2⟩)
      · obtain ⟨d, t, rfl⟩ := not_nil rfl h1
        obtain ⟨⟨h2, h3⟩, h4⟩ := acc_sr.1 h1
        have hne := (medial_r h2).1 h3
        refine .inl ⟨d :: t, ?_, (h1_iff h2).1 h4⟩
        simp [rnHyphen, hne]
      · obtain ⟨d, t, rfl⟩ := not_nil rfl h1
        obtain ⟨rfl, h4⟩ := acc_sn.1 h1
        exact .inl ⟨_, by simp [rnHyphen], (h1_iff (by decide)).1 h4⟩
      · obtain ⟨b, t, rfl⟩ := not_nil rfl h2
        obtain ⟨h3, h4⟩ := acc_sf1.1 h2
        obtain ⟨c, t, rfl⟩ := not_nil rfl h4
        obtain ⟨h5, h6⟩ := acc_sf2.1 h4
        have := acc_acc.1 h6
        subst this
        exact .inr (rafsi_ccv.2 ⟨_, _, _, rfl, h1, (ini_C h3).2, h5, h3⟩)
    · rintro (⟨t', he, h2, h3⟩ | h1)
      · simp only [List.cons.injEq] at he
        obtain ⟨rfl, rfl⟩ := he
        obtain ⟨d, t, rfl, hd⟩ := good_first h2
        by_cases hr : d = 'r'
        · subst hr
          exact .inr (.inl ⟨by simp [rnHyphen], acc_sn.2 ⟨rfl, (h1_iff hd).2 ⟨h2, h3⟩⟩⟩)
        · have : rnHyphen (d :: t) = 'r' := by simp [rnHyphen, hr]
          exact .inl ⟨this, acc_sr.2 ⟨⟨hd, this ▸ (medial_r hd).2 hr⟩, (h1_iff hd).2 ⟨h2, h3⟩⟩⟩
      · obtain ⟨a, b, c, he, h5, h2, h3, h4⟩ := rafsi_ccv.1 h1
        simp only [List.cons.injEq] at he
        obtain ⟨rfl, rfl⟩ := he
        exact .inr (.inr ⟨h5, acc_sf1.2 ⟨h4, acc_sf2.2 ⟨h3, acc_acc.2 rfl⟩⟩⟩)

/-! ## Whole words -/

theorem idle_iff : IdleHyphen w ↔ ∃ a b t, C a ∧ V b ∧ Rafsi .ccv t ∧
    ((∃ c, V c ∧ w = a :: b :: c :: rnHyphen t :: t) ∨ ∃ c, V c ∧ w = a :: b :: '\'' :: c :: rnHyphen t :: t) := by
  constructor
  · rintro ⟨s, u, t, rfl | rfl, hu, ht, rfl⟩
    · obtain ⟨a, b, c, rfl, h1, h2, h3⟩ := rafsi_cvv.1 hu
      exact ⟨a, b, t, h1, h2, ht, .inl ⟨c, h3, rfl⟩⟩
    · obtain ⟨a, b, c, rfl, h1, h2, h3⟩ := rafsi_cvhv.1 hu
      exact ⟨a, b, t, h1, h2, ht, .inr ⟨c, h3, rfl⟩⟩
  · rintro ⟨a, b, t, h1, h2, ht, ⟨c, h3, rfl⟩ | ⟨c, h3, rfl⟩⟩
    · exact ⟨.cvv, [a, b, c], t, .inl rfl, rafsi_cvv.2 ⟨a, b, c, rfl, h1, h2, h3⟩, ht, rfl⟩
    · exact ⟨.cvhv, [a, b, '\'', c], t, .inr rfl, rafsi_cvhv.2 ⟨a, b, c, rfl, h1, h2, h3⟩, ht, rfl⟩

/-- With a consonant in the second or third place there is no such hyphen. -/
theorem idle_cvc (h : C c) : ¬ IdleHyphen (a :: b :: c :: t) := by
  rw [idle_iff]
  rintro ⟨_, _, _, h1, h2, _, ⟨_, h3, he⟩ | ⟨_, h3, he⟩⟩
  · simp only [List.cons.injEq] at he
    obtain ⟨rfl, rfl, rfl, _⟩ := he
    exact cNotV h h3
  · simp only [List.cons.injEq] at he
    obtain ⟨rfl, rfl, rfl, _⟩ := he
    exact notC_apos h

theorem idle_cc (h : C b) : ¬ IdleHyphen (a :: b :: t) := by
  rw [idle_iff]
  rintro ⟨_, _, _, h1, h2, _, ⟨_, h3, he⟩ | ⟨_, h3, he⟩⟩ <;>
  · simp only [List.cons.injEq] at he
    obtain ⟨rfl, rfl, _⟩ := he
    exact cNotV h h2

theorem ccv_no (h : V b) : ¬ Rafsi .ccv (a :: b :: t) := by
  rw [rafsi_ccv]
  rintro ⟨_, _, _, he, _, h2, _⟩
  simp only [List.cons.injEq] at he
  obtain ⟨_, rfl, _⟩ := he
  exact cNotV h2 h

theorem flows_rn (h : Good t) : Flows (rnHyphen t :: t) := by
  refine (flows_notV ?_).2 h.2
  unfold rnHyphen; split <;> decide

/-- Three letters CVC at the beginning. -/
theorem cvc_flows (h1 : C a) (h3 : C c) : Flows (a :: b :: c :: t) ↔ Flows t :=
  ⟨fun h => flows_suffix (u := [a, b, c]) h, fun h =>
    (flows_notV (cNotV h1)).2 ((flows_V_notV (cNotV h3)).2 h)⟩

theorem s0_sound (h : Acc .s0 p x w) : IsLujvo w := by
  obtain ⟨a, w, rfl⟩ := not_nil rfl h
  obtain ⟨h1, h⟩ := acc_s0.1 h
  obtain ⟨b, w, rfl⟩ := not_nil rfl h
  rcases acc_s1.1 h with ⟨h2, h⟩ | ⟨h2, h⟩
  · obtain ⟨c, w, rfl⟩ := not_nil rfl h
    rcases acc_scv.1 h with ⟨h3, h⟩ | ⟨h3, h⟩ | ⟨h3, h⟩
    · obtain ⟨d, w, rfl⟩ := not_nil rfl h
      rcases acc_scvc.1 h with ⟨⟨h4, h5⟩, h⟩ | ⟨h4, h⟩
      · obtain ⟨y, w, rfl⟩ := not_nil rfl h
        obtain ⟨rfl, h⟩ := acc_scvcc.1 h
        obtain ⟨⟨n, hn⟩, hf⟩ := tail_iff.1 ‹Acc .tail c d w›
        exact ⟨.cvccy (w := [a, b, c, d]) (rafsi_cvcc.2 ⟨a, b, c, d, rfl, h1, h2, h3, h4, h5⟩) hn,
          (cvc_flows h1 h3).2 ((flows_notV (cNotV h4)).2 ((flows_notV notV_y).2 hf)), idle_cvc h3, ccv_no h2⟩
      · subst h4
        obtain ⟨h5, h6⟩ := (sep_iff (x := c)).1 ‹Acc .sep b c w›
        obtain ⟨⟨n, hn⟩, hf⟩ := tail_iff.1 h5
        exact ⟨.cvcy h1 h2 h3 hn (.inl h6), (cvc_flows h1 h3).2 ((flows_notV notV_y).2 hf), idle_cvc h3, ccv_no h2⟩
    · have hV := (dip_V h3).2
      have hraf : Rafsi .cvv [a, b, c] := rafsi_cvv.2 ⟨a, b, c, rfl, h1, h2, hV⟩
      have hfl : ∀ {d t}, C d → Flows (d :: t) → Flows (a :: b :: c :: d :: t) := fun hd h =>
        (flows_notV (cNotV h1)).2 (flows_cons.2 ⟨fun _ _ => h3, flows_cons.2 ⟨fun _ hv => absurd hv (cNotV hd), h⟩⟩)
      rcases svv_iff.1 h with ⟨t, rfl, h4, h5⟩ | h4
      · refine ⟨?_, hfl ?_ (flows_rn h4), ?_, ccv_no h2⟩
        · obtain ⟨⟨n, hn⟩, hf⟩ := h4
          exact .cvHyphen (.inl rfl) hraf hn
        · unfold rnHyphen; split <;> decide
        · rw [idle_iff]
          rintro ⟨_, _, t', h1, h2, h6, ⟨_, h3, he⟩ | ⟨_, h3, he⟩⟩ <;> simp only [List.cons.injEq] at he
          · obtain ⟨_, _, _, _, rfl⟩ := he
            exact h5 h6
          · obtain ⟨_, _, rfl, _⟩ := he
            exact notV_apos hV
      · obtain ⟨d, e, g, rfl, h5, h6, h7, h8⟩ := rafsi_ccv.1 h4
        refine ⟨.cvCcv (.inl rfl) hraf h4, hfl h5 ?_, ?_, ccv_no h2⟩
        · exact (flows_notV (cNotV h5)).2 ((flows_notV (cNotV h6)).2 flows_one)
        · rw [idle_iff]
          rintro ⟨_, _, t', g1, g2, g6, ⟨_, g3, he⟩ | ⟨_, g3, he⟩⟩ <;> simp only [List.cons.injEq] at he
          · obtain ⟨_, _, _, _, rfl⟩ := he
            obtain ⟨_, _, _, he, _⟩ := rafsi_ccv.1 g6
            simp at he
          · obtain ⟨_, _, rfl, _⟩ := he
            exact notV_apos hV
    · subst h3
      obtain ⟨c, w, rfl⟩ := not_nil rfl h
      obtain ⟨h3, h'⟩ := acc_sh.1 h
      have hraf : Rafsi .cvhv [a, b, '\'', c] := rafsi_cvhv.2 ⟨a, b, c, rfl, h1, h2, h3⟩
      have hfl : ∀ {d t}, C d → Flows (d :: t) → Flows (a :: b :: '\'' :: c :: d :: t) := fun hd h =>
        (flows_notV (cNotV h1)).2 ((flows_V_notV notV_apos).2 (flows_cons.2 ⟨fun _ hv => absurd hv (cNotV hd), h⟩))
      rcases svv_iff.1 h' with ⟨t, rfl, h4, h5⟩ | h4
      · refine ⟨?_, hfl ?_ (flows_rn h4), ?_, ccv_no h2⟩
        · obtain ⟨⟨n, hn⟩, hf⟩ := h4
          exact .cvHyphen (.inr rfl) hraf hn
        · unfold rnHyphen; split <;> decide
        · rw [idle_iff]
          rintro ⟨_, _, t', g1, g2, g6, ⟨_, g3, he⟩ | ⟨_, g3, he⟩⟩ <;> simp only [List.cons.injEq] at he
          · obtain ⟨_, _, rfl, _⟩ := he
            exact notV_apos g3
          · obtain ⟨_, _, _, _, _, rfl⟩ := he
            exact h5 g6
      · obtain ⟨d, e, g, rfl, h5, h6, h7, h8⟩ := rafsi_ccv.1 h4
        refine ⟨.cvCcv (.inr rfl) hraf h4, hfl h5 ?_, ?_, ccv_no h2⟩
        · exact (flows_notV (cNotV h5)).2 ((flows_notV (cNotV h6)).2 flows_one)
        · rw [idle_iff]
          rintro ⟨_, _, t', g1, g2, g6, ⟨_, g3, he⟩ | ⟨_, g3, he⟩⟩ <;> simp only [List.cons.injEq] at he
          · obtain ⟨_, _, rfl, _⟩ := he
            exact notV_apos g3
          · obtain ⟨_, _, _, _, _, rfl⟩ := he
            obtain ⟨_, _, _, he, _⟩ := rafsi_ccv.1 g6
            simp at he
  · obtain ⟨c, w, rfl⟩ := not_nil rfl h
    obtain ⟨d, t, rfl, h3, h4⟩ := (xa2_iff h1).1 (acc_xa2.1 h)
    have hc : CcLujvo true (a :: b :: c :: d :: t) ∧ Flows (a :: b :: c :: d :: t) := by
      refine cc_cases.2 ⟨a, b, c, d :: t, rfl, h2, h3, ?_⟩
      rcases h4 with h4 | ⟨t', h4, rfl, h5⟩
      · exact .inr (.inl h4)
      · exact .inr (.inr ⟨d, t', h4, rfl, h5⟩)
    refine ⟨.cc hc.1, hc.2, idle_cc (ini_C h2).2, ?_⟩
    intro h
    obtain ⟨_, _, _, he, _⟩ := rafsi_ccv.1 h
    simp at he

/-- The words with an initial CVC that joins. -/
theorem b0_iff : Acc .b0 p x w ↔ ∃ a b c t, w = a :: b :: c :: t ∧ C a ∧ V b ∧ C c ∧ Good t ∧ Joins c t := by
  constructor
  · intro h
    obtain ⟨a, w, rfl⟩ := not_nil rfl h
    obtain ⟨h1, h⟩ := acc_b0.1 h
    obtain ⟨b, w, rfl⟩ := not_nil rfl h
    obtain ⟨h2, h⟩ := acc_b1.1 h
    obtain ⟨c, w, rfl⟩ := not_nil rfl h
    obtain ⟨h3, h⟩ := acc_b2.1 h
    obtain ⟨d, w, rfl⟩ := not_nil rfl h
    obtain ⟨h4, h5⟩ := join_iff (p := p) (x := x) |>.1 ⟨d, w, rfl, acc_b3.1 h⟩
    exact ⟨a, b, c, _, rfl, h1, h2, h3, tail_iff.1 h4, h5⟩
  · rintro ⟨a, b, c, t, rfl, h1, h2, h3, h4, h5⟩
    refine acc_b0.2 ⟨h1, acc_b1.2 ⟨h2, acc_b2.2 ⟨h3, ?_⟩⟩⟩
    obtain ⟨d, t', rfl, h6⟩ := join_iff.2 ⟨(tail_iff (p := p) (x := x)).2 h4, h5⟩
    exact acc_b3.2 h6

theorem d0_iff : Acc .d0 p x w ↔ ∃ a b c t, w = a :: b :: c :: 'y' :: t ∧ C a ∧ V b ∧ C c ∧ Good t := by
  constructor
  · intro h
    obtain ⟨a, w, rfl⟩ := not_nil rfl h
    obtain ⟨h1, h⟩ := acc_d0.1 h
    obtain ⟨b, w, rfl⟩ := not_nil rfl h
    obtain ⟨h2, h⟩ := acc_d1.1 h
    obtain ⟨c, w, rfl⟩ := not_nil rfl h
    obtain ⟨h3, h⟩ := acc_d2.1 h
    obtain ⟨d, w, rfl⟩ := not_nil rfl h
    obtain ⟨rfl, h'⟩ := acc_d3.1 h
    exact ⟨a, b, c, _, rfl, h1, h2, h3, tail_iff.1 h'⟩
  · rintro ⟨a, b, c, t, rfl, h1, h2, h3, h4⟩
    exact acc_d0.2 ⟨h1, acc_d1.2 ⟨h2, acc_d2.2 ⟨h3, acc_d3.2 ⟨rfl, tail_iff.2 h4⟩⟩⟩⟩

theorem m0_iff : Acc .m0 p x w ↔ ∃ a b c t, w = a :: b :: c :: t ∧ C a ∧ V b ∧ CcLujvo true (c :: t) ∧ Flows (c :: t) := by
  constructor
  · intro h
    obtain ⟨a, w, rfl⟩ := not_nil rfl h
    obtain ⟨h1, h⟩ := acc_m0.1 h
    obtain ⟨b, w, rfl⟩ := not_nil rfl h
    obtain ⟨h2, h⟩ := acc_m1.1 h
    obtain ⟨c, w, rfl⟩ := not_nil rfl h
    obtain ⟨h3, h⟩ := acc_m2.1 h
    exact ⟨a, b, c, _, rfl, h1, h2, x1_iff.1 h⟩
  · rintro ⟨a, b, c, t, rfl, h1, h2, h3⟩
    refine acc_m0.2 ⟨h1, acc_m1.2 ⟨h2, acc_m2.2 ⟨?_, x1_iff.2 h3⟩⟩⟩
    obtain ⟨_, _, _, _, he, hi, _⟩ := cc_cases.1 h3
    simp only [List.cons.injEq] at he
    exact he.1 ▸ (ini_C hi).1

theorem e0_iff : Acc .e0 p x w ↔
    ∃ a b c t, w = a :: b :: c :: 'y' :: t ∧ C a ∧ V b ∧ CcLujvo true (c :: t) ∧ Flows (c :: t) := by
  constructor
  · intro h
    obtain ⟨a, w, rfl⟩ := not_nil rfl h
    obtain ⟨h1, h⟩ := acc_e0.1 h
    obtain ⟨b, w, rfl⟩ := not_nil rfl h
    obtain ⟨h2, h⟩ := acc_e1.1 h
    obtain ⟨c, w, rfl⟩ := not_nil rfl h
    obtain ⟨h3, h⟩ := acc_e2.1 h
    obtain ⟨d, w, rfl⟩ := not_nil rfl h
    obtain ⟨rfl, h'⟩ := acc_e3.1 h
    exact ⟨a, b, c, _, rfl, h1, h2, x1_iff.1 h'⟩
  · rintro ⟨a, b, c, t, rfl, h1, h2, h3⟩
    refine acc_e0.2 ⟨h1, acc_e1.2 ⟨h2, acc_e2.2 ⟨?_, acc_e3.2 ⟨rfl, x1_iff.2 h3⟩⟩⟩⟩
    obtain ⟨_, _, _, _, he, hi, _⟩ := cc_cases.1 h3
    simp only [List.cons.injEq] at he
    exact he.1 ▸ (ini_C hi).1

/-- The automaton accepts exactly the lujvo. -/
theorem lujvo_iff : (Acc .s0 p x w ∨ (Acc .b0 p x w ∧ ¬ Acc .m0 p x w) ∨ (Acc .d0 p x w ∧ Acc .e0 p x w)) ↔ IsLujvo w := by
  constructor
  · rintro (h | ⟨h, h'⟩ | ⟨h, h'⟩)
    · exact s0_sound h
    · obtain ⟨a, b, c, t, rfl, h1, h2, h3, h4, h5⟩ := b0_iff.1 h
      obtain ⟨⟨n, hn⟩, hf⟩ := h4
      refine ⟨.cvcJoin h1 h2 h3 hn h5 (fun hc => h' (m0_iff.2 ?_)), (cvc_flows h1 h3).2 hf, idle_cvc h3, ccv_no h2⟩
      exact ⟨a, b, c, t, rfl, h1, h2, hc, (flows_notV (cNotV h3)).2 hf⟩
    · obtain ⟨a, b, c, t, rfl, h1, h2, h3, h4⟩ := d0_iff.1 h
      obtain ⟨_, _, _, _, he, _, _, h5, _⟩ := e0_iff.1 h'
      simp only [List.cons.injEq] at he
      obtain ⟨_, _, rfl, _, rfl⟩ := he
      obtain ⟨⟨n, hn⟩, hf⟩ := h4
      exact ⟨.cvcy h1 h2 h3 hn (.inr h5), (cvc_flows h1 h3).2 ((flows_notV notV_y).2 hf), idle_cvc h3, ccv_no h2⟩
  · rintro ⟨hv, hf, hi, hl⟩
    cases hv with
    | cc h =>
      obtain ⟨a, b, c, t, rfl, h1, h2, h3⟩ := cc_cases.1 ⟨h, hf⟩
      obtain ⟨ha, hb⟩ := ini_C h1
      refine .inl (acc_s0.2 ⟨ha, acc_s1.2 (.inr ⟨h1, acc_xa2.2 ((xa2_iff ha).2 ?_)⟩)⟩)
      rcases h3 with rfl | h3 | ⟨d, t', h3, rfl, h4⟩
      · exact absurd (rafsi_ccv.2 ⟨a, b, c, rfl, ha, hb, h2, h1⟩) hl
      · obtain ⟨d, t', rfl, _⟩ := good_first h3
        exact ⟨d, t', rfl, h2, .inl h3⟩
      · exact ⟨d, _, rfl, h2, .inr ⟨t', h3, rfl, h4⟩⟩
    | @cvccy w t n h ht =>
      obtain ⟨a, b, c, d, rfl, h1, h2, h3, h4, h5⟩ := rafsi_cvcc.1 h
      refine .inl (acc_s0.2 ⟨h1, acc_s1.2 (.inl ⟨h2, acc_scv.2 (.inl ⟨h3, acc_scvc.2 (.inl ⟨⟨h4, h5⟩,
        acc_scvcc.2 ⟨rfl, tail_iff.2 ⟨⟨n, ht⟩, flows_suffix (u := [a, b, c, d, 'y']) hf⟩⟩⟩)⟩)⟩)⟩)
    | @cvcJoin a b c t n h1 h2 h3 ht h4 h5 =>
      have hf' := (cvc_flows h1 h3).1 hf
      refine .inr (.inl ⟨b0_iff.2 ⟨a, b, c, t, rfl, h1, h2, h3, ⟨⟨n, ht⟩, hf'⟩, h4⟩, fun hm => ?_⟩)
      obtain ⟨_, _, _, _, he, _, _, h6, _⟩ := m0_iff.1 hm
      simp only [List.cons.injEq] at he
      obtain ⟨_, _, rfl, rfl⟩ := he
      exact h5 h6
    | @cvcy a b c t n h1 h2 h3 ht h4 =>
      have hf' := (flows_notV notV_y).1 ((cvc_flows h1 h3).1 hf)
      by_cases hj : Joins c t
      · have hc := h4.resolve_left (fun h => h hj)
        refine .inr (.inr ⟨d0_iff.2 ⟨a, b, c, t, rfl, h1, h2, h3, ⟨n, ht⟩, hf'⟩, e0_iff.2 ⟨a, b, c, t, rfl, h1, h2, hc, ?_⟩⟩)
        exact (flows_notV (cNotV h3)).2 hf'
      · exact .inl (acc_s0.2 ⟨h1, acc_s1.2 (.inl ⟨h2, acc_scv.2 (.inl ⟨h3, acc_scvc.2 (.inr ⟨rfl,
          (sep_iff (x := c)).2 ⟨tail_iff.2 ⟨⟨n, ht⟩, hf'⟩, hj⟩⟩)⟩)⟩)⟩)
    | @cvHyphen s u t n hs hu ht =>
      have hno : ¬ Rafsi .ccv t := fun h => hi ⟨s, u, t, hs, hu, h, rfl⟩
      have hg : Good t := ⟨⟨n, ht⟩, flows_suffix (u := u ++ [rnHyphen t]) (by simpa using hf)⟩
      rcases hs with rfl | rfl
      · obtain ⟨a, b, c, rfl, h1, h2, h3⟩ := rafsi_cvv.1 hu
        exact .inl (acc_s0.2 ⟨h1, acc_s1.2 (.inl ⟨h2, acc_scv.2 (.inr (.inl
          ⟨(flows_cons.1 (flows_cons.1 hf).2).1 h2 h3, svv_iff.2 (.inl ⟨t, rfl, hg, hno⟩)⟩))⟩)⟩)
      · obtain ⟨a, b, c, rfl, h1, h2, h3⟩ := rafsi_cvhv.1 hu
        exact .inl (acc_s0.2 ⟨h1, acc_s1.2 (.inl ⟨h2, acc_scv.2 (.inr (.inr
          ⟨rfl, acc_sh.2 ⟨h3, svv_iff.2 (.inl ⟨t, rfl, hg, hno⟩)⟩⟩))⟩)⟩)
    | @cvCcv s u t hs hu ht =>
      rcases hs with rfl | rfl
      · obtain ⟨a, b, c, rfl, h1, h2, h3⟩ := rafsi_cvv.1 hu
        exact .inl (acc_s0.2 ⟨h1, acc_s1.2 (.inl ⟨h2, acc_scv.2 (.inr (.inl
          ⟨(flows_cons.1 (flows_cons.1 hf).2).1 h2 h3, svv_iff.2 (.inr ht)⟩))⟩)⟩)
      · obtain ⟨a, b, c, rfl, h1, h2, h3⟩ := rafsi_cvhv.1 hu
        exact .inl (acc_s0.2 ⟨h1, acc_s1.2 (.inl ⟨h2, acc_scv.2 (.inr (.inr
          ⟨rfl, acc_sh.2 ⟨h3, svv_iff.2 (.inr ht)⟩⟩))⟩)⟩)

/-- And exactly the gismu. -/
theorem gismu_iff : Acc .g0 p x w ↔ IsGismu w := by
  constructor
  · intro h
    obtain ⟨a, w, rfl⟩ := not_nil rfl h
    obtain ⟨h1, h⟩ := acc_g0.1 h
    obtain ⟨b, w, rfl⟩ := not_nil rfl h
    rcases acc_g1.1 h with ⟨h2, h⟩ | ⟨h2, h⟩
    · obtain ⟨c, w, rfl⟩ := not_nil rfl h
      obtain ⟨h3, h⟩ := acc_g2.1 h
      obtain ⟨d, w, rfl⟩ := not_nil rfl h
      obtain ⟨⟨h4, h5⟩, h⟩ := acc_g3.1 h
      obtain ⟨e, w, rfl⟩ := not_nil rfl h
      obtain ⟨h6, h⟩ := acc_g4.1 h
      have := acc_acc.1 h
      subst this
      exact .inl (rafsi_cvccv.2 ⟨a, b, c, d, e, rfl, h1, h2, h3, h4, h6, h5⟩)
    · obtain ⟨c, w, rfl⟩ := not_nil rfl h
      obtain ⟨h3, h⟩ := acc_g5.1 h
      obtain ⟨d, w, rfl⟩ := not_nil rfl h
      obtain ⟨h4, h⟩ := acc_g6.1 h
      obtain ⟨e, w, rfl⟩ := not_nil rfl h
      obtain ⟨h6, h⟩ := acc_g4.1 h
      have := acc_acc.1 h
      subst this
      exact .inr (rafsi_ccvcv.2 ⟨a, b, c, d, e, rfl, h1, (ini_C h2).2, h3, h4, h6, h2⟩)
  · rintro (h | h)
    · obtain ⟨a, b, c, d, e, rfl, h1, h2, h3, h4, h5, h6⟩ := rafsi_cvccv.1 h
      exact acc_g0.2 ⟨h1, acc_g1.2 (.inl ⟨h2, acc_g2.2 ⟨h3, acc_g3.2 ⟨⟨h4, h6⟩, acc_g4.2 ⟨h5, acc_acc.2 rfl⟩⟩⟩⟩)⟩
    · obtain ⟨a, b, c, d, e, rfl, h1, h2, h3, h4, h5, h6⟩ := rafsi_ccvcv.1 h
      exact acc_g0.2 ⟨h1, acc_g1.2 (.inr ⟨h6, acc_g5.2 ⟨h3, acc_g6.2 ⟨h4, acc_g4.2 ⟨h5, acc_acc.2 rfl⟩⟩⟩⟩)⟩

end Jbo.Lujvo.Nfa
