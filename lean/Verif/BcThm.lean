import Verif.BcAbs
import Verif.BcSpec
/-!
# C42: `is_bad_cmene` does what it should
-/

namespace Jbo.Bc
open Jbo.Dfasyn

/-! ## Characters -/

def okChar (c : Char) : Bool :=
  decide (Vowel c.toLower ↔ mapchar c < 5) && decide (c.toLower = 'y' ↔ mapchar c = 5) &&
  decide (Consonant c.toLower ↔ 6 ≤ mapchar c ∧ mapchar c ≤ 8) && decide (c.toLower = '\'' ↔ mapchar c = 9) &&
  decide (c = ',' ↔ mapchar c = 10) && decide (c.toLower = 'l' ↔ mapchar c = 7) &&
  decide (c.toLower = 'd' ↔ mapchar c = 6) && decide (c.toLower = 'a' ↔ mapchar c = 0) &&
  decide (c.toLower = 'i' ↔ mapchar c = 2) && decide (c.toLower = 'o' ↔ mapchar c = 3)

theorem okChar_small : ∀ n < 128, okChar (Char.ofNat n) = true := by decide +kernel

theorem big_ne {c : Char} (h : 128 ≤ c.toNat) {d : Char} (hd : d.toNat < 128) : c ≠ d := by
  rintro rfl; omega

theorem okChar_all (c : Char) : okChar c = true := by
  by_cases h : c.toNat < 128
  · have := okChar_small c.toNat h
    rwa [Char.ofNat_toNat] at this
  · have hb : 128 ≤ c.toNat := by omega
    have hlow : c.toLower = c := by
      unfold Char.toLower
      rw [dif_neg]
      rintro ⟨_, h2⟩
      have : c.toNat ≤ 90 := h2
      omega
    have hmem : ∀ l : List Char, (∀ d ∈ l, d.toNat < 128) → c ∉ l := fun l hl hc => big_ne hb (hl c hc) rfl
    have hm : mapchar c = 11 := by
      unfold mapchar
      rw [if_neg, if_neg, if_neg, if_neg, if_neg, if_neg, if_neg, if_neg, if_neg, if_neg, if_neg]
      all_goals first
        | exact hmem _ (by decide)
        | exact big_ne hb (by decide)
        | (rintro (h | h) <;> exact big_ne hb (by decide) h)
    unfold okChar
    have hv : ¬ Vowel c := hmem _ (by decide)
    have hc : ¬ Consonant c := hmem _ (by decide)
    have hne : ∀ d : Char, d.toNat < 128 → ¬ (c = d) := fun d hd => big_ne hb hd
    simp only [hm, hlow, hv, hc, hne 'y' (by decide), hne 'l' (by decide), hne 'd' (by decide),
      hne 'a' (by decide), hne 'i' (by decide), hne 'o' (by decide), hne '\'' (by decide), hne ',' (by decide)]
    decide

structure OkChar (c : Char) : Prop where
  vowel : Vowel c.toLower ↔ mapchar c < 5
  y : c.toLower = 'y' ↔ mapchar c = 5
  cons : Consonant c.toLower ↔ 6 ≤ mapchar c ∧ mapchar c ≤ 8
  apos : c.toLower = '\'' ↔ mapchar c = 9
  comma : c = ',' ↔ mapchar c = 10
  l : c.toLower = 'l' ↔ mapchar c = 7
  d : c.toLower = 'd' ↔ mapchar c = 6
  a : c.toLower = 'a' ↔ mapchar c = 0
  i : c.toLower = 'i' ↔ mapchar c = 2
  o : c.toLower = 'o' ↔ mapchar c = 3

theorem okc (c : Char) : OkChar c := by
  have h := okChar_all c
  simp only [okChar, Bool.and_eq_true, decide_eq_true_eq] at h
  obtain ⟨⟨⟨⟨⟨⟨⟨⟨⟨h1, h2⟩, h3⟩, h4⟩, h5⟩, h6⟩, h7⟩, h8⟩, h9⟩, h10⟩ := h
  exact ⟨h1, h2, h3, h4, h5, h6, h7, h8, h9, h10⟩

/-! ## Endings -/

theorem snoc_inj {α : Type} {u v : List α} {a b : α} : u ++ [a] = v ++ [b] ↔ u = v ∧ a = b := by
  constructor
  · intro h
    have h1 := congrArg List.reverse h
    simp at h1
    exact ⟨h1.2, h1.1⟩
  · rintro ⟨rfl, rfl⟩; rfl

theorem snoc_ne_nil {α : Type} {u : List α} {a : α} : u ++ [a] ≠ [] := by simp

theorem loneY_snoc (r : List Char) (c : Char) : LoneY (r ++ [c]) ↔ Consonant c := by
  unfold LoneY
  constructor
  · rintro (h | ⟨v, d, h, hd⟩)
    · exact absurd h snoc_ne_nil
    · rw [snoc_inj] at h; rw [h.2]; exact hd
  · intro h; exact Or.inr ⟨r, c, rfl, h⟩

theorem break_snoc (r : List Char) (c : Char) :
    BreakBefore (r ++ [c]) ↔ Vowel c ∨ (c = 'y' ∧ ¬ LoneY r) := by
  unfold BreakBefore
  constructor
  · rintro (h | ⟨v, d, h, hd⟩ | ⟨v, h, hv⟩)
    · exact absurd h snoc_ne_nil
    · rw [snoc_inj] at h; rw [h.2]; exact Or.inl hd
    · rw [snoc_inj] at h; exact Or.inr ⟨h.2, h.1 ▸ hv⟩
  · rintro (h | ⟨rfl, h⟩)
    · exact Or.inr (Or.inl ⟨r, c, rfl, h⟩)
    · exact Or.inr (Or.inr ⟨r, rfl, h⟩)

theorem weak_snoc (r : List Char) (c : Char) : WeakBreakBefore (r ++ [c]) ↔ c = 'y' ∧ LoneY r := by
  unfold WeakBreakBefore
  constructor
  · rintro ⟨v, h, hv⟩
    rw [snoc_inj] at h; exact ⟨h.2, h.1 ▸ hv⟩
  · rintro ⟨rfl, h⟩; exact ⟨r, rfl, h⟩

/-- One letter more. -/
theorem shaped_snoc (r : List Char) (c : Char) : Shaped (r ++ [c]) ↔
    Shaped r ∧ (Vowel c ∨ Consonant c ∨ c = 'y' ∨ c = '\'') ∧
    (c = '\'' → ∃ u d, r = u ++ [d] ∧ (Vowel d ∨ d = 'y')) ∧
    (∀ u, r = u ++ ['\''] → Vowel c ∨ c = 'y') ∧
    (∀ u, r = u ++ ['y'] → LoneY u → ¬ (Vowel c ∨ c = 'y')) := by
  have hsplit : ∀ (u v : List Char) (x : Char), r ++ [c] = u ++ x :: v →
      (v = [] ∧ u = r ∧ x = c) ∨ ∃ v', v = v' ++ [c] ∧ r = u ++ x :: v' := by
    intro u v x h
    rcases List.eq_nil_or_concat v with rfl | ⟨v', d, rfl⟩
    · rw [snoc_inj] at h; exact Or.inl ⟨rfl, h.1.symm, h.2.symm⟩
    · rw [List.concat_eq_append, ← List.cons_append, ← List.append_assoc, snoc_inj] at h
      exact Or.inr ⟨v', by rw [h.2, List.concat_eq_append], h.1⟩
  constructor
  · intro h
    refine ⟨⟨?_, ?_, ?_, ?_⟩, ?_, ?_, ?_, ?_⟩
    · intro x hx; exact h.chars x (by simp [hx])
    · intro u v huv; exact h.before u (v ++ [c]) (by rw [huv]; simp)
    · intro u x v huv; exact h.after u x (v ++ [c]) (by rw [huv]; simp)
    · intro u x v huv; exact h.lone u x (v ++ [c]) (by rw [huv]; simp)
    · exact h.chars c (by simp)
    · rintro rfl; exact h.before r [] rfl
    · intro u hu; exact h.after u c [] (by rw [hu]; simp)
    · intro u hu; exact h.lone u c [] (by rw [hu]; simp)
  · rintro ⟨h, h1, h2, h3, h4⟩
    refine ⟨?_, ?_, ?_, ?_⟩
    · intro x hx
      rcases List.mem_append.1 hx with hx | hx
      · exact h.chars x hx
      · rw [List.mem_singleton.1 hx]; exact h1
    · intro u v huv
      rcases hsplit _ _ _ huv with ⟨_, rfl, hc⟩ | ⟨v', _, hr⟩
      · exact h2 hc.symm
      · exact h.before u v' hr
    · intro u x v huv
      rcases hsplit _ _ _ huv with ⟨hv, _⟩ | ⟨v', hv, hr⟩
      · cases hv
      · cases v' with
        | nil => simp only [List.nil_append, List.cons.injEq] at hv; rw [hv.1]; exact h3 u hr
        | cons y v' => simp only [List.cons_append, List.cons.injEq] at hv; rw [hv.1]; exact h.after u y v' hr
    · intro u x v huv
      rcases hsplit _ _ _ huv with ⟨hv, _⟩ | ⟨v', hv, hr⟩
      · cases hv
      · cases v' with
        | nil => simp only [List.nil_append, List.cons.injEq] at hv; rw [hv.1]; exact h4 u hr
        | cons y v' => simp only [List.cons_append, List.cons.injEq] at hv; rw [hv.1]; exact h.lone u y v' hr

theorem shaped_prefix {p s : List Char} (h : Shaped s) (hp : p <+: s) : Shaped p := by
  obtain ⟨x, rfl⟩ := hp
  refine ⟨?_, ?_, ?_, ?_⟩
  · intro c hc; exact h.chars c (by simp [hc])
  · intro u v huv; exact h.before u (v ++ x) (by rw [huv]; simp)
  · intro u c v huv; exact h.after u c (v ++ x) (by rw [huv]; simp)
  · intro u c v huv; exact h.lone u c (v ++ x) (by rw [huv]; simp)

/-! ## The states of the small automaton -/

def Brk : Bool → List Char → Prop
  | false => BreakBefore
  | true => WeakBreakBefore

def BaseOk : Base → List Char → Prop
  | .start, r => r = []
  | .v, r => r ≠ [] ∧ BreakBefore r
  | .a, r => ∃ u, r = u ++ ['\'']
  | .c, r => ∃ u d, r = u ++ [d] ∧ Consonant d
  | .y, r => WeakBreakBefore r

theorem not_vowel_y : ¬ Vowel 'y' := by decide
theorem not_vowel_apos : ¬ Vowel '\'' := by decide
theorem not_cons_apos : ¬ Consonant '\'' := by decide
theorem not_cons_y : ¬ Consonant 'y' := by decide
theorem vowel_not_cons {c : Char} (h : Vowel c) : ¬ Consonant c := by
  unfold Vowel at h
  simp only [List.mem_cons, List.not_mem_nil, or_false] at h
  rcases h with rfl | rfl | rfl | rfl | rfl <;> decide

theorem opens_iff {b : Base} {r : List Char} (h : BaseOk b r) (wk : Bool) : opens b = some wk ↔ Brk wk r := by
  cases b with
  | start =>
    simp only [BaseOk] at h
    subst h
    cases wk <;> simp [opens, Brk, BreakBefore, WeakBreakBefore]
  | v =>
    obtain ⟨hne, hb⟩ := h
    cases wk
    · simp [opens, Brk, hb]
    · simp only [opens, Brk, Option.some.injEq, Bool.false_eq_true, false_iff]
      rintro ⟨v, rfl, hv⟩
      rw [break_snoc] at hb
      rcases hb with hb | ⟨_, hb⟩
      · exact not_vowel_y hb
      · exact hb hv
  | a =>
    obtain ⟨u, rfl⟩ := h
    cases wk
    · simp only [opens, Brk, reduceCtorEq, break_snoc, false_iff]
      rintro (h | ⟨h, _⟩)
      · exact not_vowel_apos h
      · cases h
    · simp only [opens, Brk, reduceCtorEq, weak_snoc, false_iff]
      rintro ⟨h, _⟩
      cases h
  | c =>
    obtain ⟨u, d, rfl, hd⟩ := h
    cases wk
    · simp only [opens, Brk, reduceCtorEq, break_snoc, false_iff]
      rintro (h | ⟨h, _⟩)
      · exact vowel_not_cons h hd
      · subst h; exact not_cons_y hd
    · simp only [opens, Brk, reduceCtorEq, weak_snoc, false_iff]
      rintro ⟨h, _⟩
      subst h; exact not_cons_y hd
  | y =>
    cases wk
    · simp only [opens, Brk, Option.some.injEq, Bool.true_eq_false, false_iff]
      obtain ⟨v, rfl, hv⟩ := h
      rw [break_snoc]
      rintro (hb | ⟨_, hb⟩)
      · exact not_vowel_y hb
      · exact hb hv
    · simp only [BaseOk] at h
      simp [opens, Brk, h]

theorem brk_exclusive {r : List Char} (h : BreakBefore r) (h' : WeakBreakBefore r) : False := by
  obtain ⟨v, rfl, hv⟩ := h'
  rw [break_snoc] at h
  rcases h with hb | ⟨_, hb⟩
  · exact not_vowel_y hb
  · exact hb hv

theorem base_lone {b : Base} {r : List Char} (h : BaseOk b r) : LoneY r ↔ b = .start ∨ b = .c := by
  cases b with
  | start => simp only [BaseOk] at h; subst h; simp [LoneY]
  | v =>
    obtain ⟨hne, hb⟩ := h
    simp only [reduceCtorEq, or_self, iff_false]
    rintro (h | ⟨u, d, rfl, hd⟩)
    · exact hne h
    · rw [break_snoc] at hb
      rcases hb with hb | ⟨rfl, _⟩
      · exact vowel_not_cons hb hd
      · exact not_cons_y hd
  | a =>
    obtain ⟨u, rfl⟩ := h
    rw [loneY_snoc]; simp [not_cons_apos]
  | c => obtain ⟨u, d, rfl, hd⟩ := h; rw [loneY_snoc]; simp [hd]
  | y => obtain ⟨u, rfl, hu⟩ := h; rw [loneY_snoc]; simp [not_cons_y]

/-- The ending of the text is exactly what the state says. -/
theorem base_ends {b : Base} {r : List Char} (h : BaseOk b r) :
    ((∃ u d, r = u ++ [d] ∧ (Vowel d ∨ d = 'y')) ↔ b = .v ∨ b = .y) ∧
    ((∃ u, r = u ++ ['\'']) ↔ b = .a) ∧ ((∃ u, r = u ++ ['y'] ∧ LoneY u) ↔ b = .y) := by
  cases b with
  | start =>
    simp only [BaseOk] at h; subst h
    simp
  | v =>
    obtain ⟨hne, hb⟩ := h
    refine ⟨?_, ?_, ?_⟩
    · simp only [reduceCtorEq, or_false, iff_true]
      rcases hb with h | ⟨u, d, h, hd⟩ | ⟨u, h, _⟩
      · exact absurd h hne
      · exact ⟨u, d, h, Or.inl hd⟩
      · exact ⟨u, 'y', h, Or.inr rfl⟩
    · simp only [reduceCtorEq, iff_false]
      rintro ⟨u, rfl⟩
      rw [break_snoc] at hb
      rcases hb with hb | ⟨hb, _⟩
      · exact not_vowel_apos hb
      · cases hb
    · simp only [reduceCtorEq, iff_false]
      exact fun h => brk_exclusive hb h
  | a =>
    obtain ⟨u, rfl⟩ := h
    refine ⟨?_, ?_, ?_⟩
    · simp only [reduceCtorEq, or_self, iff_false]
      rintro ⟨v, d, h, hd⟩
      rw [snoc_inj] at h
      rw [← h.2] at hd
      rcases hd with hd | hd
      · exact not_vowel_apos hd
      · cases hd
    · simp
    · simp only [reduceCtorEq, iff_false]
      rintro ⟨v, h, _⟩
      rw [snoc_inj] at h; cases h.2
  | c =>
    obtain ⟨u, d, rfl, hd⟩ := h
    refine ⟨?_, ?_, ?_⟩
    · simp only [reduceCtorEq, or_self, iff_false]
      rintro ⟨v, e, h, he⟩
      rw [snoc_inj] at h
      rw [← h.2] at he
      rcases he with he | rfl
      · exact vowel_not_cons he hd
      · exact not_cons_y hd
    · simp only [reduceCtorEq, iff_false]
      rintro ⟨v, h⟩
      rw [snoc_inj] at h; rw [h.2] at hd; exact not_cons_apos hd
    · simp only [reduceCtorEq, iff_false]
      rintro ⟨v, h, _⟩
      rw [snoc_inj] at h; rw [h.2] at hd; exact not_cons_y hd
  | y =>
    obtain ⟨u, rfl, hu⟩ := h
    refine ⟨?_, ?_, ?_⟩
    · simp only [reduceCtorEq, or_true, iff_true]
      exact ⟨u, 'y', rfl, Or.inr rfl⟩
    · simp only [reduceCtorEq, iff_false]
      rintro ⟨v, h⟩
      rw [snoc_inj] at h; cases h.2
    · simp only [iff_true]
      exact ⟨u, rfl, hu⟩

theorem shaped_step {b : Base} {r : List Char} (hb : BaseOk b r) (hs : Shaped r) (l : Char) :
    Shaped (r ++ [l]) ↔ (Vowel l ∨ Consonant l ∨ l = 'y' ∨ l = '\'') ∧
      (l = '\'' → b = .v ∨ b = .y) ∧ (b = .a → Vowel l ∨ l = 'y') ∧ (b = .y → ¬ (Vowel l ∨ l = 'y')) := by
  obtain ⟨h1, h2, h3⟩ := base_ends hb
  rw [shaped_snoc]
  constructor
  · rintro ⟨_, k1, k2, k3, k4⟩
    refine ⟨k1, fun h => h1.1 (k2 h), fun h => ?_, fun h => ?_⟩
    · obtain ⟨u, hu⟩ := h2.2 h; exact k3 u hu
    · obtain ⟨u, hu, hl⟩ := h3.2 h; exact k4 u hu hl
  · rintro ⟨k1, k2, k3, k4⟩
    exact ⟨hs, k1, fun h => h1.2 (k2 h), fun u hu => k3 (h2.1 ⟨u, hu⟩), fun u hu hl => k4 (h3.1 ⟨u, hu, hl⟩)⟩

theorem nextBase_spec {b : Base} {r : List Char} (hb : BaseOk b r) (hs : Shaped r) (c : Char) (hc : c ≠ ',') :
    match nextBase b (mapchar c) with
    | none => ¬ Shaped (r ++ [c.toLower])
    | some b' => Shaped (r ++ [c.toLower]) ∧ BaseOk b' (r ++ [c.toLower]) := by
  have hk := okc c
  have hle := mapchar_le c
  have h10 : mapchar c ≠ 10 := fun h => hc (hk.comma.2 h)
  have hlone := base_lone hb
  rw [shaped_step hb hs]
  -- the class of the letter
  have hcase : mapchar c < 5 ∨ mapchar c = 5 ∨ (6 ≤ mapchar c ∧ mapchar c ≤ 8) ∨ mapchar c = 9 ∨ mapchar c = 11 := by
    omega
  rcases hcase with h | h | h | h | h
  · have hv := hk.vowel.2 h
    have hy : ¬ c.toLower = 'y' := fun e => by have := hk.y.1 e; omega
    have ha : ¬ c.toLower = '\'' := fun e => by have := hk.apos.1 e; omega
    have hbr : r ++ [c.toLower] ≠ [] ∧ BreakBefore (r ++ [c.toLower]) := ⟨by simp, (break_snoc _ _).2 (Or.inl hv)⟩
    cases b <;> simp [nextBase, h, show mapchar c < 6 by omega, hv, hy, ha, BaseOk, hbr]
  · have hy := hk.y.2 h
    have hv : ¬ Vowel c.toLower := fun e => by have := hk.vowel.1 e; omega
    have ha : ¬ c.toLower = '\'' := fun e => by have := hk.apos.1 e; omega
    have hbr : BreakBefore (r ++ [c.toLower]) ↔ ¬ LoneY r := by rw [break_snoc]; simp [hy, not_vowel_y]
    have hwk : WeakBreakBefore (r ++ [c.toLower]) ↔ LoneY r := by rw [weak_snoc]; simp [hy]
    cases b <;> simp [nextBase, h, hv, hy, BaseOk] <;> (simp only [hy] at hbr hwk; simp [hbr, hwk, hlone])
  · have hcn := hk.cons.2 h
    have hv : ¬ Vowel c.toLower := fun e => by have := hk.vowel.1 e; omega
    have hy : ¬ c.toLower = 'y' := fun e => by have := hk.y.1 e; omega
    have ha : ¬ c.toLower = '\'' := fun e => by have := hk.apos.1 e; omega
    have hbc : ∃ u d, r ++ [c.toLower] = u ++ [d] ∧ Consonant d := ⟨r, _, rfl, hcn⟩
    cases b <;> simp only [nextBase, show ¬ mapchar c < 5 by omega, show ¬ mapchar c = 5 by omega,
      show ¬ mapchar c < 6 by omega, show mapchar c < 9 by omega, if_true, if_false, BaseOk] <;>
      simp only [hcn, hv, hy, ha, hbc, or_true, true_or, or_self, not_false_eq_true, implies_true, and_self,
        false_implies, true_and, reduceCtorEq, not_true_eq_false, and_false, forall_const, and_true, not_false_eq_true]
  · have ha := hk.apos.2 h
    have hba : ∃ u, r ++ [c.toLower] = u ++ ['\''] := ⟨r, by rw [ha]⟩
    cases b <;> simp [nextBase, h, ha, BaseOk] <;> decide
  · have hv : ¬ Vowel c.toLower := fun e => by have := hk.vowel.1 e; omega
    have hy : ¬ c.toLower = 'y' := fun e => by have := hk.y.1 e; omega
    have ha : ¬ c.toLower = '\'' := fun e => by have := hk.apos.1 e; omega
    have hcn : ¬ Consonant c.toLower := fun e => by have := hk.cons.1 e; omega
    cases b <;> simp [nextBase, h, hv, hy, ha, hcn]

/-! ## The beginnings of traps -/

def X : Nat → List Char
  | 1 => ['l']
  | 2 => ['l', 'a']
  | 3 => ['l', 'a', 'i']
  | 4 => ['d']
  | 5 => ['d', 'o']
  | _ => ['d', 'o', 'i']

/-- `r` ends in part `k` of a trap word that begins at letter `i`. -/
def Has (k : Nat) (wk : Bool) (r : List Char) (i : Nat) : Prop :=
  ∃ u, r = u ++ X k ∧ Brk wk u ∧ u.length = i

theorem has_one (k : Nat) (x : Char) (hX : X k = [x]) (wk : Bool) (r : List Char) (l : Char) (i : Nat) :
    Has k wk (r ++ [l]) i ↔ l = x ∧ Brk wk r ∧ r.length = i := by
  unfold Has
  rw [hX]
  constructor
  · rintro ⟨u, h, h1, h2⟩
    rw [snoc_inj] at h
    obtain ⟨rfl, rfl⟩ := h
    exact ⟨rfl, h1, h2⟩
  · rintro ⟨rfl, h1, h2⟩
    exact ⟨r, rfl, h1, h2⟩

theorem has_more (k k' : Nat) (x : Char) (hX : X k' = X k ++ [x]) (wk : Bool) (r : List Char) (l : Char) (i : Nat) :
    Has k' wk (r ++ [l]) i ↔ l = x ∧ Has k wk r i := by
  unfold Has
  rw [hX]
  constructor
  · rintro ⟨u, h, h1, h2⟩
    rw [← List.append_assoc, snoc_inj] at h
    exact ⟨h.2, u, h.1, h1, h2⟩
  · rintro ⟨rfl, u, rfl, h1, h2⟩
    exact ⟨u, by simp, h1, h2⟩

theorem trap_snoc (wk : Bool) (r : List Char) (f : Char) (i : Nat) :
    Trap (Brk wk) (r ++ [f]) i ↔ (Consonant f ∨ f = '\'') ∧ (Has 2 wk r i ∨ Has 3 wk r i ∨ Has 6 wk r i) := by
  unfold Trap Has
  constructor
  · rintro ⟨u, x, g, h, h1, h2, h3, h4⟩
    rw [snoc_inj] at h
    obtain ⟨rfl, rfl⟩ := h
    refine ⟨h4, ?_⟩
    rcases h3 with rfl | rfl | rfl
    · exact Or.inl ⟨u, rfl, h2, h1⟩
    · exact Or.inr (Or.inl ⟨u, rfl, h2, h1⟩)
    · exact Or.inr (Or.inr ⟨u, rfl, h2, h1⟩)
  · rintro ⟨h4, ⟨u, rfl, h2, h1⟩ | ⟨u, rfl, h2, h1⟩ | ⟨u, rfl, h2, h1⟩⟩
    · exact ⟨u, X 2, f, rfl, h1, h2, Or.inl rfl, h4⟩
    · exact ⟨u, X 3, f, rfl, h1, h2, Or.inr (Or.inl rfl), h4⟩
    · exact ⟨u, X 6, f, rfl, h1, h2, Or.inr (Or.inr rfl), h4⟩

/-- What the small automaton knows. -/
structure Knows (s : A) (r : List Char) : Prop where
  shaped : Shaped r
  base : BaseOk s.base r
  range : s.prog ≤ 6
  has : ∀ k, 1 ≤ k → k ≤ 6 → ∀ wk, (∃ i, Has k wk r i) ↔ s.prog = k ∧ s.weak = wk

theorem knows_start : Knows aStart [] := by
  refine ⟨⟨?_, ?_, ?_, ?_⟩, rfl, by decide, ?_⟩
  · simp
  · intro u v h; simp at h
  · intro u c v h; simp at h
  · intro u c v h; simp at h
  · intro k h1 h2 wk
    constructor
    · rintro ⟨i, u, h, _⟩
      have : k = 1 ∨ k = 2 ∨ k = 3 ∨ k = 4 ∨ k = 5 ∨ k = 6 := by omega
      rcases this with rfl | rfl | rfl | rfl | rfl | rfl <;> simp [X] at h
    · rintro ⟨h, _⟩
      simp only [aStart] at h
      omega

theorem has_step {s : A} {r : List Char} (h : Knows s r) (c : Char) (k : Nat) (h1 : 1 ≤ k) (h2 : k ≤ 6) (wk : Bool) :
    (∃ i, Has k wk (r ++ [c.toLower]) i) ↔ nextProg s (mapchar c) = (k, wk) := by
  have hk := okc c
  have hop := opens_iff h.base
  have hh := h.has
  have hone : ∀ j x, X j = [x] → ((∃ i, Has j wk (r ++ [c.toLower]) i) ↔ c.toLower = x ∧ opens s.base = some wk) := by
    intro j x hX
    rw [hop]
    constructor
    · rintro ⟨i, hi⟩
      rw [has_one j x hX] at hi
      exact ⟨hi.1, hi.2.1⟩
    · rintro ⟨h1, h2⟩
      exact ⟨r.length, (has_one j x hX _ _ _ _).2 ⟨h1, h2, rfl⟩⟩
  have hmore : ∀ j j' x, 1 ≤ j → j ≤ 6 → X j' = X j ++ [x] →
      ((∃ i, Has j' wk (r ++ [c.toLower]) i) ↔ c.toLower = x ∧ s.prog = j ∧ s.weak = wk) := by
    intro j j' x k1 k2 hX
    rw [← hh j k1 k2 wk]
    constructor
    · rintro ⟨i, hi⟩
      rw [has_more j j' x hX] at hi
      exact ⟨hi.1, i, hi.2⟩
    · rintro ⟨h1, i, h2⟩
      exact ⟨i, (has_more j j' x hX _ _ _ _).2 ⟨h1, h2⟩⟩
  have hopb : ∀ b : Bool, (∃ w, opens s.base = some w) ↔ (opens s.base).isSome = true := by
    intro b; cases opens s.base <;> simp
  unfold nextProg
  have hkk : k = 1 ∨ k = 2 ∨ k = 3 ∨ k = 4 ∨ k = 5 ∨ k = 6 := by omega
  generalize hm : mapchar c = m at *
  generalize ho : opens s.base = o at *
  rcases hkk with rfl | rfl | rfl | rfl | rfl | rfl
  · rw [hone 1 'l' rfl, hk.l, hm]
    rcases o with _ | w <;> repeat' split
    all_goals simp_all <;> omega
  · rw [hmore 1 2 'a' (by omega) (by omega) rfl, hk.a, hm]
    rcases o with _ | w <;> repeat' split
    all_goals simp_all <;> omega
  · rw [hmore 2 3 'i' (by omega) (by omega) rfl, hk.i, hm]
    rcases o with _ | w <;> repeat' split
    all_goals simp_all <;> omega
  · rw [hone 4 'd' rfl, hk.d, hm]
    rcases o with _ | w <;> repeat' split
    all_goals simp_all <;> omega
  · rw [hmore 4 5 'o' (by omega) (by omega) rfl, hk.o, hm]
    rcases o with _ | w <;> repeat' split
    all_goals simp_all <;> omega
  · rw [hmore 5 6 'i' (by omega) (by omega) rfl, hk.i, hm]
    rcases o with _ | w <;> repeat' split
    all_goals simp_all <;> omega

theorem hit_step {s : A} {r : List Char} (h : Knows s r) (c : Char) (wk : Bool) :
    (∃ i, Trap (Brk wk) (r ++ [c.toLower]) i) ↔ nextHit s (mapchar c) = some wk := by
  have hk := okc c
  have h2 := h.has 2 (by omega) (by omega) wk
  have h3 := h.has 3 (by omega) (by omega) wk
  have h6 := h.has 6 (by omega) (by omega) wk
  have hcls : (Consonant c.toLower ∨ c.toLower = '\'') ↔ 6 ≤ mapchar c ∧ mapchar c ≤ 9 := by
    rw [hk.cons, hk.apos]; omega
  have hex : (∃ i, Trap (Brk wk) (r ++ [c.toLower]) i) ↔ (6 ≤ mapchar c ∧ mapchar c ≤ 9) ∧
      ((∃ i, Has 2 wk r i) ∨ (∃ i, Has 3 wk r i) ∨ (∃ i, Has 6 wk r i)) := by
    rw [← hcls]
    constructor
    · rintro ⟨i, hi⟩
      rw [trap_snoc] at hi
      obtain ⟨ha, hb⟩ := hi
      refine ⟨ha, ?_⟩
      rcases hb with hb | hb | hb
      · exact Or.inl ⟨i, hb⟩
      · exact Or.inr (Or.inl ⟨i, hb⟩)
      · exact Or.inr (Or.inr ⟨i, hb⟩)
    · rintro ⟨ha, ⟨i, hb⟩ | ⟨i, hb⟩ | ⟨i, hb⟩⟩
      · exact ⟨i, (trap_snoc _ _ _ _).2 ⟨ha, Or.inl hb⟩⟩
      · exact ⟨i, (trap_snoc _ _ _ _).2 ⟨ha, Or.inr (Or.inl hb)⟩⟩
      · exact ⟨i, (trap_snoc _ _ _ _).2 ⟨ha, Or.inr (Or.inr hb)⟩⟩
  rw [hex, h2, h3, h6]
  unfold nextHit
  split
  · rename_i h'
    simp only [Option.some.injEq]
    constructor
    · rintro ⟨_, ⟨_, h⟩ | ⟨_, h⟩ | ⟨_, h⟩⟩ <;> exact h
    · intro hw
      exact ⟨h'.2, by rcases h'.1 with h | h | h <;> simp [h, hw]⟩
  · rename_i h'
    simp only [reduceCtorEq, iff_false]
    rintro ⟨ha, hb⟩
    exact h' ⟨by rcases hb with ⟨h, _⟩ | ⟨h, _⟩ | ⟨h, _⟩ <;> simp [h], ha⟩

theorem nextProg_le (s : A) (t : Nat) : (nextProg s t).1 ≤ 6 := by
  unfold nextProg
  repeat' split
  all_goals simp

theorem knows_step {s : A} {r : List Char} (h : Knows s r) (c : Char) (hc : c ≠ ',') :
    match aStep s (mapchar c) with
    | none => ¬ Shaped (r ++ [c.toLower])
    | some s' => Knows s' (r ++ [c.toLower]) ∧ s'.hit = nextHit s (mapchar c) := by
  have hb := nextBase_spec h.base h.shaped c hc
  unfold aStep
  cases hn : nextBase s.base (mapchar c) with
  | none => rw [hn] at hb; exact hb
  | some b =>
    rw [hn] at hb
    refine ⟨⟨hb.1, hb.2, nextProg_le _ _, fun k h1 h2 wk => ?_⟩, rfl⟩
    rw [has_step h c k h1 h2 wk]
    simp [Prod.ext_iff]

theorem letters_append (u v : List Char) : letters (u ++ v) = letters u ++ letters v := by
  unfold letters; simp

theorem letters_comma : letters [','] = [] := by decide

theorem letters_one {c : Char} (hc : c ≠ ',') : letters [c] = [c.toLower] := by
  unfold letters; simp [hc]

/-- The position of the letter that comes next. -/
theorem position_next (done rest : List Char) (c : Char) (hc : c ≠ ',') :
    position (done ++ c :: rest) (letters done).length = some done.length := by
  unfold position
  have hlen : (done ++ c :: rest).length = done.length + (1 + rest.length) := by simp; omega
  rw [hlen, List.range_add, List.filter_append]
  have h1 : ((List.range done.length).filter
      (fun p => decide ((done ++ c :: rest)[p]? ≠ some ','))).length = (letters done).length := by
    have : (List.range done.length).filter (fun p => decide ((done ++ c :: rest)[p]? ≠ some ',')) =
        (List.range done.length).filter (fun p => decide (done[p]? ≠ some ',')) := by
      apply List.filter_congr
      intro p hp
      rw [List.getElem?_append_left (List.mem_range.1 hp)]
    rw [this]
    unfold letters
    rw [List.length_map]
    clear this hlen
    induction done with
    | nil => rfl
    | cons x done ih =>
      rw [List.length_cons, List.range_succ_eq_map, List.filter_cons, List.filter_map, List.filter_cons]
      have h2 : (List.range done.length).filter ((fun p => decide ((x :: done)[p]? ≠ some ',')) ∘ Nat.succ) =
          (List.range done.length).filter (fun p => decide (done[p]? ≠ some ',')) := by
        apply List.filter_congr; intro p _; simp
      rw [h2]
      by_cases hx : x = ','
      · simp only [hx, List.getElem?_cons_zero, ne_eq, not_true_eq_false, decide_false, Bool.false_eq_true,
          if_false, List.length_map]
        exact ih
      · simp only [hx, List.getElem?_cons_zero, ne_eq, Option.some.injEq, not_false_eq_true, decide_true,
          if_true, List.length_map, List.length_cons]
        rw [ih]
  rw [List.getElem?_append_right (by omega), h1, Nat.sub_self]
  rw [Nat.add_comm 1, List.range_succ_eq_map, List.map_cons, List.filter_cons]
  rw [if_pos]
  · simp
  · simp [hc]

/-- The outcome of a run, in the words of the specification. -/
def outcome : Except Crash Answer → Outcome
  | .error .uninit => .unset
  | .error _ => .outside
  | .ok a => .says a.bad a.split a.found

def aFinish : Except Crash (Option A × Option (Nat × Nat)) → Except Crash Answer
  | .error e => .error e
  | .ok (none, _) => .error .uninit
  | .ok (some s, found) => .ok ⟨!decide (s.base = .c ∧ s.hit = none), decide (s.hit = some false), found⟩

theorem noTrap_iff (s : List Char) (n : Nat) :
    NoTrap s n ↔ ∀ p, p <+: s → p.length < n → ∀ wk i, ¬ Trap (Brk wk) p i := by
  unfold NoTrap
  constructor
  · intro h p hp hl wk i
    cases wk
    · exact (h p hp hl i).1
    · exact (h p hp hl i).2
  · intro h p hp hl i
    exact ⟨h p hp hl false i, h p hp hl true i⟩

theorem loop_says (word rest : List Char) : ∀ (done : List Char) (s : A) (ladoi : Option Nat),
    word = done ++ rest → Knows s (letters done) → s.hit = none →
    NoTrap (letters word) ((letters done).length + 1) →
    (∀ k wk i, 1 ≤ k → k ≤ 6 → Has k wk (letters done) i → ladoi = position word i ∧ ladoi.isSome) →
    Says word (outcome (aFinish (aLoop rest done.length s (if letters done = [] then none else some s) ladoi))) := by
  induction rest with
  | nil =>
    intro done s ladoi hw hs hhit hno _
    rw [List.append_nil] at hw
    subst hw
    rw [aLoop]
    by_cases he : letters word = []
    · rw [if_pos he]; exact .nothing he
    · rw [if_neg he]
      simp only [aFinish, outcome, hhit, and_true, reduceCtorEq, decide_false]
      have hend : EndsInConsonant (letters word) ↔ s.base = .c := by
        have hl := base_lone hs.base
        unfold LoneY at hl
        simp only [he, false_or] at hl
        unfold EndsInConsonant
        rw [hl]
        constructor
        · rintro (h | h)
          · have := hs.base; rw [h] at this; exact absurd this he
          · exact h
        · exact Or.inr
      by_cases hc : s.base = .c
      · simp only [hc, decide_true, Bool.not_true]
        exact .good hs.shaped hno (hend.2 hc)
      · simp only [hc, decide_false, Bool.not_false]
        exact .noEnd he hs.shaped hno (fun h => hc (hend.1 h))
  | cons c rest ih =>
    intro done s ladoi hw hs hhit hno hlad
    rw [aLoop]
    have hw' : word = (done ++ [c]) ++ rest := by rw [hw]; simp
    have hlen : (done ++ [c]).length = done.length + 1 := by simp
    by_cases hc : c = ','
    · rw [if_pos ((okc c).comma.1 hc)]
      have hl : letters (done ++ [c]) = letters done := by rw [letters_append, hc, letters_comma, List.append_nil]
      have := ih (done ++ [c]) s ladoi hw' (hl ▸ hs) hhit (hl ▸ hno) (hl ▸ hlad)
      rw [hl, hlen] at this
      exact this
    · rw [if_neg (fun h => hc ((okc c).comma.2 h))]
      have hl : letters (done ++ [c]) = letters done ++ [c.toLower] := by rw [letters_append, letters_one hc]
      have hpre : letters done ++ [c.toLower] <+: letters word := by
        rw [hw', letters_append, hl]; exact List.prefix_append _ _
      have hplen : (letters done ++ [c.toLower]).length = (letters done).length + 1 := by simp
      have hpos : position word (letters done).length = some done.length := by
        rw [hw]; exact position_next done rest c hc
      have hstep := knows_step hs c hc
      cases ha : aStep s (mapchar c) with
      | none =>
        rw [ha] at hstep
        exact .shapeless _ hpre hstep (by rw [hplen]; exact hno)
      | some s' =>
        rw [ha] at hstep
        obtain ⟨hk, hh⟩ := hstep
        simp only
        cases hit : s'.hit with
        | some wk =>
          rw [if_pos (by simp)]
          rw [hh] at hit
          obtain ⟨i, hi⟩ := (hit_step hs c wk).2 hit
          have hi' := hi
          rw [trap_snoc] at hi
          have hl2 : ladoi = position word i ∧ ladoi.isSome := by
            rcases hi.2 with h | h | h
            · exact hlad 2 wk i (by omega) (by omega) h
            · exact hlad 3 wk i (by omega) (by omega) h
            · exact hlad 6 wk i (by omega) (by omega) h
          cases hlo : ladoi with
          | none => rw [hlo] at hl2; simp at hl2
          | some l =>
            rw [hlo] at hl2
            simp only [aFinish, outcome]
            rw [hh, hit]
            have hp1 : position word ((letters done ++ [c.toLower]).length - 1) = some done.length := by
              rw [hplen]; exact hpos
            cases wk with
            | false =>
              simp only [reduceCtorEq, and_false, decide_false, Bool.not_false, decide_true]
              exact .cut _ i l done.length hpre hk.shaped (by rw [hplen]; exact hno) hi' hl2.1.symm hp1
            | true =>
              have : decide (some true = some false) = false := by decide
              simp only [reduceCtorEq, and_false, decide_false, Bool.not_false, this]
              exact .weak _ i l done.length hpre hk.shaped (by rw [hplen]; exact hno) hi' hl2.1.symm hp1
        | none =>
          rw [if_neg (by simp)]
          have hih := ih (done ++ [c]) s' (if seen s' then some done.length else ladoi) hw' (by rw [hl]; exact hk) hit
            ?_ ?_
          · rw [hl, hlen, if_neg snoc_ne_nil] at hih
            exact hih
          · rw [noTrap_iff] at hno ⊢
            rw [hl, hplen]
            intro p hp hpl wk i ht
            by_cases hpe : p.length < (letters done).length + 1
            · exact hno p hp hpe wk i ht
            · have : p = letters done ++ [c.toLower] := by
                have h1 := List.prefix_iff_eq_take.1 hp
                have h2 := List.prefix_iff_eq_take.1 hpre
                rw [h1, h2, hplen]
                congr 1
                omega
              rw [this] at ht
              have := (hit_step hs c wk).1 ⟨i, ht⟩
              rw [← hh, hit] at this
              cases this
          · rw [hl]
            intro k wk i h1 h2 hhas
            have hp := (hk.has k h1 h2 wk).1 ⟨i, hhas⟩
            have hkk : k = 1 ∨ k = 2 ∨ k = 3 ∨ k = 4 ∨ k = 5 ∨ k = 6 := by omega
            have hold : ∀ j x, 1 ≤ j → j ≤ 6 → X k = X j ++ [x] → k ≠ 1 → k ≠ 4 →
                (if seen s' then some done.length else ladoi) = position word i ∧
                (if seen s' then some done.length else ladoi).isSome := by
              intro j x j1 j2 hX k1 k4
              have hseen : seen s' = false := by
                unfold seen
                rw [hp.1]
                simp [k1, k4]
              rw [hseen]
              exact hlad j wk i j1 j2 ((has_more j k x hX _ _ _ _).1 hhas).2
            have hnew : ∀ x, X k = [x] → (k = 1 ∨ k = 4) →
                (if seen s' then some done.length else ladoi) = position word i ∧
                (if seen s' then some done.length else ladoi).isSome := by
              intro x hX hk14
              have hseen : seen s' = true := by
                unfold seen
                rw [hp.1]
                rcases hk14 with h | h <;> simp [h]
              rw [hseen]
              rw [← ((has_one k x hX _ _ _ _).1 hhas).2.2, hpos]
              exact ⟨rfl, rfl⟩
            rcases hkk with rfl | rfl | rfl | rfl | rfl | rfl
            · exact hnew 'l' rfl (Or.inl rfl)
            · exact hold 1 'a' (by omega) (by omega) rfl (by omega) (by omega)
            · exact hold 2 'i' (by omega) (by omega) rfl (by omega) (by omega)
            · exact hnew 'd' rfl (Or.inr rfl)
            · exact hold 4 'o' (by omega) (by omega) rfl (by omega) (by omega)
            · exact hold 5 'i' (by omega) (by omega) rfl (by omega) (by omega)

/-! ## The specification is a function -/

theorem trap_position {wk wk' : Bool} {p : List Char} {i i' : Nat} (h : Trap (Brk wk) p i) (h' : Trap (Brk wk') p i') :
    i = i' ∧ wk = wk' := by
  obtain ⟨u, x, f, rfl, rfl, hb, hx, _⟩ := h
  obtain ⟨u', x', f', he, rfl, hb', hx', _⟩ := h'
  rw [snoc_inj] at he
  obtain ⟨he, _⟩ := he
  have hu : u = u' := by
    rcases hx with rfl | rfl | rfl <;> rcases hx' with rfl | rfl | rfl
    all_goals
      have := congrArg List.reverse he
      simp at this
      try exact this
  subst hu
  refine ⟨rfl, ?_⟩
  cases wk <;> cases wk' <;> first | rfl | exact (brk_exclusive hb hb').elim | exact (brk_exclusive hb' hb).elim

theorem trap_not_nil {wk : Bool} {i : Nat} (h : Trap (Brk wk) [] i) : False := by
  obtain ⟨u, x, f, he, _⟩ := h
  simp at he

theorem first_trap {s p q : List Char} {wk wk' : Bool} {i i' : Nat} (hp : p <+: s) (hq : q <+: s)
    (np : NoTrap s p.length) (nq : NoTrap s q.length) (tp : Trap (Brk wk) p i) (tq : Trap (Brk wk') q i') :
    p = q ∧ i = i' ∧ wk = wk' := by
  rw [noTrap_iff] at np nq
  have h1 : ¬ q.length < p.length := fun h => np q hq h _ _ tq
  have h2 : ¬ p.length < q.length := fun h => nq p hp h _ _ tp
  have he : p = q := by
    rw [List.prefix_iff_eq_take.1 hp, List.prefix_iff_eq_take.1 hq]
    congr 1
    omega
  subst he
  exact ⟨rfl, trap_position tp tq⟩

theorem shapeless_no_trap {s p q : List Char} {wk : Bool} {i : Nat} (hp : p <+: s) (hq : q <+: s)
    (hs : ¬ Shaped p) (np : NoTrap s p.length) (hs' : Shaped q) (tq : Trap (Brk wk) q i) : False := by
  rw [noTrap_iff] at np
  by_cases h : q.length < p.length
  · exact np q hq h _ _ tq
  · exact hs (shaped_prefix hs' (List.prefix_of_prefix_length_le hp hq (by omega)))

theorem trap_noTrap {s p : List Char} {wk : Bool} {i : Nat} (hp : p <+: s) (tp : Trap (Brk wk) p i)
    (n : NoTrap s (s.length + 1)) : False := by
  rw [noTrap_iff] at n
  exact n p hp (by have := hp.length_le; omega) _ _ tp

theorem empty_facts {word p : List Char} (h : letters word = []) (hp : p <+: letters word) : p = [] := by
  rw [h] at hp; exact List.prefix_nil.1 hp

theorem says_unique {word : List Char} {o o' : Outcome} (h : Says word o) (h' : Says word o') : o = o' := by
  have hne : ∀ {p : List Char} {wk : Bool} {i : Nat}, letters word = [] → p <+: letters word →
      ¬ Trap (Brk wk) p i := by
    intro p wk i h1 h2 h3
    rw [empty_facts h1 h2] at h3; exact trap_not_nil h3
  have hns : ∀ {p : List Char}, letters word = [] → p <+: letters word → Shaped p := by
    intro p h1 h2; rw [empty_facts h1 h2]; exact knows_start.shaped
  have hnc : letters word = [] → ¬ EndsInConsonant (letters word) := by
    rintro h1 ⟨u, c, h2, _⟩; rw [h1] at h2; simp at h2
  have pos : ∀ {i i' l l' : Nat}, position word i = some l → position word i' = some l' → i = i' → l = l' := by
    intro i i' l l' h1 h2 h3; rw [h3, h2] at h1; exact (Option.some.inj h1).symm
  cases h with
  | nothing h1 =>
    cases h' with
    | nothing => rfl
    | shapeless q h2 h3 => exact (h3 (hns h1 h2)).elim
    | cut q i l t h2 _ _ h3 => exact (hne (wk := false) h1 h2 h3).elim
    | weak q i l t h2 _ _ h3 => exact (hne (wk := true) h1 h2 h3).elim
    | good _ _ h2 => exact (hnc h1 h2).elim
    | noEnd h2 => exact (h2 h1).elim
  | shapeless p p1 p2 p3 =>
    cases h' with
    | nothing h1 => exact (p2 (hns h1 p1)).elim
    | shapeless => rfl
    | cut q i l t h1 h2 _ h3 => exact (shapeless_no_trap (wk := false) p1 h1 p2 p3 h2 h3).elim
    | weak q i l t h1 h2 _ h3 => exact (shapeless_no_trap (wk := true) p1 h1 p2 p3 h2 h3).elim
    | good h1 => exact (p2 (shaped_prefix h1 p1)).elim
    | noEnd _ h1 => exact (p2 (shaped_prefix h1 p1)).elim
  | cut p i l t p1 p2 p3 p4 p5 p6 =>
    cases h' with
    | nothing h1 => exact (hne (wk := false) h1 p1 p4).elim
    | shapeless q h1 h2 h3 => exact (shapeless_no_trap (wk := false) h1 p1 h2 h3 p2 p4).elim
    | cut q i' l' t' q1 q2 q3 q4 q5 q6 =>
      obtain ⟨e1, e2, _⟩ := first_trap (wk := false) (wk' := false) p1 q1 p3 q3 p4 q4
      rw [pos p5 q5 e2, pos p6 q6 (by rw [e1])]
    | weak q i' l' t' q1 q2 q3 q4 q5 q6 =>
      obtain ⟨_, _, e⟩ := first_trap (wk := false) (wk' := true) p1 q1 p3 q3 p4 q4
      cases e
    | good _ h1 => exact (trap_noTrap (wk := false) p1 p4 h1).elim
    | noEnd _ _ h1 => exact (trap_noTrap (wk := false) p1 p4 h1).elim
  | weak p i l t p1 p2 p3 p4 p5 p6 =>
    cases h' with
    | nothing h1 => exact (hne (wk := true) h1 p1 p4).elim
    | shapeless q h1 h2 h3 => exact (shapeless_no_trap (wk := true) h1 p1 h2 h3 p2 p4).elim
    | cut q i' l' t' q1 q2 q3 q4 q5 q6 =>
      obtain ⟨_, _, e⟩ := first_trap (wk := true) (wk' := false) p1 q1 p3 q3 p4 q4
      cases e
    | weak q i' l' t' q1 q2 q3 q4 q5 q6 =>
      obtain ⟨e1, e2, _⟩ := first_trap (wk := true) (wk' := true) p1 q1 p3 q3 p4 q4
      rw [pos p5 q5 e2, pos p6 q6 (by rw [e1])]
    | good _ h1 => exact (trap_noTrap (wk := true) p1 p4 h1).elim
    | noEnd _ _ h1 => exact (trap_noTrap (wk := true) p1 p4 h1).elim
  | good p1 p2 p3 =>
    cases h' with
    | nothing h1 => exact (hnc h1 p3).elim
    | shapeless q h1 h2 => exact (h2 (shaped_prefix p1 h1)).elim
    | cut q i' l' t' q1 q2 q3 q4 => exact (trap_noTrap (wk := false) q1 q4 p2).elim
    | weak q i' l' t' q1 q2 q3 q4 => exact (trap_noTrap (wk := true) q1 q4 p2).elim
    | good => rfl
    | noEnd _ _ _ h1 => exact (h1 p3).elim
  | noEnd p0 p1 p2 p3 =>
    cases h' with
    | nothing h1 => exact (p0 h1).elim
    | shapeless q h1 h2 => exact (h2 (shaped_prefix p1 h1)).elim
    | cut q i' l' t' q1 q2 q3 q4 => exact (trap_noTrap (wk := false) q1 q4 p2).elim
    | weak q i' l' t' q1 q2 q3 q4 => exact (trap_noTrap (wk := true) q1 q4 p2).elim
    | good _ _ h1 => exact (p3 h1).elim
    | noEnd => rfl

/-- **C42**: for every string, and whatever sorting routine `dfasyn` used for the tables,
`is_bad_cmene` says exactly what the specification says: which names are bad, whether they can be cut
in two, where the word `la`, `lai` or `doi` begins and where it ends, and for which strings the
function reads a variable that was never set (no letter at all) or outside `exitval` (a letter that no
name can have there). -/
theorem bad_cmene_exact {G : Generated} (hG : Tables G) (word : List Char) (o : Outcome) :
    outcome (isBadCmene G word) = o ↔ Says word o := by
  have h : Says word (outcome (isBadCmene G word)) := by
    rw [isBadCmene_eq hG]
    have := loop_says word word [] aStart none rfl knows_start rfl ?_ ?_
    · exact this
    · rw [noTrap_iff]
      intro p hp hl wk i ht
      have : p = [] := by
        simp [letters] at hl
        exact hl
      subst this
      obtain ⟨u, x, f, he, _⟩ := ht
      simp at he
    · intro k wk i h1 h2 hhas
      have := (knows_start.has k h1 h2 wk).1 ⟨i, hhas⟩
      simp only [aStart] at this
      omega
  constructor
  · rintro rfl; exact h
  · exact says_unique h

/-- Commas and capitals make no difference to what is said. -/
theorem bad_cmene_letters {G : Generated} (hG : Tables G) (word word' : List Char)
    (h : letters word = letters word') (hp : ∀ k, position word k = position word' k) :
    outcome (isBadCmene G word) = outcome (isBadCmene G word') := by
  rw [bad_cmene_exact hG]
  have h' := (bad_cmene_exact hG word' _).1 rfl
  revert h'
  generalize outcome (isBadCmene G word') = o
  intro h'
  cases h' with
  | nothing a => exact .nothing (h ▸ a)
  | shapeless p a b c => exact .shapeless p (h ▸ a) b (h ▸ c)
  | cut p i l t a b c d e f => exact .cut p i l t (h ▸ a) b (h ▸ c) d (by rw [hp]; exact e) (by rw [hp]; exact f)
  | weak p i l t a b c d e f => exact .weak p i l t (h ▸ a) b (h ▸ c) d (by rw [hp]; exact e) (by rw [hp]; exact f)
  | good a b c => exact .good (h ▸ a) (h ▸ b) (h ▸ c)
  | noEnd a b c d => exact .noEnd (h ▸ a) (h ▸ b) (h ▸ c) (h ▸ d)

/-- A name is accepted exactly when it has the shape of a name, has no trap, and ends in a consonant. -/
theorem accepted_iff {G : Generated} (hG : Tables G) (word : List Char) :
    isBadCmene G word = .ok ⟨false, false, none⟩ ↔
      Shaped (letters word) ∧ NoTrap (letters word) ((letters word).length + 1) ∧ EndsInConsonant (letters word) := by
  have h := bad_cmene_exact hG word (.says false false none)
  have h1 : outcome (isBadCmene G word) = .says false false none ↔ isBadCmene G word = .ok ⟨false, false, none⟩ := by
    rcases isBadCmene G word with e | ⟨a, b, c⟩
    · cases e <;> simp [outcome]
    · simp [outcome]
  rw [← h1, h]
  constructor
  · intro h; cases h with
    | good a b c => exact ⟨a, b, c⟩
  · rintro ⟨a, b, c⟩; exact .good a b c

/-- **Defect**: a string without letters makes `is_bad_cmene` use `ns`, which has no value. -/
theorem no_letters_unset {G : Generated} (hG : Tables G) (word : List Char) (h : letters word = []) :
    isBadCmene G word = .error .uninit := by
  have h1 := (bad_cmene_exact hG word .unset).2 (.nothing h)
  revert h1
  rcases isBadCmene G word with e | ⟨a, b, c⟩
  · cases e <;> simp [outcome]
  · simp [outcome]

/-- **Defect**: `exitval[-1]` is read, for example for a vowel after a lone `y` and for a digit. -/
theorem reads_outside {G : Generated} (hG : Tables G) :
    isBadCmene G "kyan".toList = .error .bounds ∧ isBadCmene G "djan2".toList = .error .bounds := by
  rw [isBadCmene_eq hG, isBadCmene_eq hG]
  decide +kernel

/-- There are tables, so the theorems speak about something. -/
example : ∃ G, Tables G := by
  obtain ⟨a, start, nodes, h1, h2⟩ := tables_exist insertionSorter false
  exact ⟨_, _, _, _, _, _, h1, h2, rfl⟩

example {G : Generated} (hG : Tables G) : isBadCmene G "djan".toList = .ok ⟨false, false, none⟩ ∧
    isBadCmene G "Xu,LAD".toList = .ok ⟨true, true, some (3, 5)⟩ ∧
    isBadCmene G "xadoin".toList = .ok ⟨true, true, some (2, 5)⟩ ∧
    isBadCmene G "katylain".toList = .ok ⟨true, false, some (4, 7)⟩ ∧
    isBadCmene G "klain".toList = .ok ⟨false, false, none⟩ ∧
    isBadCmene G "djo".toList = .ok ⟨true, false, none⟩ ∧
    isBadCmene G "la'as".toList = .ok ⟨true, true, some (0, 2)⟩ := by
  simp only [isBadCmene_eq hG]
  decide +kernel

end Jbo.Bc
