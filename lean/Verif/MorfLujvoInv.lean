import Verif.MorfLujvo
import Verif.MorfCut
import Verif.MorfLujvoLang
/-!
# Lujvo and gismu: what the states of the automaton mean
-/

namespace Jbo.Morf
open Jbo.Dfasyn Jbo.Lujvo.Nfa Jbo.Lujvo.Spec

/-! ## Letters and tokens -/

/-- Neither a comma nor a capital letter. -/
def Plain (c : Char) : Prop := c ≠ ',' ∧ ¬ ('A' ≤ c ∧ c ≤ 'Z')

instance (c : Char) : Decidable (Plain c) := by unfold Plain; infer_instance

/-- What the table of letters says about a character. -/
def sortOk (c : Char) : Bool :=
  decide (Plain c → (isIn consSet (mapchar c % 32) = true ↔ C c) ∧ (isIn vowelSet (mapchar c % 32) = true ↔ V c) ∧
    (mapchar c % 32 = 30 ↔ c = '\'') ∧ (mapchar c % 32 = 25 ↔ c = 'y') ∧ (mapchar c % 32 = 14 ↔ c = 'n') ∧
    (mapchar c % 32 = 18 ↔ c = 'r'))

theorem sortOk_small : ∀ n < 128, sortOk (Char.ofNat n) = true := by decide +kernel

theorem sorts {c : Char} (hc : Plain c) :
    (isIn consSet (mapchar c % 32) = true ↔ C c) ∧ (isIn vowelSet (mapchar c % 32) = true ↔ V c) ∧
    (mapchar c % 32 = 30 ↔ c = '\'') ∧ (mapchar c % 32 = 25 ↔ c = 'y') ∧ (mapchar c % 32 = 14 ↔ c = 'n') ∧
    (mapchar c % 32 = 18 ↔ c = 'r') := by
  rcases Nat.lt_or_ge c.toNat 128 with h | h
  · have := sortOk_small c.toNat h
    rw [Char.ofNat_toNat] at this
    exact of_decide_eq_true this hc
  · rw [mapchar_big h]
    have hne : ∀ d : Char, d.toNat < 128 → c ≠ d := fun d hd => Bc.big_ne h hd
    have h1 : ¬ C c := fun hm => by
      have : ∀ c ∈ consonants, c.toNat < 128 := by decide
      have := this c hm; omega
    have h2 : ¬ V c := fun hm => by
      have : ∀ c ∈ vowels, c.toNat < 128 := by decide
      have := this c hm; omega
    refine ⟨⟨fun h => absurd h (by decide), fun h => absurd h h1⟩, ⟨fun h => absurd h (by decide), fun h => absurd h h2⟩, ⟨fun h => absurd h (by decide), fun h => absurd h (hne _ (by decide))⟩,
      ⟨fun h => absurd h (by decide), fun h => absurd h (hne _ (by decide))⟩, ⟨fun h => absurd h (by decide), fun h => absurd h (hne _ (by decide))⟩,
      ⟨fun h => absurd h (by decide), fun h => absurd h (hne _ (by decide))⟩⟩

/-- The number that the front end keeps for the last letter, and for the one before. -/
def sOf (x : Char) : Nat := if C x then mapchar x % 32 else 0
def lOf (p : Char) : Nat := s2l.getD (sOf p) 0

/-- The state of the front end after letters of which `x` is the last that is not a `y`, `p` the one
before that, and `z` the last. -/
structure Fits (f : Fe) (p x z : Char) : Prop where
  S : f.S = sOf x
  L : f.L = if C x then lOf p else 0
  plain : Plain z
  z : f.vsm.2.2 = vmapchar z
  near : f.vsm.2.2 ≠ 0

/-- Consonant after consonant. -/
def pairOk (L : Nat) (x c : Char) : Bool :=
  let t := (inact L (mapchar x % 32) (mapchar c % 32)).1
  Nat.ble 7 t && Nat.ble t 15 && (Nat.beq t 12 == !decide (Medial x c)) && ((Nat.beq t 8 || Nat.beq t 9 || Nat.beq t 15) == decide (Initial x c)) &&
  (Nat.beq t 15 == (Nat.beq L 1 && decide ([('d', 'j'), ('d', 'z'), ('t', 'c'), ('t', 's')].contains (x, c)))) &&
  (!(Nat.beq L 0 && x == 'n') || (Nat.beq t 7 == (c == 'r')))

theorem pairs_ok : ((List.range 4).all fun L => consonants.all fun x => consonants.all fun c => pairOk L x c) = true := by
  decide +kernel

/-- Consonant after something else. -/
theorem first_ok : (consonants.all fun c => let t := (inact 0 0 (mapchar c % 32)).1
    Nat.ble 4 t && Nat.ble t 6 && (Nat.beq t 4 == (c == 'r')) && (Nat.beq t 5 == (c == 'n'))) = true := by
  decide +kernel

theorem lOf_lt (p : Char) : lOf p < 4 := by
  have : ∀ n < 32, s2l.getD n 0 < 4 := by decide
  unfold lOf sOf
  split
  · exact this _ (Nat.mod_lt _ (by decide))
  · decide

theorem lOf_n : ∀ {p : Char}, lOf p = 1 ↔ p = 'n' := by
  intro p
  unfold lOf sOf
  by_cases h : C p
  · rw [if_pos h]
    have : ∀ p ∈ consonants, (s2l.getD (mapchar p % 32) 0 = 1 ↔ p = 'n') := by decide +kernel
    exact this p h
  · rw [if_neg h]
    constructor
    · intro h'; exact absurd h' (by decide)
    · rintro rfl; exact absurd (by decide) h

theorem lOf_notC {p : Char} (h : ¬ C p) : lOf p = 0 := by unfold lOf sOf; rw [if_neg h]; rfl

theorem Fits.L_lt {f : Fe} {p x z : Char} (h : Fits f p x z) : f.L < 4 := by
  rw [h.L]; split
  · exact lOf_lt p
  · decide

variable {f : Fe} {p x z c : Char}

theorem tok_eq (hf : f.vsm.2.2 ≠ 0) (c : Char) : f.tok c =
    if (f.entry c).1 = 1 ∨ (f.entry c).1 = 3 then vcheck f.vsm.2.1 f.vsm.2.2 (vmapchar c) else (f.entry c).1 := by
  unfold Fe.tok token Fe.entry
  dsimp only
  by_cases h1 : (inact f.L f.S (mapchar c % 32)).1 = 1
  · rw [if_pos h1, if_pos (.inl h1)]
  · rw [if_neg h1]
    by_cases h3 : (inact f.L f.S (mapchar c % 32)).1 = 3
    · rw [if_pos h3, if_pos (.inr h3)]
    · rw [if_neg h3, if_neg (fun h => hf h.2), if_neg (fun h => h.elim h1 h3)]

theorem entry_of_cons (hf : Fits f p x z) (hc : C c) : 4 ≤ (f.entry c).1 ∧ (f.entry c).1 ≤ 15 ∧
    (C x → pairOk f.L x c = true) ∧
    (¬ C x → (f.entry c).1 ≤ 6 ∧ ((f.entry c).1 = 4 ↔ c = 'r') ∧ ((f.entry c).1 = 5 ↔ c = 'n')) := by
  by_cases hx : C x
  · have h1 := List.all_eq_true.1 (List.all_eq_true.1 (List.all_eq_true.1 pairs_ok f.L (by
      rw [List.mem_range]; exact hf.L_lt)) x hx) c hc
    have h2 := h1
    unfold pairOk at h2
    simp only [Bool.and_eq_true] at h2
    obtain ⟨⟨⟨⟨⟨h2, h3⟩, _⟩, _⟩, _⟩, _⟩ := h2
    have h2 := Nat.le_of_ble_eq_true h2
    have h3 := Nat.le_of_ble_eq_true h3
    have he : (f.entry c).1 = (inact f.L (mapchar x % 32) (mapchar c % 32)).1 := by
      unfold Fe.entry; rw [hf.S, sOf, if_pos hx]
    rw [he]
    exact ⟨by omega, h3, fun _ => h1, fun h => absurd hx h⟩
  · have h1 := List.all_eq_true.1 first_ok c hc
    simp only [Bool.and_eq_true, beq_iff_eq] at h1
    obtain ⟨⟨⟨h1, h2⟩, h3⟩, h4⟩ := h1
    have h1 := Nat.le_of_ble_eq_true h1
    have h2 := Nat.le_of_ble_eq_true h2
    have he : (f.entry c).1 = (inact 0 0 (mapchar c % 32)).1 := by
      unfold Fe.entry; rw [hf.S, sOf, if_neg hx, hf.L, if_neg hx]
    rw [he]
    refine ⟨h1, by omega, fun h => absurd h hx, fun _ => ⟨h2, ?_, ?_⟩⟩
    · constructor
      · intro h; rw [h] at h3
        cases hb : c == 'r' with
        | true => exact beq_iff_eq.1 hb
        | false => rw [hb] at h3; cases h3
      · intro h; rw [h, beq_self_eq_true] at h3
        subst h; exact Nat.eq_of_beq_eq_true h3
    · constructor
      · intro h; rw [h] at h4
        cases hb : c == 'n' with
        | true => exact beq_iff_eq.1 hb
        | false => rw [hb] at h4; cases h4
      · intro h; rw [h, beq_self_eq_true] at h4
        subst h; exact Nat.eq_of_beq_eq_true h4

theorem tok_cons (hf : Fits f p x z) (hc : C c) : f.tok c = (f.entry c).1 := by
  have := entry_of_cons hf hc
  rw [tok_eq hf.near, if_neg (by omega)]

/-- The entry for other letters. -/
theorem entry_other (hp : Plain c) (hc : ¬ C c) : ((f.entry c).1 = 1 ↔ V c) ∧ ((f.entry c).1 = 2 ↔ c = '\'') ∧
    ((f.entry c).1 = 3 ↔ c = 'y') ∧ (f.entry c).1 ≤ 3 := by
  have he := entryOk f.L f.S (mapchar c % 32) (Nat.mod_lt _ (by decide))
  obtain ⟨s1, s2, s3, s4, _⟩ := sorts hp
  have hlt : (f.entry c).1 ≤ 3 := by
    rcases Nat.lt_or_ge (f.entry c).1 4 with h | h
    · omega
    · exact absurd (s1.1 (he.cons h)) hc
  have hv : ∀ c ∈ vowels, ∀ L S : Nat, (inact L S (mapchar c % 32)).1 = 1 := by
    intro c hc L S
    have : c = 'a' ∨ c = 'e' ∨ c = 'i' ∨ c = 'o' ∨ c = 'u' := by simpa [vowels] using hc
    rcases this with rfl | rfl | rfl | rfl | rfl
    all_goals
      unfold inact
      simp [mapchar, isIn, consSet, vowelSet, syllabic]
  refine ⟨⟨fun h => s2.1 (he.vowel h), fun h => hv c h _ _⟩, ⟨fun h => s3.1 (he.apos h), ?_⟩,
    ⟨fun h => s4.1 (he.y h), ?_⟩, hlt⟩
  · rintro rfl
    unfold Fe.entry inact
    simp [mapchar, isIn, consSet, vowelSet, syllabic]
  · rintro rfl
    unfold Fe.entry inact
    simp [mapchar, isIn, consSet, vowelSet, syllabic]

/-- The token of other letters is none of a consonant. -/
theorem tok_other (hf : Fits f p x z) (hp : Plain c) (hc : ¬ C c) :
    f.tok c = if V c ∨ c = 'y' then vcheck f.vsm.2.1 (vmapchar z) (vmapchar c) else if c = '\'' then 2 else 0 := by
  obtain ⟨h1, h2, h3, h4⟩ := entry_other (f := f) hp hc
  rw [tok_eq hf.near, hf.z]
  by_cases hv : V c ∨ c = 'y'
  · rw [if_pos hv, if_pos (hv.imp h1.2 h3.2)]
  · rw [if_neg hv, if_neg (fun h => hv (h.imp h1.1 h3.1))]
    by_cases ha : c = '\''
    · rw [if_pos ha, h2.2 ha]
    · rw [if_neg ha]
      have e1 : (f.entry c).1 ≠ 1 := fun h => hv (.inl (h1.1 h))
      have e2 : (f.entry c).1 ≠ 2 := fun h => ha (h2.1 h)
      have e3 : (f.entry c).1 ≠ 3 := fun h => hv (.inr (h3.1 h))
      omega

theorem tok_other_small (hf : Fits f p x z) (hp : Plain c) (hc : ¬ C c) : f.tok c ≤ 3 ∨ 16 ≤ f.tok c := by
  rw [tok_other hf hp hc]
  have := vcheck_kinds f.vsm.2.1 (vmapchar z) (vmapchar c)
  split
  · omega
  · split <;> omega

/-! ## What is asked of the context -/

inductive Flag
  | isC | z1 | zx | notC | nn
deriving DecidableEq, Repr

def Flag.holds : Flag → Char → Char → Char → Prop
  | .isC, _, x, _ => C x
  | .z1, _, _, z => vmapchar z = 1
  | .zx, _, x, z => z = x
  | .notC, _, x, _ => ¬ C x
  | .nn, p, x, _ => x = 'n' ∧ ¬ C p

/-- What a test on tokens needs. -/
def req : Test → List Flag
  | .med => [.isC]
  | .nomed => [.isC]
  | .ini => [.isC]
  | .iniNB => [.isC]
  | .bt => [.isC]
  | .v => [.z1]
  | .y => [.z1]
  | .dip => [.zx]
  | .r => [.notC]
  | .n => [.notC]
  | .nr => [.nn]
  | _ => []

def needs (q : Item) : List Flag := (if q = .e3 then [.isC] else []) ++ (rules q).flatMap (fun r => req r.1)

theorem vm_cons : ∀ c ∈ consonants, vmapchar c = 1 := by decide +kernel
theorem vm_V : ∀ c ∈ vowels, 3 ≤ vmapchar c := by decide +kernel

theorem vchk_1 (i : Nat) {k : Nat} (h : 3 ≤ k) {j : Nat} : vcheck i j k = 1 ↔ j = 1 := by
  obtain ⟨k, rfl⟩ := Nat.exists_eq_add_of_le' h
  unfold vcheck
  have e : Nat.ble 3 (k + 3) = true := by rw [Nat.ble_eq]; omega
  by_cases hj : j = 1
  · subst hj; simp [e]
  · simp only [e, Bool.and_true]
    have : ∀ b : Bool, (if b then (18 : Nat) else 0) ≠ 1 := by intro b; cases b <;> decide
    have h0 : ((k + 3 == 0) = false) := by simp
    constructor
    · intro h
      exfalso
      rw [h0] at h
      split at h <;> (try omega)
      split at h <;> (try omega)
      split at h <;> (try omega)
      split at h <;> (try omega)
      split at h <;> (try omega)
      split at h <;> (try omega)
      split at h
      · omega
      · split at h
        · simp_all
        · omega
    · intro h; exact absurd h hj

theorem vchk_y (i : Nat) {j : Nat} : vcheck i j 2 = 3 ↔ j = 1 := by
  unfold vcheck
  by_cases hj : j = 1
  · subst hj; simp
  · have : (j == 1) = false := by simpa using hj
    simp only [this, Bool.false_and]
    constructor
    · intro h
      exfalso
      revert h
      repeat' split
      all_goals simp_all
    · intro h; exact absurd h hj

theorem vchk_y_ne (i : Nat) {j : Nat} : vcheck i j 2 ≠ 1 ∧ vcheck i j 2 ≠ 16 ∧ vcheck i j 2 ≠ 2 := by
  unfold vcheck
  repeat' split
  all_goals simp_all

theorem vchk_v_ne (i : Nat) {j k : Nat} (h : 3 ≤ k) : vcheck i j k ≠ 3 ∧ vcheck i j k ≠ 2 := by
  unfold vcheck
  repeat' split
  all_goals simp_all

theorem vchk_16 {i j k : Nat} : vcheck i j k = 16 ↔ (j, k) ∈ [(3, 5), (3, 7), (4, 5), (6, 5)] := by
  unfold vcheck
  constructor
  · intro h
    repeat' split at h
    all_goals simp_all [or_assoc]
  · intro h
    simp only [List.mem_cons, Prod.mk.injEq, List.not_mem_nil, or_false] at h
    rcases h with ⟨rfl, rfl⟩ | ⟨rfl, rfl⟩ | ⟨rfl, rfl⟩ | ⟨rfl, rfl⟩ <;> rfl

def vmOk (z : Char) : Bool :=
  decide (Plain z → (vmapchar z = 3 ↔ z = 'a') ∧ (vmapchar z = 4 ↔ z = 'e') ∧ (vmapchar z = 5 ↔ z = 'i') ∧
    (vmapchar z = 6 ↔ z = 'o') ∧ (vmapchar z = 7 ↔ z = 'u'))

theorem vmOk_small : ∀ n < 128, vmOk (Char.ofNat n) = true := by decide +kernel

theorem vm_letters {z : Char} (hz : Plain z) : (vmapchar z = 3 ↔ z = 'a') ∧ (vmapchar z = 4 ↔ z = 'e') ∧
    (vmapchar z = 5 ↔ z = 'i') ∧ (vmapchar z = 6 ↔ z = 'o') ∧ (vmapchar z = 7 ↔ z = 'u') := by
  rcases Nat.lt_or_ge z.toNat 128 with h | h
  · have := vmOk_small z.toNat h
    rw [Char.ofNat_toNat] at this
    exact of_decide_eq_true this hz
  · rw [vmapchar_big h]
    have hne : ∀ d : Char, d.toNat < 128 → z ≠ d := fun d hd => Bc.big_ne h hd
    refine ⟨?_, ?_, ?_, ?_, ?_⟩ <;>
      exact ⟨fun h => absurd h (by decide), fun h => absurd h (hne _ (by decide))⟩

theorem dip_iff {z c : Char} (hz : Plain z) (hc : Plain c) :
    (vmapchar z, vmapchar c) ∈ [(3, 5), (3, 7), (4, 5), (6, 5)] ↔ (z, c) ∈ diphthongs := by
  obtain ⟨a1, a2, _, a4, _⟩ := vm_letters hz
  obtain ⟨_, _, b3, _, b5⟩ := vm_letters hc
  simp only [diphthongs, List.mem_cons, Prod.mk.injEq, List.not_mem_nil, or_false, a1, a2, a4, b3, b5]

theorem not_C_special : ¬ C '\'' ∧ ¬ C 'y' ∧ ¬ V '\'' ∧ ¬ V 'y' ∧ C 'r' ∧ C 'n' := by decide

theorem ini_right {a b : Char} (h : Initial a b) : C b := by
  have : ∀ q ∈ Lujvo.Spec.initialPairs, q.2 ∈ consonants := by decide
  exact this _ h

theorem bad_right {a b c : Char} (h : [a, b, c] ∈ badTriples) : C c := by
  simp only [badTriples, List.mem_cons, List.cons.injEq, List.not_mem_nil, or_false] at h
  rcases h with ⟨_, _, rfl, _⟩ | ⟨_, _, rfl, _⟩ | ⟨_, _, rfl, _⟩ | ⟨_, _, rfl, _⟩ <;> decide

theorem dip_right {a b : Char} (h : (a, b) ∈ diphthongs) : V b := by
  have : ∀ q ∈ diphthongs, q.2 ∈ vowels := by decide
  exact this _ h

/-- The facts about two consonants, unpacked. -/
structure PairIs (L : Nat) (x c : Char) (t : Nat) : Prop where
  lo : 7 ≤ t
  hi : t ≤ 15
  med : t = 12 ↔ ¬ Medial x c
  ini : (t = 8 ∨ t = 9 ∨ t = 15) ↔ Initial x c
  bad : t = 15 ↔ L = 1 ∧ (x, c) ∈ [('d', 'j'), ('d', 'z'), ('t', 'c'), ('t', 's')]
  nr : L = 0 → x = 'n' → (t = 7 ↔ c = 'r')

theorem nbeq_iff {a b : Nat} : Nat.beq a b = true ↔ a = b := ⟨Nat.eq_of_beq_eq_true, fun h => h ▸ Nat.beq_refl a⟩

theorem pairIs (hf : Fits f p x z) (hx : C x) (hc : C c) : PairIs f.L x c (f.tok c) := by
  have h1 := (entry_of_cons hf hc).2.2.1 hx
  rw [tok_cons hf hc]
  have he : (f.entry c).1 = (inact f.L (mapchar x % 32) (mapchar c % 32)).1 := by
    unfold Fe.entry; rw [hf.S, sOf, if_pos hx]
  rw [he]
  unfold pairOk at h1
  simp only [Bool.and_eq_true] at h1
  generalize (inact f.L (mapchar x % 32) (mapchar c % 32)).1 = t at h1
  obtain ⟨⟨⟨⟨⟨h1, h2⟩, h3⟩, h4⟩, h5⟩, h6⟩ := h1
  refine ⟨Nat.le_of_ble_eq_true h1, Nat.le_of_ble_eq_true h2, ?_, ?_, ?_, ?_⟩
  · rw [← nbeq_iff, beq_iff_eq.1 h3]; simp
  · have := beq_iff_eq.1 h4
    rw [← decide_eq_true_iff (p := Initial x c), ← this]
    simp [nbeq_iff, or_assoc]
  · rw [← nbeq_iff, beq_iff_eq.1 h5, Bool.and_eq_true, nbeq_iff, decide_eq_true_iff, List.contains_iff_mem]
  · intro hL hx
    subst hx
    rw [hL] at h6
    have h7 : Nat.beq t 7 = (c == 'r') := by simpa using h6
    rw [← nbeq_iff, h7, beq_iff_eq]

/-- The tests on tokens are the tests on letters. -/
theorem test_tok (hf : Fits f p x z) (hp : Plain c) (T : Test) (hq : ∀ g ∈ req T, g.holds p x z) :
    onTok T (f.tok c) = true ↔ T.ok p x c := by
  by_cases hc : C c
  · have hlo : 4 ≤ f.tok c ∧ f.tok c ≤ 15 := by
      rw [tok_cons hf hc]; have := entry_of_cons hf hc; exact ⟨this.1, this.2.1⟩
    have hnv : ¬ V c := cNotV hc
    have hna : c ≠ '\'' := fun h => not_C_special.1 (h ▸ hc)
    have hny : c ≠ 'y' := fun h => not_C_special.2.1 (h ▸ hc)
    cases T with
    | cons =>
      simp only [onTok, Test.ok, Bool.and_eq_true]
      exact ⟨fun _ => hc, fun _ => ⟨by rw [Nat.ble_eq]; exact hlo.1, by rw [Nat.ble_eq]; exact hlo.2⟩⟩
    | med =>
      have h := pairIs hf (hq .isC (by simp [req])) hc
      simp only [onTok, Test.ok, Bool.and_eq_true, Nat.ble_eq, Bool.not_eq_true', ← Bool.not_eq_true, nbeq_iff, h.med]
      exact ⟨fun h' => ⟨hc, Classical.byContradiction h'.2⟩, fun h' => ⟨⟨h.lo, h.hi⟩, fun h'' => h'' h'.2⟩⟩
    | nomed =>
      have h := pairIs hf (hq .isC (by simp [req])) hc
      simp only [onTok, Test.ok, nbeq_iff, h.med]
      exact ⟨fun h' => ⟨hc, h'⟩, fun h' => h'.2⟩
    | ini =>
      have h := pairIs hf (hq .isC (by simp [req])) hc
      simp only [onTok, Test.ok, Bool.or_eq_true, nbeq_iff, or_assoc, h.ini]
    | iniNB =>
      have hx : C x := hq .isC (by simp [req])
      have h := pairIs hf hx hc
      have hL := hf.L
      rw [if_pos hx] at hL
      simp only [onTok, Test.ok, Bool.or_eq_true, nbeq_iff]
      have hb : f.tok c = 15 ↔ [p, x, c] ∈ badTriples := by
        rw [h.bad, hL, lOf_n]
        simp only [badTriples, List.mem_cons, List.cons.injEq, Prod.mk.injEq, List.not_mem_nil, or_false, and_true]
        constructor
        · rintro ⟨rfl, h | h | h | h⟩ <;> simp [h]
        · rintro (⟨h1, h2, h3⟩ | ⟨h1, h2, h3⟩ | ⟨h1, h2, h3⟩ | ⟨h1, h2, h3⟩) <;> simp [h1, h2, h3]
      rw [← hb, ← h.ini]
      omega
    | bt =>
      have hx : C x := hq .isC (by simp [req])
      have h := pairIs hf hx hc
      have hL := hf.L
      rw [if_pos hx] at hL
      simp only [onTok, Test.ok, nbeq_iff]
      rw [h.bad, hL, lOf_n]
      simp only [badTriples, List.mem_cons, List.cons.injEq, Prod.mk.injEq, List.not_mem_nil, or_false, and_true]
      constructor
      · rintro ⟨rfl, h | h | h | h⟩ <;> simp [h]
      · rintro (⟨h1, h2, h3⟩ | ⟨h1, h2, h3⟩ | ⟨h1, h2, h3⟩ | ⟨h1, h2, h3⟩) <;> simp [h1, h2, h3]
    | v => simp only [onTok, Test.ok, nbeq_iff]; exact ⟨fun h => by omega, fun h => absurd h hnv⟩
    | dip => simp only [onTok, Test.ok, nbeq_iff]; exact ⟨fun h => by omega, fun h => absurd (dip_right h) hnv⟩
    | apos => simp only [onTok, Test.ok, nbeq_iff]; exact ⟨fun h => by omega, fun h => absurd h hna⟩
    | y => simp only [onTok, Test.ok, nbeq_iff]; exact ⟨fun h => by omega, fun h => absurd h hny⟩
    | r =>
      have hx : ¬ C x := hq .notC (by simp [req])
      have h := ((entry_of_cons hf hc).2.2.2 hx).2.1
      simp only [onTok, Test.ok, nbeq_iff]
      rw [tok_cons hf hc, h]
    | n =>
      have hx : ¬ C x := hq .notC (by simp [req])
      have h := ((entry_of_cons hf hc).2.2.2 hx).2.2
      simp only [onTok, Test.ok, nbeq_iff]
      rw [tok_cons hf hc, h]
    | nr =>
      obtain ⟨rfl, hn⟩ : x = 'n' ∧ ¬ C p := hq .nn (by simp [req])
      have h := pairIs hf (by decide) hc
      have hL := hf.L
      rw [if_pos (by decide), lOf_notC hn] at hL
      simp only [onTok, Test.ok, nbeq_iff]
      exact h.nr hL rfl
  · have hsm := tok_other_small hf hp hc
    have htok := tok_other hf hp hc
    have hnr : c ≠ 'r' := fun h => hc (h ▸ by decide)
    have hnn : c ≠ 'n' := fun h => hc (h ▸ by decide)
    cases T with
    | cons => simp only [onTok, Test.ok, Bool.and_eq_true, Nat.ble_eq]; exact ⟨fun h => by omega, fun h => absurd h hc⟩
    | med => simp only [onTok, Test.ok, Bool.and_eq_true, Nat.ble_eq]; exact ⟨fun h => by omega, fun h => absurd h.1 hc⟩
    | nomed => simp only [onTok, Test.ok, nbeq_iff]; exact ⟨fun h => by omega, fun h => absurd h.1 hc⟩
    | ini => simp only [onTok, Test.ok, Bool.or_eq_true, nbeq_iff]; exact ⟨fun h => by omega, fun h => absurd (ini_right h) hc⟩
    | iniNB => simp only [onTok, Test.ok, Bool.or_eq_true, nbeq_iff]; exact ⟨fun h => by omega, fun h => absurd (ini_right h.1) hc⟩
    | bt => simp only [onTok, Test.ok, nbeq_iff]; exact ⟨fun h => by omega, fun h => absurd (bad_right h) hc⟩
    | r => simp only [onTok, Test.ok, nbeq_iff]; exact ⟨fun h => by omega, fun h => absurd h hnr⟩
    | n => simp only [onTok, Test.ok, nbeq_iff]; exact ⟨fun h => by omega, fun h => absurd h hnn⟩
    | nr => simp only [onTok, Test.ok, nbeq_iff]; exact ⟨fun h => by omega, fun h => absurd h hnr⟩
    | v =>
      have hz : vmapchar z = 1 := hq .z1 (by simp [req])
      simp only [onTok, Test.ok, nbeq_iff]
      rw [htok, hz]
      constructor
      · intro h
        split at h
        · rename_i hv
          rcases hv with hv | rfl
          · exact hv
          · exact absurd h (vchk_y_ne _).1
        · split at h <;> cases h
      · intro h
        rw [if_pos (.inl h)]
        exact (vchk_1 _ (vm_V c h)).2 rfl
    | dip =>
      have hz : z = x := hq .zx (by simp [req])
      simp only [onTok, Test.ok, nbeq_iff]
      rw [← hz, ← dip_iff hf.plain hp, ← vchk_16 (i := f.vsm.2.1), htok]
      constructor
      · intro h
        split at h
        · exact h
        · split at h <;> cases h
      · intro h
        rw [vchk_16, dip_iff hf.plain hp] at h
        rw [if_pos (.inl (dip_right h))]
        exact vchk_16.2 ((dip_iff hf.plain hp).2 h)
    | apos =>
      simp only [onTok, Test.ok, nbeq_iff]
      rw [htok]
      constructor
      · intro h
        split at h
        · rename_i hv
          rcases hv with hv | rfl
          · exact absurd h (vchk_v_ne _ (vm_V c hv)).2
          · exact absurd h (vchk_y_ne _).2.2
        · split at h
          · assumption
          · cases h
      · rintro rfl; rw [if_neg (by decide), if_pos rfl]
    | y =>
      have hz : vmapchar z = 1 := hq .z1 (by simp [req])
      simp only [onTok, Test.ok, nbeq_iff]
      rw [htok, hz]
      constructor
      · intro h
        split at h
        · rename_i hv
          rcases hv with hv | rfl
          · exact absurd h (vchk_v_ne _ (vm_V c hv)).1
          · rfl
        · split at h <;> cases h
      · rintro rfl; rw [if_pos (.inr rfl)]; exact (vchk_y _).2 rfl

/-! ## The context after one more letter -/

/-- The letters of words. -/
def Letter (c : Char) : Prop := C c ∨ V c ∨ c = '\'' ∨ c = 'y'

theorem fits_next (hf : Fits f p x z) (hp : Plain c) (hl : Letter c) :
    Fits (f.next c) (if c = 'y' then p else x) (if c = 'y' then x else c) c := by
  have he := entryOk f.L f.S (mapchar c % 32) (Nat.mod_lt _ (by decide))
  have hnear : (f.next c).vsm.2.2 ≠ 0 := fun h => hp.1 ((charOkP c).comma h)
  by_cases hc : C c
  · have hy : c ≠ 'y' := fun h => not_C_special.2.1 (h ▸ hc)
    have ha : (f.entry c).2.1 = 1 := he.act1.2 (entry_of_cons hf hc).1
    rw [if_neg hy, if_neg hy]
    refine ⟨?_, ?_, hp, rfl, hnear⟩
    · unfold Fe.next; dsimp only; rw [ha, sOf, if_pos hc]; rfl
    · unfold Fe.next; dsimp only; rw [ha, if_pos hc, lOf, ← hf.S]; rfl
  · obtain ⟨h1, h2, h3, _⟩ := entry_other (f := f) hp hc
    rcases hl with hl | hl | rfl | rfl
    · exact absurd hl hc
    · have hy : c ≠ 'y' := fun h => not_C_special.2.2.2.1 (h ▸ hl)
      have ha : (f.entry c).2.1 = 0 := he.act0 (h1.2 hl)
      rw [if_neg hy, if_neg hy]
      refine ⟨?_, ?_, hp, rfl, hnear⟩
      · unfold Fe.next; dsimp only; rw [ha, sOf, if_neg hc]; rfl
      · unfold Fe.next; dsimp only; rw [ha, if_neg hc]; rfl
    · have ha : (f.entry '\'').2.1 = 0 := he.act2' (h2.2 rfl)
      rw [if_neg (by decide), if_neg (by decide)]
      refine ⟨?_, ?_, hp, rfl, hnear⟩
      · unfold Fe.next; dsimp only; rw [ha, sOf, if_neg hc]; rfl
      · unfold Fe.next; dsimp only; rw [ha, if_neg hc]; rfl
    · have ha : (f.entry 'y').2.1 = 2 := he.act2.2 (h3.2 rfl)
      rw [if_pos rfl, if_pos rfl]
      refine ⟨?_, ?_, hp, rfl, hnear⟩
      · unfold Fe.next; dsimp only; rw [ha]; exact hf.S
      · unfold Fe.next; dsimp only; rw [ha]; exact hf.L

theorem fits_start : Fits .start '\'' '\'' '\'' := by
  refine ⟨by decide, by decide, by decide, by decide, by decide⟩

/-! ## Flags -/

def allFlags : List Flag := [.isC, .z1, .zx, .notC, .nn]

/-- What is known after a letter that passed a test. -/
def gives : Test → List Flag → List Flag
  | .v, _ => [.zx, .notC]
  | .dip, _ => [.zx, .notC]
  | .apos, _ => [.z1, .zx, .notC]
  | .y, N => if N.contains .isC then [.isC] else []
  | .n, N => [.isC, .z1, .zx] ++ (if N.contains .notC then [.nn] else [])
  | _, _ => [.isC, .z1, .zx]

def flagsOk (q : Item) : Bool := (rules q).all (fun r => r.2.all (fun q' => (needs q').all ((gives r.1 (needs q)).contains ·)))

theorem flags_ok (q : Item) : flagsOk q = true := by cases q <;> decide

theorem ok_C {T : Test} (h : T.ok p x c) (h1 : T ≠ .v) (h2 : T ≠ .dip) (h3 : T ≠ .apos) (h4 : T ≠ .y) : C c := by
  cases T <;> simp only [Test.ok] at h <;> first | exact h | exact h.1 | exact ini_right h | exact ini_right h.1 | exact bad_right h | exact absurd rfl h1 | exact absurd rfl h2 | exact absurd rfl h3 | exact absurd rfl h4 | (subst h; decide)

theorem ok_y {T : Test} (h : T.ok p x c) : T = .y ↔ c = 'y' := by
  constructor
  · rintro rfl; exact h
  · rintro rfl
    have hn := not_C_special
    cases T with
    | y => rfl
    | v => exact absurd (show V 'y' from h) hn.2.2.2.1
    | dip => exact absurd (dip_right h) hn.2.2.2.1
    | apos => exact absurd (show 'y' = '\'' from h) (by decide)
    | _ => exact absurd (ok_C h (by decide) (by decide) (by decide) (by decide)) hn.2.1

theorem gives_ok {T : Test} {N : List Flag} (hN : ∀ g ∈ N, g.holds p x z) (h : T.ok p x c) :
    ∀ g ∈ gives T N, g.holds (if c = 'y' then p else x) (if c = 'y' then x else c) c := by
  have hC : C c → ∀ g ∈ [Flag.isC, .z1, .zx], g.holds (if c = 'y' then p else x) (if c = 'y' then x else c) c := by
    intro hc g hg
    have hy : c ≠ 'y' := fun h => not_C_special.2.1 (h ▸ hc)
    rw [if_neg hy, if_neg hy]
    simp only [List.mem_cons, List.not_mem_nil, or_false] at hg
    rcases hg with rfl | rfl | rfl
    · exact hc
    · exact vm_cons c hc
    · rfl
  have hV : V c → ∀ g ∈ [Flag.zx, .notC], g.holds (if c = 'y' then p else x) (if c = 'y' then x else c) c := by
    intro hc g hg
    have hy : c ≠ 'y' := fun h => not_C_special.2.2.2.1 (h ▸ hc)
    rw [if_neg hy, if_neg hy]
    simp only [List.mem_cons, List.not_mem_nil, or_false] at hg
    rcases hg with rfl | rfl
    · rfl
    · exact fun h => cNotV h hc
  cases T with
  | v => exact hV h
  | dip => exact hV (dip_right h)
  | apos =>
    have : c = '\'' := h
    subst this
    intro g hg
    simp only [gives, List.mem_cons, List.not_mem_nil, or_false] at hg
    rcases hg with rfl | rfl | rfl
    · exact show vmapchar '\'' = 1 by decide
    · rfl
    · exact not_C_special.1
  | y =>
    have : c = 'y' := h
    subst this
    intro g hg
    replace hg : g ∈ if N.contains .isC then [Flag.isC] else [] := hg
    split at hg
    · rename_i hc
      have : g = .isC := by simpa using hg
      subst this
      rw [if_pos rfl, if_pos rfl]
      exact hN .isC (List.contains_iff_mem.1 hc)
    · simp at hg
  | n =>
    have : c = 'n' := h
    subst this
    intro g hg
    replace hg : g ∈ [Flag.isC, .z1, .zx] ++ (if N.contains .notC then [Flag.nn] else []) := hg
    rcases List.mem_append.1 hg with hg | hg
    · exact hC (by decide) g hg
    · split at hg
      · rename_i hc
        have : g = .nn := by simpa using hg
        subst this
        rw [if_neg (by decide), if_neg (by decide)]
        exact ⟨rfl, hN .notC (List.contains_iff_mem.1 hc)⟩
      · simp at hg
  | _ => exact hC (ok_C h (by decide) (by decide) (by decide) (by decide))

/-! ## Sets of positions -/

def Any (Q : List Item) (p x : Char) (t : List Char) : Prop := ∃ q ∈ Q, Acc q p x t

def Known (Q : List Item) (p x z : Char) : Prop := ∀ q ∈ Q, ∀ g ∈ needs q, g.holds p x z

theorem req_needs {q : Item} {r : Test × List Item} (hr : r ∈ rules q) : ∀ g ∈ req r.1, g ∈ needs q := by
  intro g hg
  unfold needs
  exact List.mem_append_right _ (List.mem_flatMap.2 ⟨r, hr, hg⟩)

theorem any_step {Q : List Item} (hf : Fits f p x z) (hp : Plain c) (hk : Known Q p x z) (t : List Char) :
    Any Q p x (c :: t) ↔ Any (after1 Q (f.tok c)) (if c = 'y' then p else x) (if c = 'y' then x else c) t := by
  have hctx : ∀ {T : Test} {q' : Item}, T.ok p x c →
      ((if T = .y then Acc q' p x t else Acc q' x c t) ↔ Acc q' (if c = 'y' then p else x) (if c = 'y' then x else c) t) := by
    intro T q' h
    by_cases hy : c = 'y'
    · rw [if_pos ((ok_y h).2 hy), if_pos hy, if_pos hy]
    · rw [if_neg (fun h' => hy ((ok_y h).1 h')), if_neg hy, if_neg hy]
  constructor
  · rintro ⟨q, hq, h⟩
    rw [Lujvo.Nfa.Acc] at h
    obtain ⟨r, hr, h1, q', hq', h2⟩ := h
    refine ⟨q', ?_, (hctx h1).1 h2⟩
    refine List.mem_flatMap.2 ⟨q, hq, List.mem_flatMap.2 ⟨r, hr, ?_⟩⟩
    rw [if_pos ((test_tok hf hp r.1 (fun g hg => hk q hq g (req_needs hr g hg))).2 h1)]
    exact hq'
  · rintro ⟨q', hq', h⟩
    obtain ⟨q, hq, h1⟩ := List.mem_flatMap.1 hq'
    obtain ⟨r, hr, h2⟩ := List.mem_flatMap.1 h1
    split at h2
    · rename_i h3
      have h4 := (test_tok hf hp r.1 (fun g hg => hk q hq g (req_needs hr g hg))).1 h3
      refine ⟨q, hq, ?_⟩
      rw [Lujvo.Nfa.Acc]
      exact ⟨r, hr, h4, q', h2, (hctx h4).2 h⟩
    · simp at h2

theorem known_step {Q : List Item} (hf : Fits f p x z) (hp : Plain c) (hk : Known Q p x z) :
    Known (after1 Q (f.tok c)) (if c = 'y' then p else x) (if c = 'y' then x else c) c := by
  intro q' hq' g hg
  obtain ⟨q, hq, h1⟩ := List.mem_flatMap.1 hq'
  obtain ⟨r, hr, h2⟩ := List.mem_flatMap.1 h1
  split at h2
  · rename_i h3
    have h4 := (test_tok hf hp r.1 (fun g hg => hk q hq g (req_needs hr g hg))).1 h3
    have h5 := List.all_eq_true.1 (List.all_eq_true.1 (List.all_eq_true.1 (flags_ok q) r hr) q' h2) g hg
    exact gives_ok (hk q hq) h4 g (List.contains_iff_mem.1 h5)
  · simp at h2

theorem sameSet_mem {a b : List Item} (h : sameSet a b = true) (q : Item) : q ∈ a ↔ q ∈ b := by
  unfold sameSet at h
  rw [Bool.and_eq_true] at h
  exact ⟨fun h' => List.contains_iff_mem.1 (List.all_eq_true.1 h.1 q h'), fun h' => List.contains_iff_mem.1 (List.all_eq_true.1 h.2 q h')⟩

theorem sameSet_any {a b : List Item} (h : sameSet a b = true) {t : List Char} : Any a p x t ↔ Any b p x t := by
  unfold Any; simp only [sameSet_mem h]

theorem sameSet_known {a b : List Item} (h : sameSet a b = true) (hk : Known a p x z) : Known b p x z :=
  fun q hq => hk q ((sameSet_mem h q).2 hq)

/-- What a set of positions accepts. -/
def VSet.Lang (v : VSet) (p x : Char) (t : List Char) : Prop :=
  Any v.A p x t ∨ (Any v.B p x t ∧ ¬ Any v.M p x t) ∨ (Any v.B2 p x t ∧ Any v.M2 p x t)

structure VSet.Knows (v : VSet) (p x z : Char) : Prop where
  A : Known v.A p x z
  B : Known v.B p x z
  M : Known v.M p x z
  B2 : Known v.B2 p x z
  M2 : Known v.M2 p x z
  G : Known v.G p x z

theorem not_any_nil {t : List Char} : ¬ Any [] p x t := by rintro ⟨_, h, _⟩; simp at h

theorem known_nil : Known [] p x z := by intro q h; simp at h

theorem norm_lang {v : VSet} {t : List Char} : v.norm.Lang p x t ↔ v.Lang p x t := by
  obtain ⟨A, B, M, B2, M2, G⟩ := v
  unfold VSet.Lang VSet.norm
  dsimp only
  cases B with
  | nil =>
    cases B2 with
    | nil => simp [not_any_nil]
    | cons b B2 =>
      cases M2 with
      | nil => simp [not_any_nil]
      | cons m M2 => simp [not_any_nil]
  | cons b B =>
    cases B2 with
    | nil => simp [not_any_nil]
    | cons b B2 =>
      cases M2 with
      | nil => simp [not_any_nil]
      | cons m M2 => simp

theorem norm_knows {v : VSet} (h : v.Knows p x z) : v.norm.Knows p x z := by
  obtain ⟨h1, h2, h3, h4, h5, h6⟩ := h
  refine ⟨h1, h2, ?_, ?_, ?_, h6⟩ <;> unfold VSet.norm <;> dsimp only <;> split <;> first | exact known_nil | assumption

theorem same_lang {v w : VSet} (h : v.same w = true) {t : List Char} : v.Lang p x t ↔ w.Lang p x t := by
  unfold VSet.same at h
  simp only [Bool.and_eq_true] at h
  obtain ⟨⟨⟨⟨⟨h1, h2⟩, h3⟩, h4⟩, h5⟩, h6⟩ := h
  unfold VSet.Lang
  rw [sameSet_any h1, sameSet_any h2, sameSet_any h3, sameSet_any h4, sameSet_any h5]

theorem same_G {v w : VSet} (h : v.same w = true) {t : List Char} : Any v.G p x t ↔ Any w.G p x t := by
  unfold VSet.same at h
  simp only [Bool.and_eq_true] at h
  exact sameSet_any h.2

theorem same_knows {v w : VSet} (h : v.same w = true) (hk : v.Knows p x z) : w.Knows p x z := by
  unfold VSet.same at h
  simp only [Bool.and_eq_true] at h
  obtain ⟨⟨⟨⟨⟨h1, h2⟩, h3⟩, h4⟩, h5⟩, h6⟩ := h
  exact ⟨sameSet_known h1 hk.A, sameSet_known h2 hk.B, sameSet_known h3 hk.M, sameSet_known h4 hk.B2,
    sameSet_known h5 hk.M2, sameSet_known h6 hk.G⟩

/-- One more letter. -/
theorem vset_step {i : Nat} (hi : i < 91) (hf : Fits f p x z) (hp : Plain c) (hk : (vset i).Knows p x z) :
    vnext i (f.tok c) < 91 ∧
    (vset (vnext i (f.tok c))).Knows (if c = 'y' then p else x) (if c = 'y' then x else c) c ∧
    ∀ t, ((vset i).Lang p x (c :: t) ↔
        (vset (vnext i (f.tok c))).Lang (if c = 'y' then p else x) (if c = 'y' then x else c) t) ∧
      (Any (vset i).G p x (c :: t) ↔
        Any (vset (vnext i (f.tok c))).G (if c = 'y' then p else x) (if c = 'y' then x else c) t) := by
  have h1 := List.all_eq_true.1 vnext_check i (List.mem_range.2 hi)
  have h2 := List.all_eq_true.1 h1 (f.tok c) (List.mem_range.2 (token_lt ..))
  rw [Bool.and_eq_true] at h2
  have h3 := Nat.le_of_ble_eq_true h2.1
  refine ⟨by omega, ?_, fun t => ⟨?_, ?_⟩⟩
  · refine same_knows h2.2 (norm_knows ?_)
    exact ⟨known_step hf hp hk.A, known_step hf hp hk.B, known_step hf hp hk.M, known_step hf hp hk.B2,
      known_step hf hp hk.M2, known_step hf hp hk.G⟩
  · rw [← same_lang h2.2, VSet.next, norm_lang]
    unfold VSet.Lang
    rw [any_step hf hp hk.A, any_step hf hp hk.B, any_step hf hp hk.M, any_step hf hp hk.B2, any_step hf hp hk.M2]
  · rw [← same_G h2.2, any_step hf hp hk.G]; rfl

theorem any_end {Q : List Item} : Any Q p x [] ↔ ends Q = true := by
  unfold Any ends
  rw [List.any_eq_true]
  constructor
  · rintro ⟨q, h, h'⟩; rw [Lujvo.Nfa.Acc] at h'; exact ⟨q, h, h'⟩
  · rintro ⟨q, h, h'⟩; refine ⟨q, h, ?_⟩; rw [Lujvo.Nfa.Acc]; exact h'

theorem lang_end {v : VSet} : v.Lang p x [] ↔ v.luj = true := by
  unfold VSet.Lang VSet.luj
  simp only [any_end, Bool.or_eq_true, Bool.and_eq_true, Bool.not_eq_true', ← Bool.not_eq_true, or_assoc]

end Jbo.Morf
