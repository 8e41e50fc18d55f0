import Verif.DfaTabThm

/-!
# The signature filter of the table compression

The comment at `tabcompr.c:100-106` claims that two states differ in at least as many transitions as
their signatures differ in bits.  One transition that changes its destination takes one count away
from one field and adds one to another, so the true bound is twice that.
-/

namespace Jbo.Dfasyn

/-- The number of ones among the lowest `k` binary digits. -/
def ones : Nat → Nat → Nat
  | 0, _ => 0
  | k + 1, x => x % 2 + ones k (x / 2)

theorem ones_add (j : Nat) : ∀ k x, ones (j + k) x = ones j x + ones k (x / 2 ^ j) := by
  induction j with
  | zero => intro k x; simp [ones]
  | succ j ih =>
    intro k x
    rw [Nat.add_right_comm, ones, ones, ih]
    have : x / 2 / 2 ^ j = x / 2 ^ (j + 1) := by
      rw [Nat.div_div_eq_div_mul, Nat.pow_succ, Nat.mul_comm]
    rw [this]; omega

theorem ones_mod (k : Nat) : ∀ x, ones k (x % 2 ^ k) = ones k x := by
  induction k with
  | zero => intro x; rfl
  | succ k ih =>
    intro x
    rw [ones, ones]
    have h1 : x % 2 ^ (k + 1) % 2 = x % 2 := by
      rw [Nat.pow_succ]; exact Nat.mod_mul_left_mod x (2 ^ k) 2
    have h2 : x % 2 ^ (k + 1) / 2 = x / 2 % 2 ^ k := by
      rw [Nat.pow_succ, Nat.mul_comm, Nat.mod_mul_right_div_self]
    rw [h1, h2, ih]

/-! ## Counting bits -/

def W (a b c d : Nat) : Nat := a + 256 * (b + 256 * (c + 256 * d))

theorem and_block (k a b : Nat) :
    a &&& b = (a % 2 ^ k &&& b % 2 ^ k) + 2 ^ k * (a / 2 ^ k &&& b / 2 ^ k) := by
  have h1 : (a &&& b) % 2 ^ k = a % 2 ^ k &&& b % 2 ^ k := Nat.and_mod_two_pow
  have h2 : (a &&& b) / 2 ^ k = a / 2 ^ k &&& b / 2 ^ k := Nat.and_div_two_pow
  rw [← h1, ← h2]
  exact (Nat.mod_add_div _ _).symm

theorem and_W (a b c d p q r s : Nat) (ha : a < 256) (hb : b < 256) (hc : c < 256)
    (hp : p < 256) (hq : q < 256) (hr : r < 256) :
    W a b c d &&& W p q r s = W (a &&& p) (b &&& q) (c &&& r) (d &&& s) := by
  have step : ∀ x y u v, x < 256 → u < 256 →
      (x + 256 * y) &&& (u + 256 * v) = (x &&& u) + 256 * (y &&& v) := by
    intro x y u v hx hu
    rw [and_block 8]
    have e1 : (x + 256 * y) % 2 ^ 8 = x := by omega
    have e2 : (u + 256 * v) % 2 ^ 8 = u := by omega
    have e3 : (x + 256 * y) / 2 ^ 8 = y := by omega
    have e4 : (u + 256 * v) / 2 ^ 8 = v := by omega
    rw [e1, e2, e3, e4]
  unfold W
  rw [step _ _ _ _ ha hp, step _ _ _ _ hb hq, step _ _ _ _ hc hr]

/-- The steps of `count_bits_set` on one byte. -/
def pairs (b : Nat) : Nat := ((b / 2) &&& 0x55) + (b &&& 0x55)
def nibbles (b : Nat) : Nat := ((b / 4) &&& 0x33) + (b &&& 0x33)

theorem shift_mask1 : ∀ b, b < 256 → ∀ e, e < 2 → (b / 2 + 128 * e) &&& 0x55 = (b / 2) &&& 0x55 := by
  decide +kernel
theorem shift_mask2 : ∀ b, b < 256 → ∀ e, e < 4 → (b / 4 + 64 * e) &&& 0x33 = (b / 4) &&& 0x33 := by
  decide +kernel
theorem pairs_lt : ∀ b, b < 256 → pairs b < 256 := by decide +kernel
theorem nibbles_bytes : ∀ b, b < 256 → nibbles (pairs b) < 256 ∧
    nibbles (pairs b) / 16 + nibbles (pairs b) % 16 = ones 8 b ∧
    nibbles (pairs b) / 16 ≤ 4 ∧ nibbles (pairs b) % 16 ≤ 4 := by decide +kernel

theorem mask15 : ∀ x, x < 256 → x &&& 0x0f = x % 16 := by decide +kernel

/-- `count_bits_set` counts the bits of a 32 bit number, but 32 becomes 0. -/
theorem countBitsSet_eq (x : Nat) (hx : x < 2 ^ 32) : countBitsSet x = ones 32 x % 32 := by
  obtain ⟨a, b, c, d, ha, hb, hc, hd, rfl⟩ : ∃ a b c d, a < 256 ∧ b < 256 ∧ c < 256 ∧ d < 256 ∧ x = W a b c d :=
    ⟨x % 256, x / 256 % 256, x / 65536 % 256, x / 16777216, by omega, by omega, by omega, by omega, by
      unfold W; omega⟩
  have hones : ones 32 (W a b c d) = ones 8 a + ones 8 b + ones 8 c + ones 8 d := by
    have e : ∀ y z, y < 256 → ones 8 (y + 256 * z) = ones 8 y := by
      intro y z hy
      rw [← ones_mod 8 (y + 256 * z)]
      congr 1; omega
    have e' : ∀ y z, y < 256 → (y + 256 * z) / 2 ^ 8 = z := by intro y z hy; omega
    show ones (8 + (8 + (8 + 8))) _ = _
    unfold W
    rw [ones_add, e _ _ ha, e' _ _ ha, ones_add, e _ _ hb, e' _ _ hb, ones_add, e _ _ hc, e' _ _ hc]
    omega
  have s1 : ((W a b c d >>> 1) &&& 0x55555555) + (W a b c d &&& 0x55555555) =
      W (pairs a) (pairs b) (pairs c) (pairs d) := by
    have m : 0x55555555 = W 0x55 0x55 0x55 0x55 := by decide
    have sh : W a b c d >>> 1 = W (a / 2 + 128 * (b % 2)) (b / 2 + 128 * (c % 2)) (c / 2 + 128 * (d % 2)) (d / 2) := by
      rw [Nat.shiftRight_eq_div_pow]; unfold W; omega
    rw [m, sh, and_W _ _ _ _ _ _ _ _ (by omega) (by omega) (by omega) (by omega) (by omega) (by omega),
      and_W _ _ _ _ _ _ _ _ ha hb hc (by omega) (by omega) (by omega),
      shift_mask1 a ha _ (by omega), shift_mask1 b hb _ (by omega), shift_mask1 c hc _ (by omega)]
    unfold W pairs; omega
  have pa := pairs_lt a ha
  have pb := pairs_lt b hb
  have pc := pairs_lt c hc
  have pd := pairs_lt d hd
  have s2 : ((W (pairs a) (pairs b) (pairs c) (pairs d) >>> 2) &&& 0x33333333) +
      (W (pairs a) (pairs b) (pairs c) (pairs d) &&& 0x33333333) =
      W (nibbles (pairs a)) (nibbles (pairs b)) (nibbles (pairs c)) (nibbles (pairs d)) := by
    generalize pairs a = a' at *
    generalize pairs b = b' at *
    generalize pairs c = c' at *
    generalize pairs d = d' at *
    have m : 0x33333333 = W 0x33 0x33 0x33 0x33 := by decide
    have sh : W a' b' c' d' >>> 2 =
        W (a' / 4 + 64 * (b' % 4)) (b' / 4 + 64 * (c' % 4)) (c' / 4 + 64 * (d' % 4)) (d' / 4) := by
      rw [Nat.shiftRight_eq_div_pow]; unfold W; omega
    rw [m, sh, and_W _ _ _ _ _ _ _ _ (by omega) (by omega) (by omega) (by omega) (by omega) (by omega),
      and_W _ _ _ _ _ _ _ _ pa pb pc (by omega) (by omega) (by omega),
      shift_mask2 _ pa _ (by omega), shift_mask2 _ pb _ (by omega), shift_mask2 _ pc _ (by omega)]
    unfold W nibbles; omega
  obtain ⟨na, na1, na2, na3⟩ := nibbles_bytes a ha
  obtain ⟨nb, nb1, nb2, nb3⟩ := nibbles_bytes b hb
  obtain ⟨nc, nc1, nc2, nc3⟩ := nibbles_bytes c hc
  obtain ⟨nd, nd1, nd2, nd3⟩ := nibbles_bytes d hd
  unfold countBitsSet
  simp only
  rw [s1, s2, hones, ← na1, ← nb1, ← nc1, ← nd1]
  generalize nibbles (pairs a) = a' at *
  generalize nibbles (pairs b) = b' at *
  generalize nibbles (pairs c) = c' at *
  generalize nibbles (pairs d) = d' at *
  have s3 : (W a' b' c' d' >>> 4) + W a' b' c' d' =
      W (a' + a' / 16 + 16 * (b' % 16)) (b' + b' / 16 + 16 * (c' % 16)) (c' + c' / 16 + 16 * (d' % 16))
        (d' + d' / 16) := by
    rw [Nat.shiftRight_eq_div_pow]; unfold W; omega
  have m : 0x0f0f0f0f = W 0x0f 0x0f 0x0f 0x0f := by decide
  rw [s3, m, and_W _ _ _ _ _ _ _ _ (by omega) (by omega) (by omega) (by omega) (by omega) (by omega),
    mask15 _ (by omega), mask15 _ (by omega), mask15 _ (by omega), mask15 _ (by omega)]
  have k1 : (a' + a' / 16 + 16 * (b' % 16)) % 16 = a' / 16 + a' % 16 := by omega
  have k2 : (b' + b' / 16 + 16 * (c' % 16)) % 16 = b' / 16 + b' % 16 := by omega
  have k3 : (c' + c' / 16 + 16 * (d' % 16)) % 16 = c' / 16 + c' % 16 := by omega
  have k4 : (d' + d' / 16) % 16 = d' / 16 + d' % 16 := by omega
  rw [k1, k2, k3, k4]
  have l1 : a' / 16 + a' % 16 ≤ 8 := by omega
  have l2 : b' / 16 + b' % 16 ≤ 8 := by omega
  have l3 : c' / 16 + c' % 16 ≤ 8 := by omega
  have l4 : d' / 16 + d' % 16 ≤ 8 := by omega
  generalize a' / 16 + a' % 16 = p at *
  generalize b' / 16 + b' % 16 = q at *
  generalize c' / 16 + c' % 16 = r at *
  generalize d' / 16 + d' % 16 = s at *
  have fin : ∀ z, z &&& 0x1f = z % 32 := fun z => Nat.and_two_pow_sub_one_eq_mod z 5
  rw [fin]
  simp only [Nat.shiftRight_eq_div_pow]
  clear s1 s2 s3 hones k1 k2 k3 k4 na1 na2 na3 nb1 nb2 nb3 nc1 nc2 nc3 nd1 nd2 nd3 hx
  unfold W
  have t1 : (p + 256 * (q + 256 * (r + 256 * s))) / 2 ^ 8 = q + 256 * (r + 256 * s) := by omega
  rw [t1]
  have t2 : (q + 256 * (r + 256 * s) + (p + 256 * (q + 256 * (r + 256 * s)))) / 2 ^ 16 = r + s + 256 * s := by
    omega
  rw [t2]
  have t3 : r + s + 256 * s + (q + 256 * (r + 256 * s) + (p + 256 * (q + 256 * (r + 256 * s)))) =
      p + q + r + s + 32 * (8 * s + 8 * (r + 256 * s) + 8 * (q + 256 * (r + 256 * s))) := by omega
  rw [t3, Nat.add_mul_mod_self_left]

example : countBitsSet 0xF00F = 8 := by decide +kernel
/-- 32 set bits are counted as none. -/
theorem countBitsSet_wraps : countBitsSet 0xFFFFFFFF = 0 := by decide +kernel

/-! ## The distance of signatures -/

/-- The number of bits in which two signatures differ. -/
def dist (x y : Nat) : Nat := ones 32 (x ^^^ y)

theorem xor_div_pow (x y k : Nat) : (x ^^^ y) / 2 ^ k = x / 2 ^ k ^^^ y / 2 ^ k := Nat.xor_div_two_pow
theorem xor_mod_pow (x y k : Nat) : (x ^^^ y) % 2 ^ k = (x % 2 ^ k) ^^^ (y % 2 ^ k) := Nat.xor_mod_two_pow

/-- The ones of a number, split at a field of two bits. -/
theorem ones_field (f : Nat) (hf : f < 16) (z : Nat) :
    ones 32 z = ones (2 * f) (z % 2 ^ (2 * f)) + ones 2 (z / 2 ^ (2 * f) % 4) +
      ones (30 - 2 * f) (z / 2 ^ (2 * f) / 4) := by
  have h32 : 32 = 2 * f + (2 + (30 - 2 * f)) := by omega
  conv => lhs; rw [h32]
  rw [ones_add, ones_add, ones_mod, show (4 : Nat) = 2 ^ 2 from rfl, ones_mod]
  omega

def gray : Nat → Nat
  | 0 => 1
  | 1 => 2
  | 2 => 2
  | _ => 1

theorem increment_eq (x f : Nat) : increment x f = x ^^^ (gray (x / 2 ^ (2 * f) % 4) * 2 ^ (2 * f)) := by
  unfold increment
  simp only [Nat.shiftLeft_eq, Nat.shiftRight_eq_div_pow]
  rw [show f + f = 2 * f by omega]
  congr 2

/-- Changing only the field `f`. -/
theorem field_xor (z v f : Nat) (hv : v < 4) :
    (z ^^^ (v * 2 ^ (2 * f))) % 2 ^ (2 * f) = z % 2 ^ (2 * f) ∧
    (z ^^^ (v * 2 ^ (2 * f))) / 2 ^ (2 * f) % 4 = (z / 2 ^ (2 * f) % 4) ^^^ v ∧
    (z ^^^ (v * 2 ^ (2 * f))) / 2 ^ (2 * f) / 4 = z / 2 ^ (2 * f) / 4 := by
  have h1 : v * 2 ^ (2 * f) % 2 ^ (2 * f) = 0 := Nat.mul_mod_left _ _
  have h2 : v * 2 ^ (2 * f) / 2 ^ (2 * f) = v := Nat.mul_div_cancel _ (Nat.two_pow_pos _)
  refine ⟨?_, ?_, ?_⟩
  · rw [xor_mod_pow, h1, Nat.xor_zero]
  · rw [xor_div_pow, h2, show (4 : Nat) = 2 ^ 2 from rfl, xor_mod_pow, Nat.mod_eq_of_lt (show v < 2 ^ 2 from hv)]
  · rw [xor_div_pow, h2, show (4 : Nat) = 2 ^ 2 from rfl, xor_div_pow, Nat.div_eq_of_lt (show v < 2 ^ 2 from hv),
      Nat.xor_zero]

theorem gray_lt : ∀ g, gray g < 4 := by
  intro g
  match g with
  | 0 => decide
  | 1 => decide
  | 2 => decide
  | n + 3 => simp [gray]

/-- Flipping one bit of a field changes the number of ones by at most one. -/
theorem field_flip : ∀ a, a < 4 → ∀ g, g < 4 → ones 2 (a ^^^ gray g) ≤ ones 2 a + 1 := by decide +kernel

/-- The Gray code: advancing both values keeps their distance. -/
theorem gray_step : ∀ a, a < 4 → ∀ b, b < 4 →
    ones 2 ((a ^^^ b) ^^^ (gray a ^^^ gray b)) = ones 2 (a ^^^ b) := by decide +kernel

theorem gray_xor_lt : ∀ a, a < 4 → ∀ b, b < 4 → gray a ^^^ gray b < 4 := by decide +kernel

theorem dist_left (x y f : Nat) (hf : f < 16) : dist (increment x f) y ≤ dist x y + 1 := by
  unfold dist
  rw [increment_eq]
  have hg := gray_lt (x / 2 ^ (2 * f) % 4)
  have e : (x ^^^ gray (x / 2 ^ (2 * f) % 4) * 2 ^ (2 * f)) ^^^ y =
      (x ^^^ y) ^^^ gray (x / 2 ^ (2 * f) % 4) * 2 ^ (2 * f) := by
    rw [Nat.xor_assoc, Nat.xor_comm _ y, ← Nat.xor_assoc]
  rw [e, ones_field f hf, ones_field f hf (x ^^^ y)]
  obtain ⟨h1, h2, h3⟩ := field_xor (x ^^^ y) (gray (x / 2 ^ (2 * f) % 4)) f hg
  rw [h1, h2, h3]
  have := field_flip ((x ^^^ y) / 2 ^ (2 * f) % 4) (by omega) (x / 2 ^ (2 * f) % 4) (by omega)
  omega

theorem dist_comm (x y : Nat) : dist x y = dist y x := by unfold dist; rw [Nat.xor_comm]

theorem dist_same (x y f : Nat) (hf : f < 16) : dist (increment x f) (increment y f) = dist x y := by
  unfold dist
  rw [increment_eq, increment_eq]
  have ha : x / 2 ^ (2 * f) % 4 < 4 := by omega
  have hb : y / 2 ^ (2 * f) % 4 < 4 := by omega
  have hxor : (x ^^^ y) / 2 ^ (2 * f) % 4 = (x / 2 ^ (2 * f) % 4) ^^^ (y / 2 ^ (2 * f) % 4) := by
    rw [xor_div_pow, show (4 : Nat) = 2 ^ 2 from rfl, xor_mod_pow]
  have hmul : ∀ u v : Nat, u * 2 ^ (2 * f) ^^^ v * 2 ^ (2 * f) = (u ^^^ v) * 2 ^ (2 * f) := by
    intro u v
    rw [← Nat.shiftLeft_eq, ← Nat.shiftLeft_eq, ← Nat.shiftLeft_eq, Nat.shiftLeft_xor_distrib]
  generalize hA : x / 2 ^ (2 * f) % 4 = a at *
  generalize hB : y / 2 ^ (2 * f) % 4 = b at *
  have e : (x ^^^ gray a * 2 ^ (2 * f)) ^^^ (y ^^^ gray b * 2 ^ (2 * f)) =
      (x ^^^ y) ^^^ (gray a ^^^ gray b) * 2 ^ (2 * f) := by
    rw [← hmul]
    rw [Nat.xor_assoc, Nat.xor_assoc]
    congr 1
    rw [← Nat.xor_assoc, ← Nat.xor_assoc, Nat.xor_comm (gray a * _) y]
  rw [e, ones_field f hf, ones_field f hf (x ^^^ y)]
  obtain ⟨h1, h2, h3⟩ := field_xor (x ^^^ y) (gray a ^^^ gray b) f (gray_xor_lt a ha b hb)
  rw [h1, h2, h3, hxor, gray_step a ha b hb]

/-- The field a destination is counted in. -/
def sigField : Option Nat → Nat
  | none => 15
  | some d => d % 16

theorem sigField_lt (d : Option Nat) : sigField d < 16 := by
  cases d with
  | none => decide
  | some d => exact Nat.mod_lt _ (by decide)

theorem sig_fold_dist : ∀ (m m' : List (Option Nat)) (x y : Nat), m.length = m'.length →
    dist (m.foldl (fun ts d => increment ts (sigField d)) x)
      (m'.foldl (fun ts d => increment ts (sigField d)) y) ≤ dist x y + 2 * diffCount m m' := by
  intro m
  induction m with
  | nil =>
    intro m' x y h
    cases m' with
    | nil => simp
    | cons => simp at h
  | cons a m ih =>
    intro m' x y h
    cases m' with
    | nil => simp at h
    | cons b m' =>
      rw [List.foldl_cons, List.foldl_cons, diffCount]
      refine Nat.le_trans (ih m' _ _ (by simpa using h)) ?_
      by_cases hab : a = b
      · subst hab
        rw [dist_same x y _ (sigField_lt a), if_neg (by simp)]
        omega
      · rw [if_pos hab]
        have h1 := dist_left x (increment y (sigField b)) (sigField a) (sigField_lt a)
        have h2 := dist_left y x (sigField b) (sigField_lt b)
        rw [dist_comm x (increment y (sigField b))] at h1
        rw [dist_comm y x] at h2
        omega

theorem increment_lt (x f : Nat) (hx : x < 2 ^ 32) (hf : f < 16) : increment x f < 2 ^ 32 := by
  rw [increment_eq]
  apply Nat.xor_lt_two_pow hx
  have hg := gray_lt (x / 2 ^ (2 * f) % 4)
  have h1 : 2 ^ (2 * f) ≤ 2 ^ 30 := Nat.pow_le_pow_right (by decide) (by omega)
  have h2 := Nat.mul_le_mul (show gray (x / 2 ^ (2 * f) % 4) ≤ 3 by omega) h1
  omega

theorem transitionSig_eq (m : List (Option Nat)) :
    transitionSig m = m.foldl (fun ts d => increment ts (sigField d)) 0 := by
  unfold transitionSig
  congr 1

theorem transitionSig_lt (m : List (Option Nat)) : transitionSig m < 2 ^ 32 := by
  rw [transitionSig_eq]
  have : ∀ (l : List (Option Nat)) x, x < 2 ^ 32 →
      l.foldl (fun ts d => increment ts (sigField d)) x < 2 ^ 32 := by
    intro l
    induction l with
    | nil => intro x h; exact h
    | cons a l ih => intro x h; exact ih _ (increment_lt x _ h (sigField_lt a))
  exact this m 0 (by decide)

/-- **C31, as far as it is true**: the number the filter computes is at most twice the number of
differing transitions, for all maps.

Partial: the code (and the property) claims the bound without the factor two, which is false, see
`signature_bound_false` and `filter_hides_default`. -/
theorem signature_bound_partial (nt : Nat) (m m' : List (Option Nat)) (h : m.length = nt) (h' : m'.length = nt) :
    countBitsSet (transitionSig m ^^^ transitionSig m') ≤ 2 * differ nt m m' := by
  rw [countBitsSet_eq _ (Nat.xor_lt_two_pow (transitionSig_lt m) (transitionSig_lt m'))]
  have := sig_fold_dist m m' 0 0 (by rw [h, h'])
  rw [← transitionSig_eq, ← transitionSig_eq, diffCount_eq nt m m' h h'] at this
  have h0 : dist 0 0 = 0 := by decide +kernel
  rw [h0] at this
  unfold dist at this
  have h2 := Nat.mod_le (ones 32 (transitionSig m ^^^ transitionSig m')) 32
  omega

example : countBitsSet (transitionSig [some 1, some 2, none] ^^^ transitionSig [some 1, some 3, none]) = 2 ∧
    differ 3 [some 1, some 2, none] [some 1, some 3, none] = 1 := by decide +kernel

/-- **C31 is false**: one differing transition, two differing bits. -/
theorem signature_bound_false : ¬ ∀ (nt : Nat) (m m' : List (Option Nat)), m.length = nt → m'.length = nt →
    countBitsSet (transitionSig m ^^^ transitionSig m') ≤ differ nt m m' := by
  intro h
  exact absurd (h 1 [some 1] [some 2] rfl rfl) (by decide +kernel)

/-- The filter throws away a default state that would save enough: the second state has six
transitions, differs from the first in three, and gets no default; without the filter it would. -/
theorem filter_hides_default :
    let maps : List (List (Option Nat)) :=
      [[some 0, some 0, some 0, some 1, some 2, some 3], [some 0, some 0, some 0, some 4, some 5, some 6],
       [none, none, none, none, none, none], [none, none, none, none, none, none],
       [none, none, none, none, none, none], [none, none, none, none, none, none],
       [none, none, none, none, none, none]]
    findDefaults maps 6 = List.replicate 7 none ∧
    (differ 6 (maps.getD 1 []) (maps.getD 0 []) : Int) <
      (maps.getD 1 []).countP (·.isSome) - requiredBenefit := by decide +kernel

theorem candidates_none (maps : List (List (Option Nat))) (defs : List (Option Nat)) (mi : List (Option Nat))
    (tc diff : Nat) : ∀ (js : List Nat), (candidates maps defs mi tc js (none, diff)).1 = none →
    ∀ j ∈ js, defs.getD j none = none →
      tc ≤ diffCount mi (maps.getD j []) + 2 ∨
      diff ≤ countBitsSet (transitionSig mi ^^^ transitionSig (maps.getD j [])) ∨
      tc ≤ countBitsSet (transitionSig mi ^^^ transitionSig (maps.getD j [])) := by
  have some_stays : ∀ (js : List Nat) (k d : Nat), (candidates maps defs mi tc js (some k, d)).1 ≠ none := by
    intro js
    induction js with
    | nil => intro k d; simp [candidates]
    | cons i js ih =>
      intro k d
      rw [candidates]
      simp only
      split
      · exact ih _ _
      · split
        · exact ih _ _
        · split
          · exact ih _ _
          · split <;> exact ih _ _
  intro js
  induction js with
  | nil => intro _ j hj; simp at hj
  | cons i js ih =>
    intro h j hj hd
    rw [candidates] at h
    simp only at h
    split at h
    · rename_i hi
      rcases List.mem_cons.1 hj with rfl | hj
      · rw [hd] at hi; simp at hi
      · exact ih h j hj hd
    · split at h
      · rename_i h2
        rcases List.mem_cons.1 hj with rfl | hj
        · exact Or.inr (Or.inl h2)
        · exact ih h j hj hd
      · split at h
        · rename_i h2
          rcases List.mem_cons.1 hj with rfl | hj
          · exact Or.inr (Or.inr h2)
          · exact ih h j hj hd
        · split at h
          · exact absurd h (some_stays js _ _)
          · rename_i h2
            rcases List.mem_cons.1 hj with rfl | hj
            · left
              simp only [Option.isNone_none, Bool.true_or, Bool.true_and] at h2
              have h3 : ¬ ((diffCount mi (maps.getD j []) : Int) < tc - requiredBenefit) :=
                fun hx => h2 (decide_eq_true hx)
              unfold requiredBenefit at h3
              omega
            · exact ih h j hj hd

/-- If a state gets no default, then each earlier state without default differs from it in more than
half as many transitions as it has, or saves too little: the filter only hides candidates that share
at most half of the transitions. -/
theorem no_default_reason (maps : List (List (Option Nat))) (nt : Nat) (defs : List (Option Nat)) (i : Nat)
    (hlen : ∀ k, k ≤ i → (maps.getD k []).length = nt)
    (h : defaultOf maps nt defs i = none) (j : Nat) (hj : j < i) (hd : defs.getD j none = none) :
    (maps.getD i []).countP (·.isSome) ≤ differ nt (maps.getD i []) (maps.getD j []) + 2 ∨
    (maps.getD i []).countP (·.isSome) ≤ 2 * differ nt (maps.getD i []) (maps.getD j []) := by
  unfold defaultOf at h
  have hb := signature_bound_partial nt _ _ (hlen i (Nat.le_refl _)) (hlen j (by omega))
  have hc : (maps.getD i []).countP (·.isSome) ≤ nt := by
    have := List.countP_le_length (p := (·.isSome)) (l := maps.getD i [])
    rw [hlen i (Nat.le_refl _)] at this; exact this
  rcases candidates_none maps defs _ _ _ _ h j (List.mem_range.2 hj) hd with h1 | h1 | h1
  · left; rw [diffCount_eq nt _ _ (hlen i (Nat.le_refl _)) (hlen j (by omega))] at h1; exact h1
  · right; omega
  · right; omega

example : defaultOf tabDemo 5 [none] 1 = none ∧
    (tabDemo.getD 1 []).countP (·.isSome) ≤ differ 5 (tabDemo.getD 1 []) (tabDemo.getD 0 []) + 2 := by
  decide +kernel

end Jbo.Dfasyn
