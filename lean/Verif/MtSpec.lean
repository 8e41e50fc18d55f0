/-!
# MT19937

The recurrence of Matsumoto and Nishimura on 32 bit numbers, with the tempering of their paper.
Nothing here mentions arrays, pointers or pairs.
-/

namespace Jbo.MtSpec

/-- The upper bit of one word and the lower 31 bits of the next, times the matrix `A`. -/
def twist (u v : Nat) : Nat :=
  let y := (u / 2 ^ 31 % 2) * 2 ^ 31 + v % 2 ^ 31
  if v % 2 = 1 then y / 2 ^^^ 0x9908b0df else y / 2

/-- `x` is an MT19937 sequence. -/
def IsMT (x : Nat → Nat) : Prop := ∀ n, x (n + 624) = x (n + 397) ^^^ twist (x n) (x (n + 1))

/-- The tempering. -/
def temper (y : Nat) : Nat :=
  let y := y ^^^ y / 2 ^ 11
  let y := y ^^^ ((y * 2 ^ 7 % 2 ^ 32) &&& 0x9d2c5680)
  let y := y ^^^ ((y * 2 ^ 15 % 2 ^ 32) &&& 0xefc60000)
  y ^^^ y / 2 ^ 18

/-- The linear congruential generator used for seeding. -/
def lcg32 (seed : Nat) : Nat → Nat
  | 0 => seed % 2 ^ 32
  | n + 1 => (69069 * lcg32 seed n + 1) % 2 ^ 32

/-- The initial words: the seed itself, then the upper halves of two successive values of the
generator each. -/
def IsSeeded (seed : Nat) (x : Nat → Nat) : Prop :=
  x 0 = seed % 2 ^ 32 ∧
  ∀ j, j < 623 → x (j + 1) = lcg32 seed (2 * j) / 2 ^ 16 * 2 ^ 16 + lcg32 seed (2 * j + 1) / 2 ^ 16

/-- The seeding of the reference implementation of 1999 (`sgenrand`): the same without the seed as
first word. -/
def IsReferenceSeeded (seed : Nat) (x : Nat → Nat) : Prop :=
  ∀ j, j < 624 → x j = lcg32 seed (2 * j) / 2 ^ 16 * 2 ^ 16 + lcg32 seed (2 * j + 1) / 2 ^ 16

end Jbo.MtSpec
