import Verif.Lujvo
/-!
# What a lujvo should be

The letter classes, permitted clusters, rafsi shapes and the grammar of lujvo, written down from the
reference grammar and not from the code.
-/

namespace Jbo.Lujvo.Spec

open Jbo

/-- The five vowels. -/
def vowels : Word := ['a', 'e', 'i', 'o', 'u']

/-- The seventeen consonants. -/
def consonants : Word :=
  ['b', 'c', 'd', 'f', 'g', 'j', 'k', 'l', 'm', 'n', 'p', 'r', 's', 't', 'v', 'x', 'z']

/-- The alphabet of words: consonants, vowels, y and the apostrophe. -/
def letters : Word := consonants ++ vowels ++ ['y', '\'']

/-- `c` is a consonant. -/
def C (c : Char) : Prop := c ∈ consonants
/-- `c` is a vowel. -/
def V (c : Char) : Prop := c ∈ vowels

instance (c : Char) : Decidable (C c) := by unfold C; infer_instance
instance (c : Char) : Decidable (V c) := by unfold V; infer_instance

/-- Voiced and unvoiced consonants (l, m, n, r are neither), and the four sibilants. -/
def voiced : Word := ['b', 'd', 'g', 'j', 'v', 'z']
def unvoiced : Word := ['c', 'f', 'k', 'p', 's', 't', 'x']
def sibilants : Word := ['c', 'j', 's', 'z']

/-- The permitted consonant pairs inside a word. -/
def Medial (a b : Char) : Prop :=
  a ≠ b ∧ ¬(a ∈ voiced ∧ b ∈ unvoiced) ∧ ¬(a ∈ unvoiced ∧ b ∈ voiced) ∧
  ¬(a ∈ sibilants ∧ b ∈ sibilants) ∧
  (a, b) ∉ [('c', 'x'), ('k', 'x'), ('x', 'c'), ('x', 'k'), ('m', 'z')]

instance (a b : Char) : Decidable (Medial a b) := by unfold Medial; infer_instance

/-- The 48 permitted initial pairs. -/
def initialPairs : List (Char × Char) :=
  [('b', 'l'), ('b', 'r'), ('c', 'f'), ('c', 'k'), ('c', 'l'), ('c', 'm'), ('c', 'n'), ('c', 'p'),
   ('c', 'r'), ('c', 't'), ('d', 'j'), ('d', 'r'), ('d', 'z'), ('f', 'l'), ('f', 'r'), ('g', 'l'),
   ('g', 'r'), ('j', 'b'), ('j', 'd'), ('j', 'g'), ('j', 'm'), ('j', 'v'), ('k', 'l'), ('k', 'r'),
   ('m', 'l'), ('m', 'r'), ('p', 'l'), ('p', 'r'), ('s', 'f'), ('s', 'k'), ('s', 'l'), ('s', 'm'),
   ('s', 'n'), ('s', 'p'), ('s', 'r'), ('s', 't'), ('t', 'c'), ('t', 'r'), ('t', 's'), ('v', 'l'),
   ('v', 'r'), ('x', 'l'), ('x', 'r'), ('z', 'b'), ('z', 'd'), ('z', 'g'), ('z', 'm'), ('z', 'v')]

def Initial (a b : Char) : Prop := (a, b) ∈ initialPairs

instance (a b : Char) : Decidable (Initial a b) := by unfold Initial; infer_instance

/-- The four forbidden triples. -/
def badTriples : List Word :=
  [['n', 'd', 'j'], ['n', 'd', 'z'], ['n', 't', 'c'], ['n', 't', 's']]

/-- A consonant `c` may stand directly before the word part `t`. -/
def Joins (c : Char) : Word → Prop
  | d :: e :: _ => Medial c d ∧ [c, d, e] ∉ badTriples
  | _ => False

instance (c : Char) (t : Word) : Decidable (Joins c t) := by unfold Joins; split <;> infer_instance

/-! ## Rafsi shapes -/

/-- The shapes of components. -/
inductive Shape
  | cvccv | cvcc | ccvcv | ccvc | cvc | cvhv | ccv | cvv
deriving DecidableEq, Repr

/-- `w` has shape `s`. -/
def HasShape : Shape → Word → Prop
  | .cvccv, [a, b, c, d, e] => C a ∧ V b ∧ C c ∧ C d ∧ V e
  | .cvcc, [a, b, c, d] => C a ∧ V b ∧ C c ∧ C d
  | .ccvcv, [a, b, c, d, e] => C a ∧ C b ∧ V c ∧ C d ∧ V e
  | .ccvc, [a, b, c, d] => C a ∧ C b ∧ V c ∧ C d
  | .cvc, [a, b, c] => C a ∧ V b ∧ C c
  | .cvhv, [a, b, h, c] => C a ∧ V b ∧ h = '\'' ∧ V c
  | .ccv, [a, b, c] => C a ∧ C b ∧ V c
  | .cvv, [a, b, c] => C a ∧ V b ∧ V c
  | _, _ => False

instance (s : Shape) (w : Word) : Decidable (HasShape s w) := by
  unfold HasShape; split <;> infer_instance

/-- The rank of a shape in the published score formula. -/
def Shape.rank : Shape → Int
  | .cvccv => 1 | .cvcc => 2 | .ccvcv => 3 | .ccvc => 4
  | .cvc => 5 | .cvhv => 6 | .ccv => 7 | .cvv => 8

/-- The clusters inside a component are permitted ones. -/
def Clusters : Shape → Word → Prop
  | .cvccv, [_, _, c, d, _] => Medial c d
  | .cvcc, [_, _, c, d] => Medial c d
  | .ccvcv, a :: b :: _ => Initial a b
  | .ccvc, a :: b :: _ => Initial a b
  | .ccv, a :: b :: _ => Initial a b
  | .cvc, _ => True
  | .cvhv, _ => True
  | .cvv, _ => True
  | _, _ => False

instance (s : Shape) (w : Word) : Decidable (Clusters s w) := by
  unfold Clusters; split <;> infer_instance

/-- A well-formed component of shape `s`. -/
def Rafsi (s : Shape) (w : Word) : Prop := HasShape s w ∧ Clusters s w

instance (s : Shape) (w : Word) : Decidable (Rafsi s w) := by unfold Rafsi; infer_instance

/-! ## The grammar of lujvo -/

/-- `Tail n w`: `w` is the part of a lujvo behind its first component, and has `n` components.  The
pair in a final CCVCV is only asked to be a permitted medial one when `strict` is false. -/
inductive Tail (strict : Bool) : Nat → Word → Prop
  | cvccv {w} : Rafsi .cvccv w → Tail strict 1 w
  | ccvcv {a b w} : HasShape .ccvcv (a :: b :: w) → Medial a b →
      (strict = true → Initial a b) → Tail strict 1 (a :: b :: w)
  | cvv {w} : Rafsi .cvv w → Tail strict 1 w
  | cvhv {w} : Rafsi .cvhv w → Tail strict 1 w
  | ccv {w} : Rafsi .ccv w → Tail strict 1 w
  | cvccy {w t n} : Rafsi .cvcc w → Tail strict n t → Tail strict (n + 1) (w ++ 'y' :: t)
  | ccvcy {w t n} : Rafsi .ccvc w → Tail strict n t → Tail strict (n + 1) (w ++ 'y' :: t)
  | cvcJoin {a b c t n} : C a → V b → C c → Tail strict n t → Joins c t →
      Tail strict (n + 1) (a :: b :: c :: t)
  | cvcy {a b c t n} : C a → V b → C c → Tail strict n t → ¬ Joins c t →
      Tail strict (n + 1) (a :: b :: c :: 'y' :: t)
  | cvvMore {w t n} : Rafsi .cvv w → Tail strict n t → Tail strict (n + 1) (w ++ t)
  | cvhvMore {w t n} : Rafsi .cvhv w → Tail strict n t → Tail strict (n + 1) (w ++ t)
  | ccvMore {w t n} : Rafsi .ccv w → Tail strict n t → Tail strict (n + 1) (w ++ t)

/-- A lujvo that starts with two consonants (a lone CCV is counted in, because it matters for the
tosmabru rule). -/
inductive CcLujvo (strict : Bool) : Word → Prop
  | single {w} : Rafsi .ccv w → CcLujvo strict w
  | ccv {w t n} : Rafsi .ccv w → Tail strict n t → CcLujvo strict (w ++ t)
  | ccvcy {w t n} : Rafsi .ccvc w → Tail strict n t → CcLujvo strict (w ++ 'y' :: t)

/-- The r/n hyphen that belongs in front of `t`. -/
def rnHyphen (t : Word) : Char := if t.head? = some 'r' then 'n' else 'r'

/-- The grammar of lujvo.  An initial CVC takes a y exactly when it cannot join directly, either
because of the clusters or because the word would fall apart into CV and a shorter lujvo (the
tosmabru rule).  An initial CVV or CV'V takes an r or n hyphen, which may be left out if only one CCV
follows. -/
inductive Valid (strict : Bool) : Word → Prop
  | cc {w} : CcLujvo strict w → Valid strict w
  | cvccy {w t n} : Rafsi .cvcc w → Tail strict n t → Valid strict (w ++ 'y' :: t)
  | cvcJoin {a b c t n} : C a → V b → C c → Tail strict n t → Joins c t →
      ¬ CcLujvo strict (c :: t) → Valid strict (a :: b :: c :: t)
  | cvcy {a b c t n} : C a → V b → C c → Tail strict n t →
      (¬ Joins c t ∨ CcLujvo strict (c :: t)) → Valid strict (a :: b :: c :: 'y' :: t)
  | cvHyphen {s w t n} : (s = .cvv ∨ s = .cvhv) → Rafsi s w → Tail strict n t →
      Valid strict (w ++ rnHyphen t :: t)
  | cvCcv {s w t} : (s = .cvv ∨ s = .cvhv) → Rafsi s w → Rafsi .ccv t →
      Valid strict (w ++ t)

/-! ## The maker -/

/-- The forms a component may take: any of its short rafsi (ending in a vowel at the end of the
word), the full word at the end, the word without its last vowel elsewhere; the long forms only on
request or when there is no short one, and the ambiguous `brod` only on request. -/
def Allowed (o : Opts) (last : Bool) (w : Word) (short : List Word) (r : Word) : Prop :=
  if last then
    (r ∈ short ∧ ∃ u c, r = u ++ [c] ∧ V c) ∨
    (r = w ∧ w.length = 5 ∧ (o.uselong = true ∨ ∀ x ∈ short, ¬ ∃ u c, x = u ++ [c] ∧ V c))
  else
    r ∈ short ∨
    (r.length = 4 ∧ (∃ c, w = r ++ [c]) ∧ (o.uselong = true ∨ short = []) ∧
      (o.allowbrod = true ∨ r ≠ ['b', 'r', 'o', 'd']))

/-- A choice of one allowed form for each of the entries. -/
def AllowedAll (o : Opts) : List (Word × List Word) → List Word → Prop
  | [], [] => True
  | (w, short) :: es, r :: rs => Allowed o es.isEmpty w short r ∧ AllowedAll o es rs
  | _, _ => False

/-- The published score of a lujvo built from components of the given shapes:
`1000 L - 500 A + 100 H - 10 R - V`, where L is the length of the word, A its number of
apostrophes, H the number of hyphens (letters that belong to no component), R the sum of the ranks
and V the number of vowels. -/
def score (word : Word) (rs : List Word) (ss : List Shape) : Int :=
  1000 * word.length - 500 * word.countP (· == '\'')
    + 100 * ((word.length : Int) - (rs.map List.length).sum)
    - 10 * (ss.map Shape.rank).sum - word.countP (· ∈ vowels)

end Jbo.Lujvo.Spec
