import Verif.CmScan
/-!
# What the scanner of `cmafihe` is to find
-/

namespace Jbo.CmScan.Spec
open Jbo.CmTrans (Word)

def consonant (c : Char) : Prop := c ∈ "bcdfgjklmnprstvxz".toList
def vowel (c : Char) : Prop := c ∈ "aeiou".toList

instance (c : Char) : Decidable (consonant c) := inferInstanceAs (Decidable (c ∈ _))
instance (c : Char) : Decidable (vowel c) := inferInstanceAs (Decidable (c ∈ _))

/-- The letters of Lojban. -/
def letter (c : Char) : Prop := consonant c ∨ vowel c ∨ c = 'y' ∨ c = '\''

instance (c : Char) : Decidable (letter c) := inferInstanceAs (Decidable (_ ∨ _))

/-- What follows a word: nothing, or a character that is no letter of any alphabet, nor `'`, a comma or a dot. -/
def Ends (rest : Word) : Prop := ∀ c, rest.head? = some c → ¬ letter c ∧ c ≠ ',' ∧ c ≠ '.' ∧ ¬ ('a' ≤ c ∧ c ≤ 'z') ∧ ¬ ('A' ≤ c ∧ c ≤ 'Z')

/-- Two consonants stand together. -/
def Cluster (w : Word) : Prop := ∃ a b x y, w = a ++ x :: y :: b ∧ consonant x ∧ consonant y

/-- A word that begins with a consonant and ends with a vowel. -/
def BrivlaForm (w : Word) : Prop := ∃ x m y, w = x :: m ++ [y] ∧ m ≠ [] ∧ consonant x ∧ vowel y ∧ ∀ c ∈ m, letter c

/-- A rafsi CVC before `y`. -/
def TiedWithY (w : Word) : Prop := ∃ a b c e m f, w = a :: b :: c :: 'y' :: e :: m ++ [f] ∧ m ≠ [] ∧ consonant a ∧ vowel b ∧ consonant c ∧ consonant e ∧
  (∀ c ∈ m, letter c) ∧ vowel f

/-- Letters, with a comma here and there. -/
inductive Letters : Word → Prop
  | nil : Letters []
  | cons (c : Char) (w : Word) : letter c → Letters w → Letters (c :: w)
  | comma (c : Char) (w : Word) : letter c → Letters w → Letters (c :: ',' :: w)

/-- A name: it ends with a consonant, and may have dots round it. -/
def NameForm (w : Word) : Prop := ∃ a m y b, w = a ++ m ++ [y] ++ b ∧ a ∈ [[], ['.']] ∧ b ∈ [[], ['.']] ∧ consonant y ∧ Letters m

/-- The part of a cmavo from its first vowel on: vowels, or `y`, and more of them after `'`. -/
inductive Vowels : Word → Prop
  | one (a : Char) : vowel a → Vowels [a]
  | two (a b : Char) : vowel a → vowel b → Vowels [a, b]
  | y : Vowels ['y']
  | more (u v : Word) : Vowels u → Vowels v → Vowels (u ++ '\'' :: v)

/-- Cmavo written together: each with a consonant, or with a dot and without; the dot of the first is not needed. -/
inductive Cmavo : Word → Prop
  | nil : Cmavo []
  | cons (c : Char) (v w : Word) : consonant c → Vowels v → Cmavo w → Cmavo (c :: v ++ w)
  | dot (v w : Word) : Vowels v → Cmavo w → Cmavo ('.' :: v ++ w)

/-- One cmavo or several written together. -/
def CmavoForm (w : Word) : Prop := w ≠ [] ∧ Cmavo w ∨ ∃ u v, w = u ++ v ∧ Vowels u ∧ Cmavo v

/-- The kinds of words.  A word that could be cmavo written together is a brivla only if it begins with a rafsi before `y`. -/
def Is (w : Word) : Kind → Prop
  | .brivla => BrivlaForm w ∧ (TiedWithY w ∨ ¬ CmavoForm w)
  | .cmavo => CmavoForm w ∧ ¬ TiedWithY w
  | .cmene => NameForm w
  | .fallthru => w ≠ [] ∧ (∀ c ∈ w, letter c) ∧ ¬ BrivlaForm w ∧ ¬ CmavoForm w ∧ ¬ NameForm w
  | _ => False

/-- What stands between two words. -/
def Blank (s : Word) : Prop := s ≠ [] ∧ (∀ c ∈ s, c = ' ' ∨ c = '\t') ∨ s = ['\n']

/-- A text in which brackets are balanced, whichever kind closes which. -/
inductive Balanced : Word → Prop
  | nil : Balanced []
  | char (c : Char) (w : Word) : c ∉ ['(', '[', ')', ']'] → Balanced w → Balanced (c :: w)
  | group (a b : Char) (u v : Word) : a ∈ ['(', '['] → b ∈ [')', ']'] → Balanced u → Balanced v → Balanced (a :: u ++ b :: v)

end Jbo.CmScan.Spec
