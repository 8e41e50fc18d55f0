import Verif.CmTrans
/-!
# What the gloss of a lujvo is made of
-/

namespace Jbo.CmTrans.Spec
open Jbo.CmTrans (Word)

/-- A rafsi and the letter that ties it to what follows, if there is one. -/
structure Part where
  rafsi : Word
  tie : Word
deriving DecidableEq, Repr

/-- A lujvo: rafsi, and at the end a gismu or another rafsi. -/
def wordOf : List Part → Word → Word
  | [], last => last
  | p :: ps, last => p.rafsi ++ p.tie ++ wordOf ps last

def vowel (c : Char) : Prop := c ∈ ['a', 'e', 'i', 'o', 'u']

instance (c : Char) : Decidable (vowel c) := inferInstanceAs (Decidable (c ∈ _))

/-- A rafsi of the form CVV or CV'V. -/
def diphthong : Word → Prop
  | [_, b, c] => vowel b ∧ vowel c
  | [_, b, '\'', c] => vowel b ∧ vowel c
  | _ => False

instance (r : Word) : Decidable (diphthong r) := by unfold diphthong; split <;> infer_instance

/-- A rafsi that begins a word and has the form CVV or CV'V is tied with `r`, before `r` with `n`; without such a letter it does not come
before `r`. -/
def Hyphened (p : Part) (rest : Word) : Prop :=
  p.tie = ['r'] ∨ p.tie = ['n'] ∧ rest.head? = some 'r' ∨
    p.tie = [] ∧ rest.head? ≠ some 'r' ∧ ¬ (rest.head? = some 'n' ∧ rest[1]? = some 'r')

/-- How a rafsi is tied to what follows. -/
def Tied (first : Bool) (p : Part) (rest : Word) : Prop :=
  p.tie = ['y'] ∨ (p.rafsi.length = 3 ∨ p.rafsi[2]? = some '\'') ∧ (if first = true ∧ diphthong p.rafsi then Hyphened p rest else p.tie = [])

/-- The form of a lujvo: rafsi of three letters, or of four letters, tied as they are to be; at the end a gismu or a rafsi. -/
def Lujvo : Bool → List Part → Word → Prop
  | _, [], last => 'y' ∉ last ∧ 3 ≤ last.length ∧ last.length ≤ 5
  | first, p :: ps, last => 'y' ∉ p.rafsi ∧ (p.rafsi.length = 3 ∧ p.rafsi[2]? ≠ some '\'' ∨ p.rafsi.length = 4) ∧ Tied first p (wordOf ps last) ∧ Lujvo false ps last

/-- The rafsi that stand for `se`, `te`, `ve`, `xe`, with the place. -/
def conversion (r : Word) : Option Nat :=
  if r = ['s', 'e', 'l'] then some 2 else if r = ['t', 'e', 'r'] then some 3 else if r = ['v', 'e', 'l'] then some 4 else if r = ['x', 'e', 'l'] then some 5
  else none

/-- The digit of a place. -/
def digit (c : Nat) : Char := Char.ofNat (48 + c)

/-- The entry for a word with a place. -/
def entry (d : Word → Option Word) (key : Word) (c : Nat) : Option Word := d (key ++ [digit c])

/-- The name of a conversion. -/
def named (c : Nat) : Word := if c = 2 then "2nd conv-".toList else if c = 3 then "3rd conv-".toList else if c = 4 then "4th conv-".toList else
  if c = 5 then "5th conv-".toList else []

/-- The gloss of one component: without conversion the entry; with one the entry for the place, and if there is none, the entry with the
name of the conversion. -/
def gloss (d : Word → Option Word) (key : Word) (c : Nat) : Word :=
  if c = 0 then (d key).getD ['?'] else
  match entry d key c with
  | some t => t
  | none => named c ++ (d key).getD ['?', '?']

/-- Rafsi have entries of their own. -/
def keyOf (w : Word) : Word := if w.length = 5 then w else '%' :: w

/-- **The glosses as they are meant**: one for each component that is no conversion, and a conversion is for the component after it. -/
def meant (d : Word → Option Word) : Nat → List Part → Word → List Word
  | c, [], last => [gloss d (keyOf last) c]
  | c, p :: ps, last => match conversion p.rafsi with
    | some c' => meant d c' ps last
    | none => gloss d (keyOf p.rafsi) c :: meant d 0 ps last

/-- The glosses as they are made: a conversion lasts until a component has an entry for the place. -/
def pieces (d : Word → Option Word) : Nat → List Part → Word → List Word
  | c, [], last => [gloss d (keyOf last) c]
  | c, p :: ps, last => match conversion p.rafsi with
    | some c' => pieces d c' ps last
    | none => gloss d (keyOf p.rafsi) c :: pieces d (if (entry d (keyOf p.rafsi) c).isSome then 0 else c) ps last

/-- With hyphens between. -/
def hyphened (gs : List Word) : Word := ['-'].intercalate gs

def consonant (c : Char) : Prop := c ∈ "bcdfgjklmnprstvxz".toList

instance (c : Char) : Decidable (consonant c) := inferInstanceAs (Decidable (c ∈ _))

/-- Two consonants with which a word can begin; of the rules of Lojban only that the first is not one of `l`, `n`, `r` is asked. -/
def initialPair (a b : Char) : Prop := consonant a ∧ consonant b ∧ a ∉ ['l', 'n', 'r']

instance (a b : Char) : Decidable (initialPair a b) := inferInstanceAs (Decidable (_ ∧ _ ∧ _))

/-- The forms of rafsi. -/
def Rafsi : Word → Prop
  | [a, b, c] => consonant a ∧ vowel b ∧ (consonant c ∨ vowel c) ∨ initialPair a b ∧ vowel c
  | [a, b, c, e] => consonant a ∧ vowel b ∧ (c = '\'' ∧ vowel e ∨ consonant c ∧ consonant e) ∨ initialPair a b ∧ vowel c ∧ consonant e
  | _ => False

/-- The forms of gismu. -/
def Gismu : Word → Prop
  | [a, b, c, e, f] => (consonant a ∧ vowel b ∧ consonant c ∧ consonant e ∨ initialPair a b ∧ vowel c ∧ consonant e) ∧ vowel f
  | _ => False

instance (w : Word) : Decidable (Rafsi w) := by unfold Rafsi; split <;> infer_instance
instance (w : Word) : Decidable (Gismu w) := by unfold Gismu; split <;> infer_instance

/-- A letter that marks a fu'ivla: `r`, between two `r` or beside one `n`, and `l` between `n` and `r`; all between consonants. -/
def marksFuivla (a h b : Char) : Prop :=
  consonant a ∧ consonant b ∧ (h = 'r' ∧ a ≠ 'r' ∧ b ≠ 'r' ∨ h = 'n' ∨ h = 'l' ∧ (a = 'n' ∧ b = 'r' ∨ a = 'r' ∧ b = 'n'))

instance (a h b : Char) : Decidable (marksFuivla a h b) := by unfold marksFuivla; infer_instance

end Jbo.CmTrans.Spec
