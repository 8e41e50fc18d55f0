import Verif.LujvoSpec
/-!
# What a lujvo is for the scanner

The grammar of lujvo of `LujvoSpec` is about clusters and hyphens.  A word that is read needs three more
things: two vowels together are a diphthong, a hyphen stands only where one is needed, and a lone CCV is
no lujvo.
-/

namespace Jbo.Lujvo.Spec

/-- The four diphthongs of brivla. -/
def diphthongs : List (Char × Char) := [('a', 'i'), ('a', 'u'), ('e', 'i'), ('o', 'i')]

/-- Two vowels together are a diphthong. -/
def Flows (w : List Char) : Prop :=
  ∀ u v a b, w = u ++ a :: b :: v → V a → V b → (a, b) ∈ diphthongs

/-- CVV or CV'V, a hyphen, and one CCV: the hyphen is not needed. -/
def IdleHyphen (w : List Char) : Prop :=
  ∃ s u t, (s = .cvv ∨ s = .cvhv) ∧ Rafsi s u ∧ Rafsi .ccv t ∧ w = u ++ rnHyphen t :: t

/-- A well-formed lujvo. -/
structure IsLujvo (w : List Char) : Prop where
  valid : Valid true w
  flows : Flows w
  needed : ¬ IdleHyphen w
  long : ¬ Rafsi .ccv w

/-- A well-formed gismu. -/
def IsGismu (w : List Char) : Prop := Rafsi .cvccv w ∨ Rafsi .ccvcv w

end Jbo.Lujvo.Spec
