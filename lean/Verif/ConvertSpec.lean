import Verif.Convert
import Verif.TransSpec
import Verif.GramOcc
import Verif.TermsTreeSpec
/-!
# What SE means for the words in its scope
-/

namespace Jbo.Convert.Spec
open Jbo.Terms Jbo.Gram
open Jbo.Terms.Spec (sePlaces)
open Jbo.TransSpec (Op placeThrough)

/-! ## SE before BAI -/

/-- The place that is chosen by SE before BAI is known to the word of BAI, and SE is not shown; alone it is the first
place.  `on` tells to which node, given the child and the number of its word. -/
inductive BaiTold (on : Node → Nat → Nat) : Node → Ev → Prop
  | se {i s k v p b j w e} : Terms.Spec.Word s k .SE v → (v, p) ∈ sePlaces → Terms.Spec.Word b j .BAI w → e ∈ [Ev.bai (on b j) p, .dontGloss k] →
      BaiTold on (.nt i .seBai [s, b]) e
  | plain {i b j w} : Terms.Spec.Word b j .BAI w → BaiTold on (.nt i .bai1 [b]) (.bai (on b j) 1)

/-- A text in which no word of BAI has an indicator or `ba'e`. -/
def NoMarkedBai (top : Node) : Prop :=
  ∀ anc i t cs b j w, Occ top anc (.nt i t cs) → b ∈ cs → Terms.Spec.Word b j .BAI w → b = .cmavo j .BAI w

/-! ## SE before units of tanru -/

/-- What SE and JAI do to a unit that they stand before; from the inside to the outside. -/
inductive Ops : List Node → List Op → Prop
  | nil : Ops [] []
  | se {i s k w p cs near os} : Terms.Spec.Word s k .SE w → (w, p) ∈ sePlaces → Ops near os → Ops (.nt i .seTu2 (s :: cs) :: near) (.conv p :: os)
  | jai {i t cs near os} : t = .jaiTu2 ∨ t = .jaiTagTu2 → Ops near os → Ops (.nt i t cs :: near) (.jai :: os)
  | other {i t cs near os} : t ∉ [NT.seTu2, .jaiTu2, .jaiTagTu2] → Ops near os → Ops (.nt i t cs :: near) os

/-- The nodes around a word up to the first place where the scope ends. -/
def Scope (E : List Node → Prop) (anc near : List Node) : Prop :=
  ∃ rest, anc = near ++ rest ∧ E rest ∧ ∀ a b, near = a ++ b → b ≠ [] → ¬ E (b ++ rest)

/-- The selbri before `gi` in a forethought connection: the nodes up to this connection. -/
inductive Forethought : List Node → Prop
  | here {i j k as bs cs r} : Forethought (.nt i .selbri1 as :: .nt j .selbri bs :: .nt k .selbri6 cs :: r)
  | na {i j as bs r} : Forethought r → Forethought (.nt i .selbri1 as :: .nt j .selbri bs :: r)

/-- A node is not the last part of what it stands in, so that SE before the whole does not change the first place of it. -/
inductive Ends : List Node → Prop
  /-- a part of a tanru before the last -/
  | modifier {i j k as bs cs r} : Ends (.nt i .selbri4 as :: .nt j .selbri3 bs :: .nt k .selbri3 cs :: r)
  /-- the part before `bo` -/
  | bo {i j as b c cs r} : Ends (.nt i .tanruUnit as :: .nt j .selbri6 (b :: c :: cs) :: r)
  /-- a whole selbri -/
  | whole {i as r} : ¬ Forethought r → Ends (.nt i .selbri2 as :: r)

/-- The same, except that the part before `bo` counts as the last, and that both parts of a forethought connection do not. -/
inductive CodeEnds : List Node → Prop
  | modifier {i j k as bs cs r} : CodeEnds (.nt i .selbri4 as :: .nt j .selbri3 bs :: .nt k .selbri3 cs :: r)
  | whole {i as r} : CodeEnds (.nt i .selbri2 as :: r)

/-- Words that have places: brivla and abstractors. -/
def Places (x : Node) : Prop := (∃ i, x = .brivla i) ∨ ∃ i w, x = .cmavo i .NU w

/-- The first place of the unit in terms of the word is known to the word, and SE is not shown; `done` are the words for
which this has been done before. -/
inductive PlaceTold (E : List Node → Prop) (done : Nat → Bool) : List Node → Node → Ev → Prop
  | conv {anc x near os} : Places x → done x.id = false → Scope E anc near → Ops near os →
      PlaceTold E done anc x (.conv x.id (placeThrough os.reverse 1))
  | se {anc x near i s cs k w} : Places x → done x.id = false → Scope E anc near → .nt i .seTu2 (s :: cs) ∈ near → Terms.Spec.Word s k .SE w →
      PlaceTold E done anc x (.dontGloss k)

/-- A text without `bo` and forethought connections in tanru. -/
def NoBo (top : Node) : Prop := ∀ anc i cs, Occ top anc (.nt i .selbri6 cs) → ∃ c, cs = [c]

/-! ## Verb or noun -/

def verbNTs : List NT := [.mainSelbri, .metalinguisticMainSelbri, .jaiTu2, .jaiTagTu2]
def nounNTs : List NT := [.sumti, .complexTenseModal]
def silentNTs : List NT := [.free, .operand3, .mexOperator]

/-- A node is of one of some types. -/
def Of (ts : List NT) (x : Node) : Prop := ∃ i t cs, x = .nt i t cs ∧ t ∈ ts

/-- The nearest ancestor that decides is of one of some types. -/
def Near (ts : List NT) (anc : List Node) : Prop :=
  ∃ near r rest, anc = near ++ r :: rest ∧ Of ts r ∧ ∀ y ∈ near, ¬ Of (verbNTs ++ nounNTs ++ silentNTs) y

/-- The form of the gloss. -/
def Form (anc : List Node) : Bool → Prop
  | true => Near verbNTs anc
  | false => Near nounNTs anc

/-- Words of selbri in a main selbri or after JAI are glossed as verbs, in sumti and in tags as nouns; the same for
JAI. -/
inductive FormTold (on : Node → Nat → Nat) : List Node → Node → Ev → Prop
  | word {anc x b} : Places x ∨ (∃ i, x = .zei i) → Form anc b → FormTold on anc x (.inSelbri x.id b)
  | jai {anc i t c cs j w b} : t = .jaiTu2 ∨ t = .jaiTagTu2 → Terms.Spec.Word c j .JAI w → Form anc b →
      FormTold on anc (.nt i t (c :: cs)) (.inSelbri (on c j) b)

/-- A text in which no JAI has an indicator or `ba'e`. -/
def NoMarkedJai (top : Node) : Prop :=
  ∀ anc i t cs c j w, Occ top anc (.nt i t cs) → c ∈ cs → Terms.Spec.Word c j .JAI w → c = .cmavo j .JAI w

end Jbo.Convert.Spec
