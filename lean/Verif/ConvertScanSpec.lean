import Verif.ConvertScan
import Verif.ConvertSpec
/-!
# Which words are the last part of their tanru
-/

namespace Jbo.Convert.Spec
open Jbo.Terms Jbo.Gram

/-- The parts of a tanru, and what stands between them and a word. -/
def partNTs : List NT := [.selbri4, .selbri5, .selbri6, .tanruUnit, .tanruUnit1, .tanruUnit2, .seTu2, .naheTu2, .jaiTu2, .jaiTagTu2,
  .abstraction, .nuNaiSeq]

/-- A node is a modifier of what follows it. -/
inductive Modifier : List Node → Prop
  /-- a part of a tanru before the last -/
  | tanru {i j k as bs cs r} : Modifier (.nt i .selbri4 as :: .nt j .selbri3 bs :: .nt k .selbri3 cs :: r)
  /-- the part before `bo` -/
  | bo {i j as b c cs r} : Modifier (.nt i .tanruUnit as :: .nt j .selbri6 (b :: c :: cs) :: r)

/-- The same, except that the part before `bo` does not count. -/
inductive CodeModifier : List Node → Prop
  | tanru {i j k as bs cs r} : CodeModifier (.nt i .selbri4 as :: .nt j .selbri3 bs :: .nt k .selbri3 cs :: r)

/-- What has these nodes around it stands in the last part of the nearest tanru (a group with `ke` is a tanru of its own). -/
inductive Last (M : List Node → Prop) : List Node → Prop
  | whole {i cs r} : Last M (.nt i .selbri3 cs :: r)
  | part {i t cs r} : t ∈ partNTs → ¬ M (.nt i t cs :: r) → Last M r → Last M (.nt i t cs :: r)

/-- The words that are glossed as nouns or verbs and not as adjectives: the brivla, zei-lujvo and abstractors in last parts,
and JAI with a tag there. -/
inductive TertauTold (M : List Node → Prop) (Z : List Node → Node → Prop) (on : Node → Nat → Nat) : List Node → Node → Ev → Prop
  | word {anc x} : Places x ∨ (∃ i, x = .zei i) → Z anc x → Last M anc → TertauTold M Z on anc x (.tertau x.id)
  | jai {anc i c cs j w} : Terms.Spec.Word c j .JAI w → Last M (.nt i .jaiTagTu2 (c :: cs) :: anc) →
      TertauTold M Z on anc (.nt i .jaiTagTu2 (c :: cs)) (.tertau (on c j))

/-- A zei-lujvo that is not in AUGMENTED. -/
def ZeiAlone (anc : List Node) (x : Node) : Prop := (∃ k, x = .zei k) → ∃ i cs r, anc = .nt i .tanruUnit2 (x :: cs) :: r

mutual
/-- The numbers of the nodes SELBRI_3 of a tree. -/
def tanruIds : Node → List Nat
  | .nt i t cs => if t = .selbri3 then i :: tanruIdsAll cs else tanruIdsAll cs
  | _ => []
def tanruIdsAll : List Node → List Nat
  | [] => []
  | c :: cs => tanruIds c ++ tanruIdsAll cs
end

/-- A text without `bo` in tanru. -/
def NoBoTanru (top : Node) : Prop := ∀ anc i as, Occ top anc (.nt i .tanruUnit as) → ∀ j b c cs r, anc ≠ .nt j .selbri6 (b :: c :: cs) :: r

/-- A text in which no zei-lujvo has an indicator or `ba'e`. -/
def NoMarkedZei (top : Node) : Prop := ∀ anc j bs k rs, ¬ Occ top anc (.nt j .augmented (bs ++ .zei k :: rs))

end Jbo.Convert.Spec
