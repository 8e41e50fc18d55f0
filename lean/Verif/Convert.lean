import Verif.Gram
import Verif.Trans
/-!
# Model of `conversion.c`: SE, and how selbri are glossed

What the passes do is the list of properties that they hang on nodes.
-/

namespace Jbo.Convert
open Jbo.Terms

/-- `prop_bai_conversion`, `prop_dont_gloss`, `prop_conversion`, `prop_glosstype` with `in_selbri`, and with
`is_tertau = 1`. -/
inductive Ev
  | bai (node conv : Nat)
  | dontGloss (node : Nat)
  | conv (node place : Nat)
  | inSelbri (node : Nat) (b : Bool)
  | tertau (node : Nat)
deriving DecidableEq, Repr

/-- `lookup_converted_place` (`conversion.c:28-47`). -/
def convertedPlace : Node → M Nat
  | .cmavo _ _ w =>
    if w = "se" then .ok 2 else if w = "te" then .ok 3 else if w = "ve" then .ok 4 else if w = "xe" then .ok 5
    else .error .assertion
  | _ => .error .assertion

/-- The word of a node `c1` with `assert(c1->data.cmavo.selmao == SE)` (`conversion.c:71-72`, `147-148`). -/
def seWord (x : Node) : M Node := do
  let c ← stripAttitudinal x
  if c.isSel .SE then return c else .error .assertion

/-- One node in `conv_tag_se_bai` (`conversion.c:56-101`). -/
def baiNode (_ : List Node) : Node → M (List Ev)
  | .nt i .seBai cs => do
    let c1 ← seWord (← childRef (.nt i .seBai cs) 0)
    let c2 ← childRef (.nt i .seBai cs) 1
    let p ← convertedPlace c1
    return [.bai c2.id p, .dontGloss c1.id]
  | .nt i .bai1 cs => do
    let c1 ← childRef (.nt i .bai1 cs) 0
    return [.bai c1.id 1]
  | _ => return []

/-- `conv_tag_se_bai` (`conversion.c:56-101`).  The program does not look below the two types of nodes, which have only
words. -/
def tagSeBai (top : Node) : M (List Ev) := Gram.visit baiNode [] top

/-- The loop of `compute_tu2_conv` (`conversion.c:141-211`) from a node outwards: the list is the node and its ancestors.
The result is `places[1]` and the words that get `prop_dont_gloss`. -/
def tu2Walk (places : List Nat) : List Node → M (Nat × List Nat)
  | [] => .error .null
  | .nt i t cs :: rest =>
    match t with
    | .seTu2 => do
      let se ← seWord (← childRef (.nt i t cs) 0)
      let p ← convertedPlace se
      let (n, ds) ← tu2Walk (Trans.exchange places p) rest
      return (n, se.id :: ds)
    | .tanruUnit2 => tu2Walk places rest
    | .naheTu2 => tu2Walk places rest
    | .tanruUnit1 => tu2Walk places rest
    | .tanruUnit => tu2Walk places rest
    | .selbri6 => tu2Walk places rest
    | .selbri5 => tu2Walk places rest
    | .selbri3 => tu2Walk places rest
    | .keSelbri3 => tu2Walk places rest
    | .keSelbri3Tu2 => tu2Walk places rest
    | .jaiTu2 => tu2Walk (places.set 0 0) rest
    | .jaiTagTu2 => tu2Walk (places.set 0 0) rest
    | .selbri4 =>
      match rest with
      | [] => .error .null
      | p :: r =>
        if p.isNT .selbri3 then
          match r with
          | [] => .error .null
          | q :: _ => if q.isNT .selbri3 then return (places.getD 0 0, []) else tu2Walk places rest
        else tu2Walk places rest
    | .selbri2 => return (places.getD 0 0, [])
    | _ => .error .assertion
  | _ :: _ => .error .assertion

/-- `compute_tu2_conv` (`conversion.c:116-213`); `done` are the nodes that have a conversion from `terms.c`. -/
def tu2Conv (done : Nat → Bool) (up : List Node) (x : Node) : M (List Ev) :=
  if done x.id then return []
  else do
    let (n, ds) ← tu2Walk [1, 2, 3, 4, 5] up
    return .conv x.id n :: ds.map .dontGloss

/-- The loop from NU to the enclosing TANRU_UNIT_2 (`conversion.c:244-249`). -/
def toTu2 : List Node → M (List Node)
  | [] => .error .null
  | .nt i t cs :: rest => if t = .tanruUnit2 then return .nt i t cs :: rest else toTu2 rest
  | _ :: _ => .error .assertion

/-- One node in `conv_mark_tu2s` (`conversion.c:224-254`). -/
def tu2Node (done : Nat → Bool) (anc : List Node) (x : Node) : M (List Ev) :=
  match x with
  | .brivla _ => tu2Conv done anc x
  | .cmavo _ .NU _ => do tu2Conv done (← toTu2 anc) x
  | _ => return []

/-- `conv_mark_tu2s` (`conversion.c:224-254`). -/
def markTu2s (done : Nat → Bool) (top : Node) : M (List Ev) := Gram.visit (tu2Node done) [] top

/-- `GlossState` (`conversion.c:258-265`). -/
inductive GS
  | none | mainSelbri | sumti | jai | modal
deriving DecidableEq, Repr

/-- The value of `in_selbri` (`conversion.c:303-307`, `353-357`). -/
def verbal (g : GS) : Bool := g == .mainSelbri || g == .jai

/-- `prop_glosstype` if the state is not `GS_NONE`. -/
def glossed (g : GS) (x : Node) : List Ev := if g = .none then [] else [.inSelbri x.id (verbal g)]

/-- The new state (`conversion.c:292-327`). -/
def newState (g : GS) : NT → GS
  | .mainSelbri => .mainSelbri
  | .metalinguisticMainSelbri => .mainSelbri
  | .jaiTagTu2 => .jai
  | .jaiTu2 => .jai
  | .sumti => .sumti
  | .free => .none
  | .operand3 => .none
  | .mexOperator => .none
  | .complexTenseModal => .modal
  | _ => g

/-- The word JAI (`conversion.c:297-312`). -/
def jaiGloss (g : GS) (x : Node) (t : NT) : M (List Ev) :=
  if t = .jaiTagTu2 ∨ t = .jaiTu2 then do return glossed g (← childRef x 0) else return []

mutual
/-- `conv_mark_gloss_types` (`conversion.c:271-363`). -/
def markGloss : GS → Node → M (List Ev)
  | g, .nt i t cs => do
    let e ← jaiGloss g (.nt i t cs) t
    return e ++ (← markGlossAll (newState g t) cs)
  | g, .brivla i => return glossed g (.brivla i)
  | g, .zei i => return glossed g (.zei i)
  | g, .cmavo i s w => return if s = .NU then glossed g (.cmavo i s w) else []
  | _, .leaf _ => return []
def markGlossAll : GS → List Node → M (List Ev)
  | _, [] => return []
  | g, c :: cs => do
    let e ← markGloss g c
    return e ++ (← markGlossAll g cs)
end

end Jbo.Convert
