import Verif.Gram
/-!
# Model of `connect.c`: the truth functions of connectives

What the pass does to the tree is the list of properties that it hangs on nodes (`prop_connective`).
-/

namespace Jbo.Connect
open Jbo.Terms

/-- `XConnective.pos` (`nodes.h:293-311`). -/
inductive Pos
  | after | ge | gi | geJoik | giJoik | geStag | giStag
deriving DecidableEq, Repr

/-- A property of a node: a truth pattern, or the non-logical connective or tense with the two
negations. -/
inductive Ev
  | truth (id : Nat) (p : Pos) (pattern : String)
  | joined (id : Nat) (p : Pos) (js : Nat) (neg1 neg2 : Bool)
deriving DecidableEq, Repr

/-- `truth_ex` (`connect.c:23-29`). -/
def truthEx : List String :=
  ["FFFF", "FFFT", "FFTF", "FFTT", "FTFF", "FTFT", "FTTF", "FTTT", "TFFF", "TFFT", "TFTF", "TFTT", "TTFF", "TTFT", "TTTF", "TTTT", "QQQQ"]

/-- `main_table` (`connect.c:34-40`). -/
def mainTable : List Nat := [
  0xe, 0xd, 0xb, 0x7, 0xe, 0xd, 0xb, 0x7,
  0x8, 0x4, 0x2, 0x1, 0x8, 0x4, 0x2, 0x1,
  0x9, 0x6, 0x6, 0x9, 0x9, 0x6, 0x6, 0x9,
  0xc, 0xc, 0x3, 0x3, 0xa, 0x5, 0xa, 0x5,
  0x10, 0x10, 0x10, 0x10, 0x10, 0x10, 0x10, 0x10]

/-- `TruthFunction` without `TR_OTHER` (`connect.c:42-49`), with its number. -/
inductive Tr
  | a | e | o | u | q
deriving DecidableEq, Repr

def Tr.num : Tr → Nat
  | .a => 0 | .e => 1 | .o => 2 | .u => 3 | .q => 4

/-- `truth_ex[generate_truth_index(neg1, conv, neg2, func)]` (`connect.c:66-83`). -/
def pattern (neg1 conv neg2 : Bool) (f : Tr) : M String :=
  match mainTable[8 * f.num + 4 * conv.toNat + 2 * neg1.toNat + neg2.toNat]? with
  | none => .error .bounds
  | some r => match truthEx[r]? with
    | none => .error .bounds
    | some p => .ok p

/-- `process_afterthought` (`connect.c:95-121`). -/
def afterthought (x : Node) (f : Tr) : M (List Ev) := do
  let na ← findCmavo x .NA
  let se ← findCmavo x .SE
  let nai ← findCmavo x .NAI
  let p ← pattern na.isSome se.isSome nai.isSome f
  return [.truth x.id .after p]

/-- The comparisons of the text with five words; `none` is `TR_OTHER`. -/
def fiveWords (wa we wo wu wq : String) (text : String) : Option Tr :=
  if text = wa then some .a
  else if text = we then some .e
  else if text = wo then some .o
  else if text = wu then some .u
  else if text = wq then some .q
  else none

/-- The text of a cmavo (`cmavo_table[key->data.cmavo.code].cmavo`). -/
def textOf : Node → M String
  | .cmavo _ _ w => .ok w
  | _ => .error .uninit

/-- `process_jek`, `process_ek`, `process_gihek` (`connect.c:130-235`): they differ in the selma'o and the
words. -/
def processAfter (s : Sel) (words : String → Option Tr) (x : Node) : M (List Ev) := do
  let key ← asserted (← findCmavo x s)
  let text ← textOf key
  match words text with
  | some f => afterthought x f
  | none => return []

/-- The words of JA, A, GIhA, GUhA and GA (`connect.c:141-153`, `179-191`, `217-229`, `302-314`, `438-450`). -/
def jaWords := fiveWords "ja" "je" "jo" "ju" "je'i"
def aWords := fiveWords "a" "e" "o" "u" "ji"
def gihaWords := fiveWords "gi'a" "gi'e" "gi'o" "gi'u" "gi'i"
def guhaWords := fiveWords "gu'a" "gu'e" "gu'o" "gu'u" "gu'i"
def gaWords := fiveWords "ga" "ge" "go" "gu" "ge'i"

/-- `x->parent`. -/
def parent (anc : List Node) : M Node :=
  match anc with
  | p :: _ => .ok p
  | [] => .error .null

/-- `process_forethought` (`connect.c:246-282`). -/
def forethought (anc : List Node) (x : Node) (f : Tr) : M (List Ev) := do
  let gik ← asserted (← findNth (← parent anc) 1 .gik)
  let se ← findCmavo x .SE
  let nai1 ← findCmavo x .NAI
  let nai2 ← findCmavo gik .NAI
  let p ← pattern nai1.isSome se.isSome nai2.isSome f
  return [.truth x.id .ge p, .truth gik.id .gi p]

/-- `process_guhek` (`connect.c:291-320`). -/
def processGuhek (anc : List Node) (x : Node) : M (List Ev) := do
  let key ← asserted (← findCmavo x .GUhA)
  let text ← textOf key
  match guhaWords text with
  | some f => forethought anc x f
  | none => return []

/-- `process_joik_gi` (`connect.c:331-364`). -/
def joikGi (anc : List Node) (gek : Node) : M (List Ev) := do
  let mid ← asserted (← findNth (← parent anc) 1 .gik)
  let joik ← asserted (← findNth gek 1 .joik)
  let nai2 ← findCmavo mid .NAI
  return [.joined gek.id .geJoik joik.id false nai2.isSome, .joined mid.id .giJoik joik.id false nai2.isSome]

/-- `process_stag_gik` (`connect.c:374-407`). -/
def stagGik (anc : List Node) (gek gik : Node) : M (List Ev) := do
  let mid ← asserted (← findNth (← parent anc) 1 .gik)
  let stag ← asserted (← findNth gek 1 .stag)
  let nai1 ← findCmavo gik .NAI
  let nai2 ← findCmavo mid .NAI
  return [.joined gek.id .geStag stag.id nai1.isSome nai2.isSome, .joined mid.id .giStag stag.id nai1.isSome nai2.isSome]

/-- `process_gek` (`connect.c:415-457`). -/
def processGek (anc : List Node) (x : Node) : M (List Ev) := do
  match ← findCmavo x .GA with
  | none => do
    let gik ← findNth x 1 .gik
    let gi ← findCmavo x .GI
    match gi, gik with
    | none, none => .error .assertion
    | some _, _ => joikGi anc x
    | none, some g => stagGik anc x g
  | some key => do
    let text ← textOf key
    match gaWords text with
    | some f => forethought anc x f
    | none => return []

/-- One node in `traverse_tree` (`connect.c:466-512`). -/
def node (anc : List Node) (x : Node) : M (List Ev) :=
  match x with
  | .nt _ t _ =>
    match t with
    | .jek | .jekOptKe | .jekOptKebo => processAfter .JA jaWords x
    | .ek => processAfter .A aWords x
    | .gihek => processAfter .GIhA gihaWords x
    | .gek => processGek anc x
    | .guhek => processGuhek anc x
    | _ => .ok []
  | _ => .ok []

/-- `connectives_processing` (`connect.c:520-525`): `traverse_tree` looks at every node before its
children. -/
def connectivesProcessing (top : Node) : M (List Ev) := Gram.visit node [] top

end Jbo.Connect
