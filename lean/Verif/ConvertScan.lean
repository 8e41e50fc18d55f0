import Verif.Convert
/-!
# Model of `selbri_scan` in `conversion.c`: which words are the last part of their tanru
-/

namespace Jbo.Convert
open Jbo.Terms

/-- The nodes with `prop_done_s3`, and what has been hung on nodes. -/
abbrev St := List Nat × List Ev

/-- `prop_glosstype(x, YES)->is_tertau = 1`. -/
def mark (x : Node) (st : St) : St := (st.1, st.2 ++ [.tertau x.id])

/-- A call if the pointer is not null. -/
def perhaps (f : Node → St → M St) : Option Node → St → M St
  | none, st => .ok st
  | some x, st => f x st

/-- A call with no test for the null pointer. -/
def surely (f : Node → St → M St) : Option Node → St → M St
  | none, _ => .error .null
  | some x, st => f x st

/-- The SELBRI_3 of a KE_SELBRI_3 (`conversion.c:409-415`). -/
def keScan (f : Bool → Node → St → M St) (x : Node) (st : St) : M St := do
  surely (f false) (← findNth x 1 .selbri3) st

/-- The case SELBRI_4 (`conversion.c:398-424`); `f` is `selbri_scan`. -/
def loop4 (f : Bool → Node → St → M St) : Nat → Node → St → M St
  | 0, _, _ => .error .depth
  | fuel + 1, x, st => do
    if (← nch x) > 1 then
      let st ← perhaps (f true) (← findNth x 1 .selbri5) st
      let st ← perhaps (keScan f) (← findNth x 1 .keSelbri3) st
      loop4 f fuel (← deref (← findNth x 1 .selbri4)) st
    else surely (f true) (← findNth x 1 .selbri5) st

/-- The cases SELBRI_5, SELBRI_6 and TANRU_UNIT (`conversion.c:425-466`): a call for the child of type `u`, then the
same for the child of type `t`.  In the case SELBRI_6 there is a test for the null pointer. -/
def loopDown (f : Bool → Node → St → M St) (t u : NT) : Nat → Node → St → M St
  | 0, _, _ => .error .depth
  | fuel + 1, x, st => do
    let c ← findNth x 1 u
    let st ← (if t = .selbri6 then perhaps else surely) (f true) c st
    match ← findNth x 1 t with
    | none => return st
    | some y => loopDown f t u fuel y st

/-- The loop over NU_NAI_SEQ (`conversion.c:521-530`). -/
def nuLoop : Nat → Node → St → M St
  | 0, _, _ => .error .depth
  | fuel + 1, x, st => do
    let nu ← deref (← findCmavo x .NU)
    match ← findNth x 1 .nuNaiSeq with
    | none => return mark nu st
    | some y => nuLoop fuel y (mark nu st)

/-- The case of AUGMENTED (`conversion.c:484-494`). -/
def markAug (x : Node) (st : St) : M St := do
  let c ← stripAttitudinal x
  match c with
  | .brivla _ => return mark c st
  | _ => return st

/-- The case TANRU_UNIT_2 (`conversion.c:474-541`). -/
def unitScan (f : Bool → Node → St → M St) (fuel : Nat) (x : Node) (st : St) : M St := do
  let c ← childRef x 0
  match c with
  | .brivla _ => return mark c st
  | .zei _ => return mark c st
  | .nt _ .augmented _ => markAug c st
  | .nt _ .seTu2 _ => surely (f true) (← findNth c 1 .tanruUnit2) st
  | .nt _ .jaiTu2 _ => surely (f true) (← findNth c 1 .tanruUnit2) st
  | .nt _ .naheTu2 _ => surely (f true) (← findNth c 1 .tanruUnit2) st
  | .nt _ .jaiTagTu2 _ => do
    let j ← childRef c 0
    surely (f true) (← findNth c 1 .tanruUnit2) (mark j st)
  | .nt _ .abstraction _ => do nuLoop fuel (← childRef c 0) st
  | _ => return st

/-- The loop that sets `prop_done_s3` (`conversion.c:560-563`). -/
def doneLoop : Nat → Node → List Nat → M (List Nat)
  | 0, _, _ => .error .depth
  | fuel + 1, x, done => do
    match ← findNth x 1 .selbri3 with
    | none => return x.id :: done
    | some y => doneLoop fuel y (x.id :: done)

/-- The part of `selbri_scan` for `is_tertau` (`conversion.c:386-543`). -/
def lastScan (f : Bool → Node → St → M St) (fuel : Nat) (x : Node) (t : NT) (st : St) : M St :=
  match t with
  | .selbri4 => loop4 f fuel x st
  | .selbri5 => loopDown f .selbri5 .selbri6 fuel x st
  | .selbri6 => loopDown f .selbri6 .tanruUnit fuel x st
  | .tanruUnit => loopDown f .tanruUnit .tanruUnit1 fuel x st
  | .tanruUnit1 => do surely (f true) (← findNth x 1 .tanruUnit2) st
  | .tanruUnit2 => unitScan f fuel x st
  | _ => return st

/-- The part for a SELBRI_3 (`conversion.c:544-572`). -/
def groupScan (f : Bool → Node → St → M St) (fuel : Nat) (x : Node) (t : NT) (st : St) : M St :=
  if t = .selbri3 ∧ x.id ∉ st.1 then do
    let c ← findNth x 1 .selbri4
    let done ← doneLoop fuel x st.1
    surely (f true) c (done, st.2)
  else return st

/-- `selbri_scan` (`conversion.c:373-583`).  The first argument bounds the depth of the recursion. -/
def scan : Nat → Bool → Node → St → M St
  | 0, _, _, _ => .error .depth
  | fuel + 1, last, .nt i t cs, st => do
    let st ← if last then lastScan (scan fuel) fuel (.nt i t cs) t st else groupScan (scan fuel) fuel (.nt i t cs) t st
    cs.foldlM (fun st c => scan fuel false c st) st
  | _ + 1, _, _, st => .ok st

/-- `do_conversions` (`conversion.c:593-600`); `done` are the nodes that have a conversion from `terms.c`. -/
def doConversions (fuel : Nat) (done : Nat → Bool) (top : Node) : M (List Ev) := do
  let a ← tagSeBai top
  let b ← markTu2s done top
  let c ← markGloss .none top
  let d ← scan fuel false top ([], [])
  return a ++ b ++ c ++ d.2

end Jbo.Convert
