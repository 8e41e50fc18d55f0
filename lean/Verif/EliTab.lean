import Verif.Elide
/-!
# The table of tokens that can be shifted

`output2elide.pl` reads the report of bison and writes `elitabs.c`: a table of bits that says which token
can be shifted in which state, and the range of the rules for `subscript`.  `elide.c` reads both.

The lines are given after the regular expressions: which kind of line it is and its fields.  Only the form
of the report that bison 1.875 and later write is modelled.  Numbers are unbounded (the table has about
160 tokens and some thousands of states).
-/

namespace Jbo.EliTab

/-- A line of the rules (`output2elide.pl:17-38`): `  12 subscript: XI ...`, `  13     | ...`, or neither. -/
inductive RuleLine
  | head (n : Nat) (lhs : String)
  | alt (n : Nat)
  | blank
deriving DecidableEq, Repr

/-- `$losubscript`, `$hisubscript` and `$matching_subscript` (`output2elide.pl:14-16`). -/
structure SubSt where
  lo : Option Nat
  hi : Option Nat
  matching : Bool
deriving DecidableEq, Repr

/-- One turn of the loop (`output2elide.pl:25-32`).  A line for another left side also ends the match. -/
def subLine (s : SubSt) : RuleLine → SubSt
  | .head n lhs =>
    if lhs = "subscript" then { s with lo := some n, matching := true }
    else { s with matching := false }
  | .alt n => if s.matching then { s with hi := some n } else s
  | .blank => { s with matching := false }

/-- The loop over the rules (`output2elide.pl:17-38`): `LO_SUBSCRIPT` and `HI_SUBSCRIPT`.  `none` where the
script writes an empty definition, with which `elide.c:582` does not compile. -/
def subRange (ls : List RuleLine) : Option (Nat × Nat) :=
  match ls.foldl subLine ⟨none, none, false⟩ with
  | ⟨some lo, some hi, _⟩ => some (lo, hi)
  | _ => none

/-- A line of the terminals (`output2elide.pl:43-53`): the name and the code.  (Lines that go on and `$end`
are skipped by the script and left out here.) -/
structure Term where
  name : String
  code : Nat
deriving DecidableEq, Repr

/-- `%codes` (`output2elide.pl:50`): a name listed twice has the later code. -/
def codeOf : List Term → String → Option Nat
  | [], _ => none
  | t :: ts, x => match codeOf ts x with
    | some c => some c
    | none => if t.name = x then some t.code else none

/-- `$locode` and `$hicode` (`output2elide.pl:51-52`). -/
def codeRange : List Term → Option (Nat × Nat)
  | [] => none
  | t :: ts => some (ts.foldl (fun r u => (if r.1 > u.code then u.code else r.1,
      if r.2 < u.code then u.code else r.2)) (t.code, t.code))

/-- A line of the states (`output2elide.pl:58-73`) that matters. -/
inductive StateLine
  | state (n : Nat)
  | shift (tok : String) (to : Nat)
deriving DecidableEq, Repr

/-- `@toks` and `$state`; an undefined `$state` counts as 0. -/
structure TokSt where
  toks : Nat → List Nat
  state : Nat

/-- One turn of the loop (`output2elide.pl:59-72`); a token without code is warned about and left out. -/
def tokLine (ts : List Term) (s : TokSt) : StateLine → TokSt
  | .state n => { s with state := n }
  | .shift x _ => match codeOf ts x with
    | some c => { s with toks := fun i => if i = s.state then s.toks i ++ [c] else s.toks i }
    | none => s

def readStates (ts : List Term) (ls : List StateLine) : TokSt :=
  ls.foldl (tokLine ts) ⟨fun _ => [], 0⟩

/-- `@bits` for the tokens of one state (`output2elide.pl:85-95`); undefined entries are 0 (line 97). -/
def bitsOf (lo : Nat) (toks : List Nat) : Nat → Nat :=
  toks.foldl (fun bits t => fun b =>
    if b = (t - lo) / 32 then bits b ||| 1 <<< ((t - lo) % 32) else bits b) (fun _ => 0)

/-- `CODE_OFFSET`, `BLOCKS_PER_STATE` and `elitab`. -/
structure Table where
  offset : Nat
  blocks : Nat
  elitab : List Nat
deriving DecidableEq, Repr

/-- `output2elide.pl:40-109`; `none` if no terminal is listed. -/
def build (ts : List Term) (ls : List StateLine) : Option Table :=
  match codeRange ts with
  | none => none
  | some (lo, hi) =>
    let s := readStates ts ls
    let blocks := 1 + (hi - lo + 1) / 32
    some ⟨lo, blocks, (List.range (s.state + 1)).flatMap (fun q => (List.range blocks).map (bitsOf lo (s.toks q)))⟩

/-- `can_shift_in_state` (`elide.c:110-120`): `>>` and `&` of a negative number as gcc does them. -/
def canShiftInState (t : Table) (state value : Nat) : Except Elide.Crash Bool :=
  let offset : Int := (value : Int) - t.offset
  let block : Int := offset / 32 + state * t.blocks
  if block < 0 then .error .bounds
  else match t.elitab[block.toNat]? with
    | none => .error .bounds
    | some w => .ok (w.testBit (offset % 32).toNat)

/-- The test of `elide.c:582`. -/
def isSubscript (r : Nat × Nat) (yyn : Nat) : Bool := r.1 ≤ yyn && yyn ≤ r.2

end Jbo.EliTab
