import Verif.Token

/-!
# Model of `erasure.c` (si / sa / su)

The circular doubly linked token list is a Lean list; the position of the scanning pointer
is a zipper: `left` holds the tokens before the pointer, nearest first.
-/

namespace Jbo.Erasure
open Jbo

/-- `erasure.c:44-68`: how many `si` are required to erase the token `y`;
`none` is the `default:` branch ending in `assert(0)`. -/
def require : Tok → Option Nat
  | .zoi _ _ _ => some 4
  | .zo _ => some 2
  | .lohu _ => some 3
  | .brivla _ => some 1
  | .cmavo _ _ => some 1
  | .cmene _ => some 1
  | .broken d => some d
  | _ => none

/-- `erasure.c:70-82`: starting with `si_got` matches, count further consecutive `si`
while fewer than `req` were seen; returns the final count and the remaining tokens `z`. -/
def countSi (req : Nat) : Nat → List Tok → Nat × List Tok
  | got, [] => (got, [])
  | got, t :: ts =>
    if got < req ∧ t.isSel .SI = true then countSi req (got + 1) ts else (got, t :: ts)

theorem countSi_length (req got : Nat) (ts : List Tok) :
    (countSi req got ts).2.length ≤ ts.length := by
  induction ts generalizing got with
  | nil => simp [countSi]
  | cons t ts ih =>
    unfold countSi
    split
    · have := ih (got + 1); simp; omega
    · simp

/-- `erasure.c:20-100` `handle_si`. -/
def siLoop (left : List Tok) : List Tok → Except Crash (List Tok)
  | [] => .ok left.reverse
  | x :: rest =>
    if x.isSel .SI then
      match left with
      | [] => siLoop [x] rest            -- "Unmatched SI at start of input": `continue`
      | y :: l =>
        match require y with
        | none => .error .assertFail
        | some req =>
          let p := countSi req 1 rest
          if p.1 < req then siLoop (.broken (req - p.1) :: l) p.2
          else siLoop l p.2
    else siLoop (x :: left) rest
termination_by ts => ts.length
decreasing_by
  all_goals first
    | (simp; done)
    | (have := countSi_length req 1 rest; simp; omega)

/-- `handle_si(toks)`. -/
def handleSi (ts : List Tok) : Except Crash (List Tok) := siLoop [] ts

/-- `erasure.c:131-137`: the class test used by `sa` (`y` against the following word `nt`). -/
def sameClass (nt y : Tok) : Bool :=
  (y.kind == nt.kind) &&
    match y, nt with
    | .cmavo s _, .cmavo s' _ => s == s'
    | _, _ => true

/-- `erasure.c:131-145`, `182-198`: walk back over `left` to the nearest token satisfying `p`
and delete from there; if none is found delete everything (`y = toks->next`). -/
def cutBack (p : Tok → Bool) : List Tok → List Tok
  | [] => []
  | y :: l => if p y then l else cutBack p l

/-- `erasure.c:108-147` `handle_sa`.  The scan stops at the last token. -/
def saLoop (left : List Tok) : List Tok → List Tok
  | [] => left.reverse
  | [x] => (x :: left).reverse
  | x :: nt :: rest =>
    if x.isSel .SA then saLoop (cutBack (sameClass nt) left) (nt :: rest)
    else saLoop (x :: left) (nt :: rest)

/-- `handle_sa(toks)`. -/
def handleSa (ts : List Tok) : List Tok := saLoop [] ts

/-- `erasure.c:183-187`: tokens at which a single `su` stops. -/
def suStop (y : Tok) : Bool :=
  y.isSel .NIhO || y.isSel .LU || y.isSel .TUhE || y.isSel .TO

/-- `erasure.c:153-202` `handle_su`. -/
def suLoop (left : List Tok) : List Tok → List Tok
  | [] => left.reverse
  | x :: rest =>
    if x.isSel .SU then
      match rest with
      | [] => suLoop (cutBack suStop left) []
      | nt :: rest' =>
        if nt.isSel .SU then suLoop [] rest'
        else suLoop (cutBack suStop left) (nt :: rest')
    else suLoop (x :: left) rest
termination_by ts => ts.length

/-- `handle_su(toks)`. -/
def handleSu (ts : List Tok) : List Tok := suLoop [] ts

/-- `erasure.c:208-214` `do_erasures`. -/
def doErasures (ts : List Tok) : Except Crash (List Tok) :=
  match handleSi ts with
  | .ok r => .ok (handleSu (handleSa r))
  | .error e => .error e

end Jbo.Erasure
