import Verif.Token

/-!
# Specification of erasure

`si`: the text is replayed word by word on a stack; every entry remembers how many `si`
have been spoken against it.  `sa`, `su`: described by where the deleted stretch begins.
Nothing here refers to the model in `Verif.Erasure`.
-/

namespace Jbo.ErasureSpec
open Jbo

/-- Number of words a speaker has uttered for one token: `zo X` is two words,
`lo'u .. le'u` counts as three, `zoi D .. D` as four, an already damaged quote as many as
are still missing.  `none`: `si` after such a token is not supported. -/
def spoken : Tok → Option Nat
  | .zoi .. => some 4
  | .lohu _ => some 3
  | .zo _ => some 2
  | .brivla _ | .cmene _ | .cmavo .. => some 1
  | .broken d => some d
  | .marker _ | .garbage _ | .zei _ | .bu _ => none

/-- One word is spoken; `stack` lists the words still standing, last one first, with the
number of `si` already used against each. -/
def speak (stack : List (Tok × Nat)) (w : Tok) : Option (List (Tok × Nat)) :=
  if w.isSel .SI then
    match stack with
    | [] => some [(w, 0)]                       -- nothing to erase: the word stays
    | (y, k) :: below =>
      match spoken y with
      | none => none
      | some n => if n ≤ k + 1 then some below else some ((y, k + 1) :: below)
  else some ((w, 0) :: stack)

/-- What is left of a word against which `k` `si` were used. -/
def remains : Tok × Nat → Tok
  | (y, 0) => y
  | (y, k + 1) => .broken ((spoken y).getD 0 - (k + 1))

/-- Replaying a whole text. -/
def replay (stack : List (Tok × Nat)) : List Tok → Option (List (Tok × Nat))
  | [] => some stack
  | w :: ws => (speak stack w).bind (replay · ws)

/-- Result of `si` processing; `none` when unsupported. -/
def siResult (ts : List Tok) : Option (List Tok) :=
  (replay [] ts).map fun st => (st.map remains).reverse

/-- Two words are of the same class: cmavo of one selma'o, or words of the same
non-cmavo type. -/
def SameClass (a b : Tok) : Prop :=
  match a, b with
  | .cmavo s _, .cmavo s' _ => s = s'
  | a, b => a.kind = b.kind

/-- `kept` is what remains of `pre` when everything from the last token satisfying `P`
is deleted (everything, if there is none). -/
def CutFromLast (P : Tok → Prop) (pre kept : List Tok) : Prop :=
  (∃ c deleted, pre = kept ++ c :: deleted ∧ P c ∧ ∀ d ∈ deleted, ¬ P d) ∨
    (kept = [] ∧ ∀ d ∈ pre, ¬ P d)

/-- Openers of a discourse unit at which `su` stops. -/
def IsOpener (t : Tok) : Prop :=
  ∃ s w, t = .cmavo s w ∧ (s = .NIhO ∨ s = .LU ∨ s = .TUhE ∨ s = .TO)

/-- The word `t` is the erasure cmavo of selma'o `s`. -/
def Is (s : Sel) (t : Tok) : Prop := ∃ w, t = .cmavo s w

/-- `r` is obtained from `s` by relabelling some tokens as partly erased; only a token of
`n` spoken words can be relabelled, with a defect count strictly between 0 and `n`
(so single words never are). -/
inductive Damaged : List Tok → List Tok → Prop
  | nil : Damaged [] []
  | same (t) {s r} : Damaged s r → Damaged (t :: s) (t :: r)
  | hurt (t d n) {s r} : spoken t = some n → 0 < d → d < n → Damaged s r → Damaged (t :: s) (.broken d :: r)

end Jbo.ErasureSpec
