import Verif.EliTab
/-!
# What the report says
-/

namespace Jbo.EliTab

/-- In the report the lines under `State q` list a shift of a token. -/
def Lists (ls : List StateLine) (q : Nat) (x : String) : Prop :=
  ∃ pre mid post to, ls = pre ++ .state q :: mid ++ .shift x to :: post ∧ ∀ n, .state n ∉ mid

def stateNo : StateLine → Option Nat
  | .state n => some n
  | .shift _ _ => none

/-- The states are listed from 0 to `m`, each after the one before. -/
def InOrder (m : Nat) (ls : List StateLine) : Prop :=
  ls.filterMap stateNo = List.range (m + 1) ∧
  ls.head? = some (.state 0)

/-- A group of rules as bison writes them: the left side and how many alternatives. -/
structure Group where
  lhs : String
  more : Nat
deriving DecidableEq, Repr

/-- The lines of a group whose first rule is `n`. -/
def Group.lines (g : Group) (n : Nat) : List RuleLine :=
  .head n g.lhs :: (List.range g.more).map (fun i => .alt (n + 1 + i))

/-- The report of all rules, numbered on; a blank line follows each group. -/
def reportRules : Nat → List Group → List RuleLine
  | _, [] => []
  | n, g :: gs => g.lines n ++ .blank :: reportRules (n + 1 + g.more) gs

/-- The left side of a rule. -/
def lhsOf : Nat → List Group → Nat → Option String
  | _, [], _ => none
  | n, g :: gs, r =>
    if r < n then none else if r < n + 1 + g.more then some g.lhs else lhsOf (n + 1 + g.more) gs r

end Jbo.EliTab
