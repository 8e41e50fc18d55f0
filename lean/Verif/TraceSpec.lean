import Verif.Trace
/-!
# What the trace and its report are to be
-/

namespace Jbo.Trace.Spec

/-- Reductions only. -/
def Reds (as : List Act) : Prop := ∀ a ∈ as, ∃ s r, a = .reduce s r

/-- The reductions since the last shift. -/
def Since (as : List Act) (l : Log) : Prop := ∃ before, as = before ++ l.map (fun p => .reduce p.1 p.2) ∧ (before = [] ∨ ∃ b, before = b ++ [.shift])

/-- A run of reductions. -/
def RunIn (as b : List Act) : Prop := Reds b ∧ ∃ a c, as = a ++ b ++ c

/-! ## The report -/

/-- The codes of the file have names, and the numbers of rules are those of rules. -/
structure Sound (g : Info) : Prop where
  lhs : ∀ r ∈ g.rules, r.lhs < g.names.length
  rhs : ∀ r ∈ g.rules, ∀ x ∈ r.rhs, x < g.names.length
  shifts : ∀ s ∈ g.states, ∀ x ∈ s.shifts, x < g.names.length

def nameOf (g : Info) (x : Nat) : Str := g.names.getD x []

/-- A symbol of a rule as it is shown: markers have no name. -/
def symbol (g : Info) (x : Nat) : Str := if "PRIVATE_".toList <+: nameOf g x then [] else nameOf g x

/-- The right side of a rule: the symbols with blanks between them, and a dot after the symbol before the place reached. -/
def side (g : Info) (dot : Nat) (rhs : List Nat) : Str :=
  ((rhs.mapIdx fun i x => symbol g x ++ if i + 1 = dot then " .".toList else []).intersperse [' ']).flatten

/-- The line for a rule. -/
def line (g : Info) (n dot : Nat) (r : Rule) : Str :=
  "Rule ".toList ++ (Nat.repr n).toList ++ " : ".toList ++ nameOf g r.lhs ++ " <- ".toList ++ side g dot r.rhs ++ "\n".toList

/-- The rule of a number. -/
def ruleAt (g : Info) (n : Nat) : Option Rule := if n = 0 then none else g.rules[n - 1]?

/-- The rules that can be shown: all but the last. -/
def Shown (g : Info) (n : Nat) : Prop := 0 < n ∧ n < g.rules.length

/-- The words that can come next in a state. -/
def next (g : Info) (s : State) : List Str := (s.shifts.map (nameOf g)).filter fun n => !decide ("PRIVATE_".toList <+: n)

/-- The lines for the items of a state. -/
def lines (g : Info) (s : State) : Str := s.items.flatMap fun p => match ruleAt g p.1 with | some r => line g p.1 p.2 r | none => []

/-- A state with its number. -/
structure At (g : Info) where
  num : Nat
  state : State
  here : g.states[num]? = some state

/-- A reduction: the state, the rule and its number. -/
structure Red (g : Info) where
  pos : At g
  num : Nat
  rule : Rule
  here : ruleAt g num = some rule

/-- What is to be said about a reduction: the rule, and the words that could have come, if there are any. -/
def reduction (g : Info) (r : Red g) : Str := line g r.num 0 r.rule ++
  if next g r.pos.state = [] then [] else "   (Next word class could be :".toList ++ ((next g r.pos.state).map (' ' :: ·)).flatten ++ ")\n".toList

/-- What is to be said about a state that waits. -/
def waiting (g : Info) (a : At g) : Str :=
  "State ".toList ++ (Nat.repr a.num).toList ++ "\n".toList ++ lines g a.state ++ "---------------------------\n".toList

/-- **The report**, for the log, the state that is jammed and those below it. -/
def told (g : Info) (last : Str) (log : List (Red g)) (top : At g) (below : List (At g)) : Str :=
  heading ++ last ++ rule20 ++ reduced ++ (if log = [] then "  NONE\n".toList else (log.map (reduction g)).flatten) ++ jammed top.num ++ lines g top.state ++
    "\nNext word class could be : ".toList ++ ((next g top.state).intersperse [' ']).flatten ++ "\n\n".toList ++ pending ++ (below.map (waiting g)).flatten

/-- The number of rules that it shows. -/
def ruleLines (g : Info) (log : List (Red g)) (top : At g) (below : List (At g)) : Nat :=
  log.length + top.state.items.length + (below.map fun a => a.state.items.length).sum

end Jbo.Trace.Spec
