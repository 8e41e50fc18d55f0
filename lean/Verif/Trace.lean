/-!
# The trace of the parser for error messages

`tracebk.c`, with the tables that `output2table.pl` writes for it.
-/

namespace Jbo.Trace

abbrev Str := List Char

/-- What the parser tells the trace: a token is shifted or a rule is reduced in a state (`add_trace_to_tabc.pl:32-39`). -/
inductive Act
  | shift
  | reduce (state rule : Nat)
deriving DecidableEq, Repr

/-- `reductions` with its first `n_reductions` members (`tracebk.c:15-21`). -/
abbrev Log := List (Nat × Nat)

/-- The size of `reductions` (`tracebk.c:20`). -/
def room : Nat := 1024

/-- `report_trace_reduce`, `report_trace_shift` (`tracebk.c:52-65`) for the actions of the parser in their order; `none`: a write after the end of
`reductions`. -/
def run : Log → List Act → Option Log
  | l, [] => some l
  | _, .shift :: as => run [] as
  | l, .reduce s r :: as => if l.length < room then run (l ++ [(s, r)]) as else none

/-! ## The tables -/

/-- A rule of the `.output` file of Bison: the code of its left side, those of its right side (`output2table.pl:26-69`). -/
structure Rule where
  lhs : Nat
  rhs : List Nat
deriving Repr

/-- A state: the rules with the place of the dot, and the tokens that can be shifted (`output2table.pl:93-150`). -/
structure State where
  items : List (Nat × Nat)
  shifts : List Nat
deriving Repr

/-- What is read from the file.  Rules have the numbers from 1 on, states those from 0 on.  How names get codes is not modelled. -/
structure Info where
  names : List Str
  rules : List Rule
  states : List State
deriving Repr

/-- The arrays (`tracebk.c:31-34`, `72-77`). -/
structure Tables where
  toknames : List Str
  ruleindex : List Nat
  rulelhs : List Nat
  rulerhs : List Nat
  stateindex : List Nat
  shiftrule : List Nat
  focus : List Nat
  shiftIn : List Nat
  shiftInIndex : List Nat
deriving Repr

/-- The sums that a loop prints, each before the next number is added. -/
def sums : Nat → List Nat → List Nat
  | _, [] => []
  | t, n :: ns => t :: sums (t + n) ns

/-- The tables (`output2table.pl:152-264`).  There is no rule 0: its left side prints as 0 and it has no right side.  The loop for the index of rules ends
with the last rule, that for states one after the last state. -/
def tables (g : Info) : Tables where
  toknames := g.names
  ruleindex := sums 0 (0 :: g.rules.map (·.rhs.length))
  rulelhs := 0 :: g.rules.map (·.lhs)
  rulerhs := g.rules.flatMap (·.rhs)
  stateindex := sums 0 (g.states.map (·.items.length) ++ [0])
  shiftrule := g.states.flatMap (·.items.map (·.1))
  focus := g.states.flatMap (·.items.map (·.2))
  shiftIn := g.states.flatMap (·.shifts)
  shiftInIndex := sums 0 (g.states.map (·.shifts.length) ++ [0])

/-! ## The report -/

/-- A text that is written to one of the two streams. -/
inductive Write
  | out (s : Str)
  | err (s : Str)
deriving DecidableEq, Repr

/-- `for (j = a; …; j++) … t[j]` for a number of rounds; `none`: a read after the end. -/
def readN (t : List Nat) : Nat → Nat → Option (List Nat)
  | _, 0 => some []
  | a, n + 1 => do
    let x ← t[a]?
    let xs ← readN t (a + 1) n
    return x :: xs

/-- The same for `j < b`. -/
def between (t : List Nat) (a b : Nat) : Option (List Nat) := readN t a (b - a)

/-- `!strncmp(name, "PRIVATE_", 8)` (`tracebk.c:42`). -/
def hidden (s : Str) : Bool := "PRIVATE_".toList.isPrefixOf s

/-- The loop over the right side (`tracebk.c:39-48`), from the `i`-th symbol on. -/
def showSide (T : Tables) (focus : Nat) : Nat → List Nat → Option (List Write)
  | _, [] => some []
  | i, x :: xs => do
    let name ← T.toknames[x]?
    let rest ← showSide T focus (i + 1) xs
    return (if i > 0 then [Write.err " ".toList] else []) ++ (if hidden name then [] else [Write.err name]) ++
      (if i + 1 = focus then [Write.err " .".toList] else []) ++ rest

/-- `display_rule` (`tracebk.c:27-50`). -/
def displayRule (T : Tables) (n indent focus : Nat) : Option (List Write) := do
  let l ← T.rulelhs[n]?
  let name ← T.toknames[l]?
  let a ← T.ruleindex[n]?
  let b ← T.ruleindex[n + 1]?
  let xs ← between T.rulerhs a b
  let ws ← showSide T focus 0 xs
  return List.replicate indent (.out " ".toList) ++ [.err ("Rule ".toList ++ (Nat.repr n).toList ++ " : ".toList ++ name ++ " <- ".toList)] ++ ws ++ [.err "\n".toList]

/-- The names of the tokens that can be shifted in a state, without those of `lex2.c` and `categ.c` (`tracebk.c:104-116`, `136-144`). -/
def nextToks (T : Tables) (s : Nat) : Option (List Str) := do
  let a ← T.shiftInIndex[s]?
  let b ← T.shiftInIndex[s + 1]?
  let xs ← between T.shiftIn a b
  let ns ← xs.mapM fun x => T.toknames[x]?
  return ns.filter (!hidden ·)

/-- The rules of a state (`tracebk.c:129-132`, `154-158`). -/
def stateRules (T : Tables) (s : Nat) : Option (List Write) := do
  let a ← T.stateindex[s]?
  let b ← T.stateindex[s + 1]?
  let rs ← between T.shiftrule a b
  let fs ← between T.focus a b
  let ws ← (rs.zip fs).mapM fun p => displayRule T p.1 1 p.2
  return ws.flatten

/-- The texts of `report_trace_error`. -/
def rule20 : Str := "--------------------\n".toList
def heading : Str := rule20 ++ "SYNTAX ERROR IN TEXT\n".toList ++ rule20
def reduced : Str := "==============================================\nRules reduced since misparsed token was read :\n==============================================\n".toList
def jammed (s : Nat) : Str := "==========================\nJammed parser state (".toList ++ (Nat.repr s).toList ++ ") :\n==========================\n".toList
def pending : Str := "=========================================================\nPending parser states (innermost first, outermost last) :\n=========================================================\n".toList

/-- One reduction of the log (`tracebk.c:99-117`). -/
def showReduction (T : Tables) (p : Nat × Nat) : Option (List Write) := do
  let ws ← displayRule T p.2 1 0
  let ns ← nextToks T p.1
  return ws ++ (if ns.isEmpty then [] else [.err ("   (Next word class could be :".toList ++ ns.flatMap (' ' :: ·) ++ ")\n".toList)])

/-- One state of the stack (`tracebk.c:151-160`). -/
def showPending (T : Tables) (s : Nat) : Option (List Write) := do
  let ws ← stateRules T s
  return .err ("State ".toList ++ (Nat.repr s).toList ++ "\n".toList) :: ws ++ [.err "---------------------------\n".toList]

/-- `report_trace_error` (`tracebk.c:67-161`): the last words (`print_last_toks`, a parameter), the log, the state on the top of the stack and those below it. -/
def report (T : Tables) (backtrace : Bool) (last : Str) (log : Log) (top : Nat) (below : List Nat) : Option (List Write) := do
  let hd := [Write.err heading, .err last, .err rule20]
  if !backtrace then return hd
  let rs ← log.mapM (showReduction T)
  let js ← stateRules T top
  let ns ← nextToks T top
  let ps ← below.mapM (showPending T)
  return hd ++ [.err reduced] ++ (if log.isEmpty then [.err "  NONE\n".toList] else rs.flatten) ++ [.err (jammed top)] ++ js ++
    [.err ("\nNext word class could be : ".toList ++ (ns.intersperse " ".toList).flatten ++ "\n\n".toList)] ++ [.err pending] ++ ps.flatten

/-- What comes out of a stream. -/
def onErr : List Write → Str
  | [] => []
  | .err s :: ws => s ++ onErr ws
  | .out _ :: ws => onErr ws
def onOut : List Write → Str
  | [] => []
  | .out s :: ws => s ++ onOut ws
  | .err _ :: ws => onOut ws

end Jbo.Trace
