/-!
# The automaton builder `dfasyn`

Models `dfasyn/expr.c` (result expressions), the automaton part of `dfasyn/n2d.c` (epsilon closure,
subset construction, table output and the generated `next_state`), `dfasyn/compdfa.c` (merging of
states) and `dfasyn/tabcompr.c` (default states).  The input language (`parse.y`, `scan.l`) and the
report file are left out: a model run starts with the finished NFA.
-/

namespace Jbo.Dfasyn

/-- Strings. -/
abbrev Name := List Char

/-- How the program can stop early: `exit(2)`, a read of an uninitialised field, endless recursion,
an array access out of bounds. -/
inductive Crash
  | exit2 | uninit | recursion | bounds
deriving DecidableEq, Repr

instance {α : Type} [DecidableEq α] : DecidableEq (Except Crash α)
  | .ok a, .ok b => if h : a = b then .isTrue (by rw [h]) else .isFalse (fun e => h (Except.ok.inj e))
  | .error a, .error b =>
    if h : a = b then .isTrue (by rw [h]) else .isFalse (fun e => h (Except.error.inj e))
  | .ok _, .error _ => .isFalse nofun
  | .error _, .ok _ => .isFalse nofun

/-! ## `expr.c` -/

/-- `struct Expr` (`expr.c:22-33`). -/
inductive Expr
  | and (a b : Expr) | or (a b : Expr) | xor (a b : Expr) | cond (a b c : Expr)
  | not (a : Expr) | wild | sym (n : Name)
deriving DecidableEq, Repr

/-- `struct Result` (`expr.c:49-57`). -/
structure Result where
  result : Name
  e : Expr
  early : Bool
deriving DecidableEq, Repr

/-- `struct evaluator` (`expr.c:63-75`): `defs` are the symbols with `is_expr`, the most recent
definition first; `results` in order of definition. -/
structure Evaluator where
  defs : List (Name × Expr)
  results : List Result
deriving DecidableEq, Repr

/-- The expression of a symbol, if it has one (`expr.c:201-219`, `define_symbol` at 261-272). -/
def Evaluator.lookup (x : Evaluator) (n : Name) : Option Expr :=
  (x.defs.find? (fun d => d.1 == n)).map (·.2)

/-- The switch of `eval` (`expr.c:316-345`), given the values of the symbols. -/
def evalWith (any : Bool) (sym : Name → Option Bool) : Expr → Option Bool
  | .and a b => match evalWith any sym a with
    | none => none | some true => evalWith any sym b | some false => some false
  | .or a b => match evalWith any sym a with
    | none => none | some true => some true | some false => evalWith any sym b
  | .xor a b => match evalWith any sym a, evalWith any sym b with
    | some u, some v => some (u ^^ v) | _, _ => none
  | .cond a b c => match evalWith any sym a with
    | none => none | some true => evalWith any sym b | some false => evalWith any sym c
  | .not a => match evalWith any sym a with
    | none => none | some u => some (!u)
  | .wild => some any
  | .sym n => sym n

/-- `eval` (`expr.c:311-346`).  `tags n` is `data.val` of the symbol `n`, `any` is
`any_results_so_far`.  Expansions of symbols nested deeper than the number of definitions can only
come from a cycle (`eval_enough`); then C recurses forever and the model says `none`. -/
def eval (x : Evaluator) (tags : Name → Bool) (any : Bool) : Nat → Expr → Option Bool
  | 0, e => evalWith any (fun n => match x.lookup n with | none => some (tags n) | some _ => none) e
  | k + 1, e => evalWith any (fun n => match x.lookup n with
      | none => some (tags n) | some e' => eval x tags any k e') e

/-- What `evaluate_result` finds. -/
inductive Verdict
  | none | unique (r : Result) | ambiguous
deriving DecidableEq, Repr

/-- The loop of `evaluate_result` (`expr.c:353-365`). -/
def evalLoop (x : Evaluator) (tags : Name → Bool) :
    Bool → Option Result → List Result → Except Crash Verdict
  | _, m, [] => .ok (match m with | none => .none | some r => .unique r)
  | any, m, r :: rs =>
    match eval x tags any x.defs.length r.e with
    | none => .error .recursion
    | some true => if any then .ok .ambiguous else evalLoop x tags true (some r) rs
    | some false => evalLoop x tags any m rs

/-- `evaluate_result` (`expr.c:348-376`) after `clear_symbol_values`. -/
def evaluateResult (x : Evaluator) (tags : Name → Bool) : Except Crash Verdict :=
  evalLoop x tags false none x.results

/-! ## The NFA -/

/-- `State` (`n2d.h:58-71`): transitions with their token (`none` is epsilon, -1 in C) and the index
of the destination, exit values and attributes. -/
structure NState where
  trans : List (Option Nat × Nat)
  exits : List Name
  attrs : List Name
deriving DecidableEq, Repr

/-- The main block after parsing, with the two evaluators and `ntokens`. -/
structure Nfa where
  states : List NState
  nt : Nat
  exit : Evaluator
  attr : Evaluator
deriving Repr

/-- `b->states[i]`. -/
def Nfa.state (a : Nfa) (i : Nat) : NState := a.states.getD i ⟨[], [], []⟩

/-- `b->nstates`. -/
def Nfa.n (a : Nfa) : Nat := a.states.length

/-! ## Epsilon closure

A bit vector of words is kept as one number: bit `n` is bit `n & 31` of word `n >> 5`. -/

/-- `round_up` (`n2d.c:601-603`). -/
def roundUp (x : Nat) : Nat := (x + 31) / 32

/-- `set_bit` (`n2d.c:605-610`). -/
def setBit (x n : Nat) : Nat := x ||| 1 <<< n

/-- Working state of `transitively_close_eclo`: all rows, `todo`, `any_changes`. -/
structure Clo where
  eclo : List Nat
  todo : Nat
  changed : Bool
deriving DecidableEq, Repr

/-- "Merge in" (`n2d.c:651-660`): row `m` into row `from_`; the loop over the words `k` is one
operation on numbers here, `to_merge & ~orig` is written with exclusive or. -/
def mergeRow (from_ : Nat) (s : Clo) (m : Nat) : Clo :=
  let toMerge := s.eclo.getD m 0
  let orig := s.eclo.getD from_ 0
  let diffs := toMerge ^^^ (toMerge &&& orig)
  ⟨s.eclo.set from_ (orig ||| toMerge), s.todo ||| diffs, s.changed || diffs != 0⟩

/-- One word of `todo` (`n2d.c:641-666`): the word is taken out, then its bits are processed. -/
def closeWord (n from_ : Nat) (s : Clo) (i : Nat) : Clo :=
  let thisTodo := (s.todo >>> (32 * i)) % 2 ^ 32
  let s := { s with todo := s.todo ^^^ (thisTodo <<< (32 * i)) }
  (List.range (min 32 (n - 32 * i))).foldl
    (fun s j => if thisTodo.testBit j then mergeRow from_ s (32 * i + j) else s) s

/-- One round of the `while (any_changes)` loop (`n2d.c:640-666`). -/
def closeRound (n from_ : Nat) (s : Clo) : Clo :=
  (List.range (roundUp n)).foldl (closeWord n from_) { s with changed := false }

/-- The `while` loop (`n2d.c:638-667`); `none` if `fuel` rounds are not enough. -/
def closeLoop (n from_ : Nat) : Nat → Clo → Option Clo
  | 0, _ => none
  | fuel + 1, s =>
    let s := closeRound n from_ s
    if s.changed then closeLoop n from_ fuel s else some s

/-- One row (`n2d.c:634-667`). -/
def closeFrom (n : Nat) (eclo : List Nat) (from_ : Nat) : Option (List Nat) :=
  (closeLoop n from_ (n + 1) ⟨eclo, eclo.getD from_ 0, true⟩).map (·.eclo)

/-- `transitively_close_eclo` (`n2d.c:620-669`). -/
def closeAll (n : Nat) (eclo : List Nat) : Option (List Nat) :=
  (List.range n).foldlM (closeFrom n) eclo

/-- The immediate transitions of state `i` (`n2d.c:685-697`). -/
def initialRow (a : Nfa) (i : Nat) : Nat :=
  (a.state i).trans.foldl (fun row t => if t.1.isNone then setBit row t.2 else row) (setBit 0 i)

/-- `generate_epsilon_closure` (`n2d.c:671-701`). -/
def epsilonClosure (a : Nfa) : Option (List Nat) :=
  closeAll a.n ((List.range a.n).map (initialRow a))

/-! ## Subset construction -/

/-- `transmap[i][t]` (`n2d.c:787-800`). -/
def transmap (a : Nfa) (eclo : List Nat) (i t : Nat) : Nat :=
  (a.state i).trans.foldl (fun acc tr => if tr.1 = some t then acc ||| eclo.getD tr.2 0 else acc) 0

/-- `is_set(anytrans[i], t)` (`n2d.c:787-800`). -/
def anytrans (a : Nfa) (eclo : List Nat) (i t : Nat) : Bool :=
  (a.state i).trans.any (fun tr => tr.1 = some t && eclo.getD tr.2 0 != 0)

/-- `nfas[t]` and `found_any[t]` for the current set (`n2d.c:1054-1087`; `mask` is an `int`, its sign
bit is extended at `j1 = 31`, which changes nothing because a word has 32 used bits). -/
def successors (a : Nfa) (eclo : List Nat) (cur t : Nat) : Nat × Bool :=
  (List.range (32 * roundUp a.n)).foldl (fun acc j =>
    if cur.testBit j && anytrans a eclo j t then
      let x := transmap a eclo j t
      (acc.1 ||| x, acc.2 || x != 0)
    else acc) (0, false)

/-- `DFANode` (`n2d.h:100-139`). `early` is `none` while it is not assigned; `map` entries are `none`
for -1. -/
structure Node where
  nfas : Nat
  map : List (Option Nat)
  result : Option Name
  early : Option Bool
  attrib : Option Name
deriving DecidableEq, Repr

/-- The xor of the words of a set (`n2d.c:853-855`). -/
def signature (n nfas : Nat) : Nat :=
  (List.range (roundUp n)).foldl (fun s i => s ^^^ (nfas >>> (32 * i)) % 2 ^ 32) 0

/-- `fold_signature` (`n2d.c:833-840`). -/
def foldSignature (sig : Nat) : Nat :=
  let f := sig ^^^ (sig >>> 16)
  (f ^^^ (f >>> 8)) % 256

/-- `find_dfa` (`n2d.c:843-877`): the bucket of the hash table holds the nodes with the same folded
signature, the newest first. -/
def findDfa (n : Nat) (nodes : List Node) (nfas : Nat) : Option Nat :=
  let sig := signature n nfas
  (List.range nodes.length).reverse.find? (fun i =>
    let d := (nodes.getD i ⟨0, [], none, none, none⟩).nfas
    foldSignature (signature n d) == foldSignature sig && signature n d == sig && d == nfas)

/-- All tags of the states in the set (`n2d.c:927-942`, `961-976`). -/
def tagsOf (a : Nfa) (get : NState → List Name) (nfas : Nat) : List Name :=
  (List.range a.n).flatMap (fun j => if nfas.testBit j then get (a.state j) else [])

/-- The two evaluations in `add_dfa`: `set_symbol_value` for each tag, which exits if the symbol is
defined by an expression (`expr.c:298-309`), then `evaluate_result`. -/
def judge (x : Evaluator) (tags : List Name) : Except Crash Verdict :=
  if tags.any (fun t => (x.lookup t).isSome) then .error .exit2
  else evaluateResult x (fun n => tags.contains n)

/-- `add_dfa` (`n2d.c:880-993`): the node and whether a result was ambiguous.  After an ambiguous
result `result_early` keeps what `malloc` left there. -/
def addDfa (a : Nfa) (nfas : Nat) : Except Crash (Node × Bool) := do
  let v ← judge a.exit (tagsOf a (·.exits) nfas)
  let w ← judge a.attr (tagsOf a (·.attrs) nfas)
  let (result, early, amb) := match v with
    | .none => (none, some false, false)
    | .unique r => (some r.result, some r.early, false)
    | .ambiguous => (none, none, true)
  let (attrib, amb') := match w with
    | .none => (none, false)
    | .unique r => (some r.result, false)
    | .ambiguous => (none, true)
  return (⟨nfas, List.replicate a.nt none, result, early, attrib⟩, amb || amb')

/-- `dfas[i]`. -/
def nodeAt (nodes : List Node) (i : Nat) : Node := nodes.getD i ⟨0, [], none, none, none⟩

/-- The destination for one token (`n2d.c:1090-1097`): the new node list, the ambiguity flag and the
index. -/
def destination (a : Nfa) (eclo : List Nat) (cur : Nat) (nodes : List Node) (t : Nat) :
    Except Crash (List Node × Bool × Option Nat) :=
  let s := successors a eclo cur t
  if s.2 then
    match findDfa a.n nodes s.1 with
    | some i => .ok (nodes, false, some i)
    | none => do
      let (node, amb) ← addDfa a s.1
      return (nodes ++ [node], amb, some nodes.length)
  else .ok (nodes, false, none)

/-- The loop over the tokens (`n2d.c:1089-1099`) for the node `next` with set `cur`. -/
def expand (a : Nfa) (eclo : List Nat) (next cur : Nat) :
    List Nat → List Node × Bool → Except Crash (List Node × Bool)
  | [], s => .ok s
  | t :: ts, (nodes, amb) => do
    let (nodes, amb', d) ← destination a eclo cur nodes t
    let node := nodeAt nodes next
    expand a eclo next cur ts (nodes.set next { node with map := node.map.set t d }, amb || amb')

/-- The main loop of `build_dfa` (`n2d.c:1037-1102`); `none` if `fuel` rounds are not enough. -/
def buildLoop (a : Nfa) (eclo : List Nat) :
    Nat → Nat → List Node × Bool → Option (Except Crash (List Node × Bool))
  | 0, _, _ => none
  | fuel + 1, next, (nodes, amb) =>
    if next < nodes.length then
      let node := nodeAt nodes next
      match node.early with
      | none => some (.error .uninit)
      | some true => buildLoop a eclo fuel (next + 1) (nodes, amb)
      | some false =>
        match expand a eclo next node.nfas (List.range a.nt) (nodes, amb) with
        | .error c => some (.error c)
        | .ok s => buildLoop a eclo fuel (next + 1) s
    else some (.ok (nodes, amb))

/-- `build_dfa` (`n2d.c:1003-1107`) for the start state `start`.  Without tokens `nfas[0]` (1023) is
outside of the array. -/
def buildDfa (a : Nfa) (eclo : List Nat) (start fuel : Nat) :
    Option (Except Crash (List Node × Bool)) :=
  if a.nt = 0 then some (.error .bounds) else
  match addDfa a (eclo.getD start 0) with
  | .error c => some (.error c)
  | .ok (node, amb) => buildLoop a eclo fuel 0 ([node], amb)

/-! ## `compdfa.c`

`qsort` is any function that returns a sorted rearrangement. -/

/-- The C library's `qsort`: on the elements at hand the comparison must be a total preorder. -/
structure Sorter where
  run : (Nat → Nat → Bool) → List Nat → List Nat
  perm : ∀ le l, (run le l).Perm l
  sorted : ∀ le l, (∀ a ∈ l, ∀ b ∈ l, ∀ c ∈ l, le a b = true → le b c = true → le a c = true) →
    (∀ a ∈ l, ∀ b ∈ l, le a b = true ∨ le b a = true) →
    (run le l).Pairwise (fun a b => le a b = true)

/-- `strcmp`. -/
def strcmp : Name → Name → Int
  | [], [] => 0
  | [], _ :: _ => -1
  | _ :: _, [] => 1
  | a :: s, b :: t => if a.toNat < b.toNat then -1 else if b.toNat < a.toNat then 1 else strcmp s t

/-- `initial_compare` (`compdfa.c:145-178`). -/
def initialCompare (a b : Node) : Int :=
  match a.result, b.result with
  | none, some _ => -1
  | some _, none => 1
  | none, none => 0
  | some r, some r' =>
    let status := strcmp r r'
    if status < 0 then -1
    else if status > 0 then 1
    else
      match a.attrib, b.attrib with
      | none, some _ => -1
      | some _, none => 1
      | none, none => 0
      | some s, some s' => strcmp s s'

/-- `eq_class` of all states. -/
abbrev Classes := Nat → Nat

def Classes.upd (c : Classes) (i v : Nat) : Classes := fun j => if j = i then v else c j

/-- The loop of `assign_initial_classes` (`compdfa.c:190-198`) after `prev`. -/
def assignLoop (nodes : List Node) (prev : Nat) (last : Nat) (c : Classes) : List Nat → Classes × Nat
  | [] => (c, last)
  | i :: rest =>
    if initialCompare (nodeAt nodes prev) (nodeAt nodes i) ≠ 0 then
      assignLoop nodes i (last + 1) (c.upd i (last + 1)) rest
    else assignLoop nodes i last (c.upd i last) rest

/-- `assign_initial_classes` (`compdfa.c:180-199`): the sorted sequence, the classes and
`last_eq_class`. -/
def assignInitial (q : Sorter) (nodes : List Node) (seq : List Nat) : List Nat × Classes × Nat :=
  let seq := q.run (fun i j => decide (initialCompare (nodeAt nodes i) (nodeAt nodes j) ≤ 0)) seq
  match seq with
  | [] => (seq, fun _ => 0, 0)
  | i :: rest => let (c, last) := assignLoop nodes i 0 (fun _ => 0) rest; (seq, c, last)

/-- `increment` (`tabcompr.c:18-25`). -/
def increment (x field : Nat) : Nat :=
  let f2 := field + field
  let g := x >>> f2
  let h := match g % 4 with | 0 => 1 | 1 => 2 | 2 => 2 | _ => 1
  x ^^^ (h <<< f2)

/-- The class of a destination, -1 for no transition (`compdfa.c:91-92`). -/
def destClass (c : Classes) : Option Nat → Int
  | none => -1
  | some d => c d

/-- `calculate_signatures` for one state (`compdfa.c:52-64`). -/
def classSig (c : Classes) (map : List (Option Nat)) : Nat :=
  map.foldl (fun sig d => match d with | none => sig | some d => increment sig (c d % 16)) 0

/-- The loop over the tokens in `general_compare` (`compdfa.c:84-96`); both maps have length `Nt`. -/
def compareMaps (c : Classes) : List (Option Nat) → List (Option Nat) → Int
  | x :: xs, y :: ys =>
    if destClass c x < destClass c y then -1
    else if destClass c x > destClass c y then 1
    else compareMaps c xs ys
  | _, _ => 0

/-- `general_compare` (`compdfa.c:68-103`). -/
def generalCompare (nodes : List Node) (c : Classes) (a b : Nat) : Int :=
  let sa := classSig c (nodeAt nodes a).map
  let sb := classSig c (nodeAt nodes b).map
  if c a < c b then -1
  else if c a > c b then 1
  else if sa < sb then -1
  else if sa > sb then 1
  else compareMaps c (nodeAt nodes a).map (nodeAt nodes b).map

/-- The loop of `split_classes` (`compdfa.c:116-134`) after `prev`: `c` are the old classes, `c'` the
new ones; the last component is `had_to_split`. -/
def splitLoop (nodes : List Node) (c : Classes) (prev : Nat) (last : Nat) (c' : Classes)
    (split : Bool) : List Nat → Classes × Nat × Bool
  | [] => (c', last, split)
  | i :: rest =>
    if c i = c prev then
      if generalCompare nodes c i prev ≠ 0 then
        splitLoop nodes c i (last + 1) (c'.upd i (last + 1)) true rest
      else splitLoop nodes c i last (c'.upd i (c' prev)) split rest
    else splitLoop nodes c i last (c'.upd i (c i)) split rest

/-- `split_classes` (`compdfa.c:105-143`). -/
def splitClasses (q : Sorter) (nodes : List Node) (seq : List Nat) (c : Classes) (last : Nat) :
    List Nat × Classes × Nat × Bool :=
  let seq := q.run (fun i j => decide (generalCompare nodes c i j ≤ 0)) seq
  match seq with
  | [] => (seq, c, last, false)
  | i :: rest => let (c', last, s) := splitLoop nodes c i last (c.upd i (c i)) false rest
                 (seq, c', last, s)

/-- The `do ... while (had_to_split)` loop (`compdfa.c:318-321`); `none` if `fuel` rounds are not
enough. -/
def splitAll (q : Sorter) (nodes : List Node) : Nat → List Nat → Classes → Nat → Option (Classes × Nat)
  | 0, _, _, _ => none
  | fuel + 1, seq, c, last =>
    let (seq, c, last, split) := splitClasses q nodes seq c last
    if split then splitAll q nodes fuel seq c last else some (c, last)

/-- `is_rep` (`compdfa.c:217-226`): no earlier state has the same class. -/
def isRep (c : Classes) (i : Nat) : Bool := (List.range i).all (fun j => c j != c i)

/-- `reps[eqc]` (`compdfa.c:217-226`). -/
def repOf (c : Classes) (n i : Nat) : Nat := ((List.range n).find? (fun j => c j == c i)).getD i

/-- `new_index` (`compdfa.c:228-243`): the number of representatives before the representative. -/
def newIndex (c : Classes) (n i : Nat) : Nat := ((List.range (repOf c n i)).filter (isRep c)).length

/-- `compress_states` (`compdfa.c:201-267`): fix all transitions, keep the representatives. -/
def compressStates (nodes : List Node) (c : Classes) : List Node :=
  let n := nodes.length
  ((List.range n).filter (isRep c)).map (fun i =>
    let s := nodeAt nodes i
    { s with map := s.map.map (fun d => d.map (newIndex c n)) })

/-- `compress_dfa` (`compdfa.c:296-331`). The number it returns is `last_eq_class + 1`. -/
def compressDfa (q : Sorter) (nodes : List Node) : Option (List Node × Nat) :=
  if nodes.length = 0 then some (nodes, 0)
  else
    let (seq, c, last) := assignInitial q nodes (List.range nodes.length)
    match splitAll q nodes (nodes.length + 1) seq c last with
    | none => none
    | some (c, last) => some (compressStates nodes c, last + 1)

/-! ## `tabcompr.c` -/

/-- `count_bits_set` (`tabcompr.c:30-44`) on `unsigned long` of 64 bits. -/
def countBitsSet (x : Nat) : Nat :=
  let y := x
  let c := 0x55555555
  let y := ((y >>> 1) &&& c) + (y &&& c)
  let c := 0x33333333
  let y := ((y >>> 2) &&& c) + (y &&& c)
  let y := (y >>> 4) + y
  let c := 0x0f0f0f0f
  let y := y &&& c
  let y := (y >>> 8) + y
  let y := (y >>> 16) + y
  y &&& 0x1f

/-- `compute_transition_sigs` (`tabcompr.c:53-66`): -1 has all bits set, so its field is 15. -/
def transitionSig (map : List (Option Nat)) : Nat :=
  map.foldl (fun ts d => increment ts (match d with | none => 15 | some d => d % 16)) 0

/-- The number of differing entries (`tabcompr.c:115-120`). -/
def diffCount : List (Option Nat) → List (Option Nat) → Nat
  | x :: xs, y :: ys => (if x ≠ y then 1 else 0) + diffCount xs ys
  | _, _ => 0

/-- `REQUIRED_BENEFIT` (`tabcompr.c:71`). -/
def requiredBenefit : Int := 2

/-- The inner loop of `find_default_states` (`tabcompr.c:92-128`) over the candidates `j`, with
`best_index` and `best_diff`; `defs` are the `defstate` fields of the earlier states. -/
def candidates (maps : List (List (Option Nat))) (defs : List (Option Nat)) (mi : List (Option Nat))
    (transCount : Nat) : List Nat → Option Nat × Nat → Option Nat × Nat
  | [], b => b
  | j :: js, (best, diff) =>
    let mj := maps.getD j []
    if (defs.getD j none).isSome then candidates maps defs mi transCount js (best, diff)
    else
      let ds := countBitsSet (transitionSig mi ^^^ transitionSig mj)
      if ds ≥ diff then candidates maps defs mi transCount js (best, diff)
      else if ds ≥ transCount then candidates maps defs mi transCount js (best, diff)
      else
        let d := diffCount mi mj
        if (best.isNone || d < diff) && (d : Int) < transCount - requiredBenefit then
          candidates maps defs mi transCount js (some j, d)
        else candidates maps defs mi transCount js (best, diff)

/-- The default state of state `i` (`tabcompr.c:83-131`). -/
def defaultOf (maps : List (List (Option Nat))) (nt : Nat) (defs : List (Option Nat)) (i : Nat) :
    Option Nat :=
  let mi := maps.getD i []
  let transCount := mi.countP (·.isSome)
  (candidates maps defs mi transCount (List.range i) (none, nt + 1)).1

/-- `find_default_states` (`tabcompr.c:73-133`): the `defstate` fields. -/
def findDefaults (maps : List (List (Option Nat))) (nt : Nat) : List (Option Nat) :=
  (List.range maps.length).foldl (fun defs i => defs ++ [defaultOf maps nt defs i]) []

/-! ## The generated tables -/

/-- `check_include_char` (`n2d.c:1282-1290`). -/
def includeChar (maps : List (List (Option Nat))) (defs : List (Option Nat)) (i t : Nat) : Bool :=
  let m := (maps.getD i []).getD t none
  match defs.getD i none with
  | some d => m != (maps.getD d []).getD t none
  | none => m.isSome

/-- Conversion of an initialiser to `unsigned char`, `unsigned short`, `short`. -/
def toU8 (x : Nat) : Nat := x % 256
def toU16 (x : Nat) : Nat := x % 65536
def toI16 : Option Nat → Int
  | none => -1
  | some x => let y := x % 65536; if y < 32768 then y else (y : Int) - 65536

/-- The tokens listed for state `i` (`n2d.c:1356-1369`). -/
def rowTokens (maps : List (List (Option Nat))) (defs : List (Option Nat)) (nt i : Nat) : List Nat :=
  (List.range nt).filter (includeChar maps defs i)

/-- The tables as the compiler of the generated file sees them. -/
structure Tables where
  token : List Nat
  nextstate : List Int
  base : List Nat
  defstate : List Int
deriving DecidableEq, Repr

/-- `print_compressed_tables` (`n2d.c:1338-1435`). -/
def tables (maps : List (List (Option Nat))) (defs : List (Option Nat)) (nt : Nat) : Tables :=
  let rows := (List.range maps.length).map (rowTokens maps defs nt)
  { token := rows.flatten.map toU8
    nextstate := ((List.range maps.length).flatMap (fun i =>
      (rowTokens maps defs nt i).map (fun t => (maps.getD i []).getD t none))).map toI16
    base := (List.range (maps.length + 1)).map (fun i => toU16 ((rows.take i).flatten.length))
    defstate := (List.range maps.length).map (fun i => toI16 (defs.getD i none)) }

/-- The bisection of the generated `next_state` (`n2d.c:1302-1308`): `some m` is the jump to `done`;
an index outside of the table is a crash. -/
def bisect (token : List Nat) (x : Int) (l h : Nat) : Except Crash (Option Nat) :=
  if _hl : h > l then
    let m := (h + l) / 2
    match token[m]? with
    | none => .error .bounds
    | some xm =>
      if (xm : Int) = x then .ok (some m)
      else if _hm : m = l then .ok none
      else if (xm : Int) > x then bisect token x l m
      else bisect token x m h
  else .ok none
termination_by h - l
decreasing_by
  all_goals simp_wf
  all_goals omega

/-- The generated `next_state` (`n2d.c:1297-1314`); `none` if more than `fuel` states are visited. -/
def nextState (T : Tables) (x : Int) : Nat → Int → Option (Except Crash Int)
  | 0, _ => none
  | fuel + 1, cs =>
    if cs ≥ 0 then
      match T.base[cs.toNat]?, T.base[cs.toNat + 1]?, T.defstate[cs.toNat]? with
      | some l, some h, some d =>
        match bisect T.token x l h with
        | .error c => some (.error c)
        | .ok none => nextState T x fuel d
        | .ok (some m) =>
          match T.nextstate[m]? with
          | none => some (.error .bounds)
          | some v => some (.ok v)
      | _, _, _ => some (.error .bounds)
    else some (.ok (-1))

/-- The generated `next_state` of the uncompressed tables (`n2d.c:1230-1246`) on the array written by
`print_uncompressed_tables` (`n2d.c:1248-1280`). -/
def nextFlat (maps : List (List (Option Nat))) (nt : Nat) (cs : Nat) (x : Int) : Except Crash Int :=
  if x < 0 ∨ x ≥ nt then .ok (-1)
  else match (maps.flatten.map toI16)[nt * cs + x.toNat]? with
    | none => .error .bounds
    | some v => .ok v

/-- `print_exitval_table` and `print_attribute_table` (`n2d.c:1184-1228`): the entry of a state. -/
def tableEntry (deflt : Name) (v : Option Name) : Name := v.getD deflt

/-- The tables in the generated file: transitions, exit values and attributes. -/
structure Generated where
  tab : Tables
  exitval : List Name
  attrtab : List Name
deriving DecidableEq, Repr

/-- The output of `main` for a finished automaton (`n2d.c:1558-1577`), compressed form. -/
def generate (defExit defAttr : Name) (nt : Nat) (nodes : List Node) : Generated :=
  let maps := nodes.map (·.map)
  { tab := tables maps (findDefaults maps nt) nt
    exitval := nodes.map (fun nd => tableEntry defExit nd.result)
    attrtab := nodes.map (fun nd => tableEntry defAttr nd.attrib) }

/-- `main` after parsing (`n2d.c:1527-1570`): build, refuse ambiguous automata, merge states unless
`-ud` is given. -/
def dfasyn (q : Sorter) (ud : Bool) (a : Nfa) (start : Nat) : Option (Except Crash (List Node)) :=
  match epsilonClosure a with
  | none => none
  | some e =>
    match buildDfa a e start (2 ^ a.n + 1) with
    | none => none
    | some (.error c) => some (.error c)
    | some (.ok (_, true)) => some (.error .exit2)
    | some (.ok (nodes, false)) =>
      if ud then some (.ok nodes)
      else match compressDfa q nodes with
        | none => none
        | some (nodes, _) => some (.ok nodes)

end Jbo.Dfasyn
