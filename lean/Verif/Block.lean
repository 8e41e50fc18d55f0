import Verif.Dfasyn
/-!
# The input language of `dfasyn`: blocks

Models the actions of `dfasyn/parse.y` and the functions of `dfasyn/n2d.c` that they call: from the
declarations in an input file to the finished NFA of the last block.  A run starts with the
declarations as a tree; `DfaScan`, `DfaParse` and `DfaSrc` make the tree from the text.

Simplified: all `Tokens` and `Abbrev` lines come before the blocks (they do in all three files of the
repository).  A name with dots is kept as the list of its parts.
-/

namespace Jbo.Dfasyn

/-- An identifier of the input file, as the number whose digits to base 256 are its bytes (the kernel
compares numbers much faster than strings).  The number 0 is the empty string. -/
abbrev Ident := Nat

/-- The number of an identifier. -/
def identOf (s : String) : Ident := s.toList.foldl (fun n c => n * 256 + c.toNat) 0

open Lean in
/-- `n!"abc"` is `identOf "abc"`, computed. -/
macro:max "n!" s:str : term => do
  let n := s.getString.toList.foldl (fun n c => n * 256 + c.toNat) 0
  return Syntax.mkNumLit (toString n)

example : n!"EX_y.1" = identOf "EX_y.1" := by decide +kernel

/-- A part of the name of a state or instance: an identifier of the input file, the `#n` of an
internal state (`n2d.c:434`, `502`), or the `type#n` of an inline block (`n2d.c:515`). -/
inductive Atom
  | id (s : Ident)
  | sub (n : Nat)
  | blk (s : Ident) (n : Nat)
deriving DecidableEq, Repr

/-- The name of a state, cut at the dots. -/
abbrev SName := List Atom

/-- The destination of a transition (`ds_name`, `ds_ref` in `Translist`, `n2d.h`): a name of the
current block, or a state that is known already. -/
inductive Dest
  | at (i : Nat)
  | named (n : SName)
deriving DecidableEq, Repr

/-- `State` (`n2d.h:58-71`) while its block is being read. -/
structure PState where
  name : SName
  trans : List (Option Nat × Dest)
  exits : List Name
  attrs : List Name
deriving DecidableEq, Repr

/-- `Block` (`n2d.h:80-90`). The hash table of the states is left out. -/
structure PBlock where
  states : List PState
  subcount : Nat
  subblockcount : Nat
deriving DecidableEq, Repr

/-! ## The declarations -/

/-- What can stand between semicolons (`parse.y:118-135`): a choice of tokens (`0` is the empty
option) or a choice of inline blocks `<type:in->out>` (`none` is the empty option). -/
inductive Step
  | toks (l : List Ident)
  | inl (l : List (Option (Ident × Ident × Ident)))
deriving DecidableEq, Repr

/-- The end of a transition (`parse.y:108-112`): `-> a, b` or `= tag`. -/
inductive Goal
  | to (ds : List SName)
  | tag (n : Name)
deriving DecidableEq, Repr

/-- `transition_decl` (`parse.y:108-112`). -/
structure TransDecl where
  first : Step
  rest : List Step
  goal : Goal
deriving DecidableEq, Repr

/-- `state_decl` (`parse.y:93-104`). -/
structure StateDecl where
  name : SName
  attr : Option Name
  trans : List TransDecl
deriving DecidableEq, Repr

/-- `block_decl` (`parse.y:67-71`). -/
structure BlockDecl where
  name : Ident
  insts : List (Ident × Ident)
  states : List StateDecl
deriving DecidableEq, Repr

/-- An input file. -/
structure Source where
  tokens : List Ident
  abbrevs : List (Ident × List Ident)
  blocks : List BlockDecl
  exit : Evaluator
  attr : Evaluator
deriving DecidableEq, Repr

/-! ## The functions of `n2d.c` -/

/-- `lookup_token` (`n2d.c:84-117`). -/
def lookupToken (tokens : List Ident) (s : Ident) : Option Nat := tokens.idxOf? s

/-- `lookup_abbrev` (`n2d.c:151-182`): the most recent definition. -/
def lookupAbbrev (abbrevs : List (Ident × List Ident)) (s : Ident) : Option (List Ident) :=
  (abbrevs.reverse.find? (fun d => d.1 == s)).map (·.2)

/-- Concatenation of partial results. -/
def flatOpt {α β : Type} (f : α → Option (List β)) : List α → Option (List β)
  | [] => some []
  | a :: l => match f a, flatOpt f l with
    | some x, some y => some (x ++ y)
    | _, _ => none

/-- The tokens that `add_transition` (`n2d.c:409-430`) pushes for one option, in order; `0` is the
empty option (`NULL` in C).  `none` if a token was not declared (`exit(1)`) or an abbreviation refers
to itself (C recurses forever; nesting deeper than the number of definitions can only come from
that). -/
def pushed (tokens : List Ident) (abbrevs : List (Ident × List Ident)) :
    Nat → Ident → Option (List (Option Nat))
  | fuel, s =>
    if s = 0 then some [none]
    else match lookupAbbrev abbrevs s with
      | some rhs => match fuel with
        | 0 => none
        | fuel + 1 => flatOpt (pushed tokens abbrevs fuel) rhs
      | none => match lookupToken tokens s with
        | some t => some [some t]
        | none => none

/-- What is fixed while the blocks are read: the tokens, the abbreviations and the finished blocks. -/
structure Env where
  tokens : List Ident
  abbrevs : List (Ident × List Ident)
  blocks : List (Ident × PBlock)

/-- The position of the state called `n` (`lookup_state`, `n2d.c:355-389`). -/
def PBlock.find (b : PBlock) (n : SName) : Option Nat := b.states.findIdx? (fun s => decide (s.name = n))

/-- `create_state` (`n2d.c:332-354`): the block with one more state, and its position. -/
def PBlock.create (b : PBlock) (n : SName) : PBlock × Nat :=
  ({ b with states := b.states ++ [⟨n, [], [], []⟩] }, b.states.length)

/-- `lookup_state` with `CREATE_OR_USE_OLD` (`n2d.c:355-389`). -/
def PBlock.get (b : PBlock) (n : SName) : PBlock × Nat :=
  match b.find n with
  | some i => (b, i)
  | none => b.create n

/-- Change state number `i`. -/
def PBlock.modify (b : PBlock) (i : Nat) (f : PState → PState) : PBlock :=
  { b with states := b.states.modify i f }

/-- `add_transitions` (`n2d.c:432-440`): the options are in the order of the input, which the
`Stringlist` of C reverses; every transition is pushed onto the front. -/
def addTransitions (env : Env) (b : PBlock) (i : Nat) (opts : List Ident) (d : Dest) : Option PBlock :=
  match flatOpt (pushed env.tokens env.abbrevs env.abbrevs.length) opts.reverse with
  | none => none
  | some ts => some (b.modify i (fun s => { s with trans := (ts.map (·, d)).reverse ++ s.trans }))

/-- `add_transitions_to_internal` (`n2d.c:441-450`): a new state `#n`, which no other state can be
called. -/
def addInternal (env : Env) (b : PBlock) (i : Nat) (opts : List Ident) : Option (PBlock × Nat) :=
  let (b', j) := { b with subcount := b.subcount + 1 }.create [.sub b.subcount]
  match addTransitions env b' i opts (.named [.sub b.subcount]) with
  | none => none
  | some b'' => some (b'', j)

/-- `instantiate_block` (`n2d.c:528-581`): copies of the states of the master block are appended.
Simplified: C gives a copied transition the prefixed name of its destination and looks it up again in
`fixup_state_refs`; here the copy points to the copy of the destination directly, which is the state
of that name as long as no two instances in a block have the same name.  The lists of transitions,
exit values and attributes come out reversed. -/
def instantiate (env : Env) (b : PBlock) (inst : Atom) (master : Ident) : Option PBlock :=
  match env.blocks.lookup master with
  | none => none
  | some m =>
    let off := b.states.length
    some { b with states := b.states ++ m.states.map (fun s =>
      { name := inst :: s.name
        trans := (s.trans.map (fun tr => (tr.1, match tr.2 with
          | .at i => Dest.at (off + i)
          | .named n => .named (inst :: n)))).reverse
        exits := s.exits.reverse
        attrs := s.attrs.reverse }) }

/-- The loop of `add_inline_block_transitions` (`n2d.c:498-521`), `out` being the common exit; the
list is in the order in which C meets it, which is the reverse of the input. -/
def inlineLoop (env : Env) (i : Nat) (out : SName) :
    List (Option (Ident × Ident × Ident)) → PBlock → Option PBlock
  | [], b => some b
  | none :: l, b =>
    match addTransitions env b i [0] (.named out) with
    | none => none
    | some b => inlineLoop env i out l b
  | some (type, inn, ex) :: l, b =>
    let a := Atom.blk type b.subblockcount
    match instantiate env { b with subblockcount := b.subblockcount + 1 } a type with
    | none => none
    | some b =>
      let (b, j) := b.get [a, .id ex]
      match addTransitions env b i [0] (.named [a, .id inn]) with
      | none => none
      | some b =>
        match addTransitions env b j [0] (.named out) with
        | none => none
        | some b => inlineLoop env i out l b

/-- `add_inline_block_transitions` (`n2d.c:489-526`). -/
def addInline (env : Env) (b : PBlock) (i : Nat) (l : List (Option (Ident × Ident × Ident))) :
    Option (PBlock × Nat) :=
  let (b', j) := { b with subcount := b.subcount + 1 }.create [.sub b.subcount]
  match inlineLoop env i [.sub b.subcount] l.reverse b' with
  | none => none
  | some b'' => some (b'', j)

/-! ## The actions of `parse.y` -/

/-- The action for one `Step` after the pending transitions have been added (`parse.y:118-135`): the
new `addtostate` and the pending options. -/
def stepAction (env : Env) (b : PBlock) (i : Nat) : Step → Option (PBlock × Nat × List Ident)
  | .toks l => some (b, i, l)
  | .inl l => match addInline env b i l with
    | none => none
    | some (b, j) => some (b, j, [0])

/-- `transition_seq` (`parse.y:118-135`) after its first element. -/
def seqAction (env : Env) : List Step → PBlock × Nat × List Ident → Option (PBlock × Nat × List Ident)
  | [], r => some r
  | s :: l, (b, i, pending) =>
    match addInternal env b i pending with
    | none => none
    | some (b, j) => match stepAction env b j s with
      | none => none
      | some r => seqAction env l r

/-- `destination_seq` (`parse.y:114-116`). -/
def toAction (env : Env) (i : Nat) (pending : List Ident) : List SName → PBlock → Option PBlock
  | [], b => some b
  | d :: ds, b => match addTransitions env b i pending (.named d) with
    | none => none
    | some b => toAction env i pending ds b

/-- `transition_decl` (`parse.y:108-112`) for the current state `i`. -/
def transAction (env : Env) (b : PBlock) (i : Nat) (t : TransDecl) : Option PBlock :=
  match stepAction env b i t.first with
  | none => none
  | some r => match seqAction env t.rest r with
    | none => none
    | some (b, j, pending) => match t.goal with
      | .to ds => toAction env j pending ds b
      | .tag n => match addInternal env b j pending with
        | none => none
        | some (b, k) => some (b.modify k (fun s => { s with exits := n :: s.exits }))

/-- The transitions of a state in order (`parse.y:102-104`). -/
def transActions (env : Env) (i : Nat) : List TransDecl → PBlock → Option PBlock
  | [], b => some b
  | t :: ts, b => match transAction env b i t with
    | none => none
    | some b => transActions env i ts b

/-- `state_decl` (`parse.y:93-104`, `set_state_attribute` at `n2d.c:460-468`): the block and the
position of the state, which becomes `curstate`. -/
def stateAction (env : Env) (b : PBlock) (s : StateDecl) : Option (PBlock × Nat) :=
  let (b, i) := b.get s.name
  let b := match s.attr with
    | none => b
    | some n => b.modify i (fun s => { s with attrs := n :: s.attrs })
  match transActions env i s.trans b with
  | none => none
  | some b => some (b, i)

/-- `state_decl_seq` (`parse.y:91`); the second component is `curstate`. -/
def stateActions (env : Env) : List StateDecl → PBlock × Option Nat → Option (PBlock × Option Nat)
  | [], r => some r
  | s :: l, (b, _) => match stateAction env b s with
    | none => none
    | some (b, i) => stateActions env l (b, some i)

/-- `instance_decl_seq` (`parse.y:89`, `106`). -/
def instActions (env : Env) : List (Ident × Ident) → PBlock → Option PBlock
  | [], b => some b
  | (i, m) :: l, b => match instantiate env b (.id i) m with
    | none => none
    | some b => instActions env l b

/-- The inner loop of `fixup_state_refs` (`n2d.c:588-590`). -/
def fixTrans : List (Option Nat × Dest) → PBlock → PBlock × List (Option Nat × Dest)
  | [], b => (b, [])
  | (t, .at i) :: l, b =>
    let r := fixTrans l b
    (r.1, (t, .at i) :: r.2)
  | (t, .named n) :: l, b =>
    let (b, i) := b.get n
    let r := fixTrans l b
    (r.1, (t, .at i) :: r.2)

/-- The outer loop of `fixup_state_refs` (`n2d.c:585-592`): the block with the states that had to be
created, and the fixed transitions of the states in the list. -/
def fixStates : List PState → PBlock → PBlock × List PState
  | [], b => (b, [])
  | s :: l, b =>
    let (b, tr) := fixTrans s.trans b
    let r := fixStates l b
    (r.1, { s with trans := tr } :: r.2)

/-- `fixup_state_refs` (`n2d.c:582-593`): states that are missing are created at the end, and they
have no transitions. -/
def fixup (b : PBlock) : PBlock :=
  let r := fixStates b.states b
  { r.1 with states := r.2 ++ r.1.states.drop b.states.length }

/-- `block_decl` (`parse.y:67-71`): the finished block and `curstate`. -/
def blockAction (env : Env) (d : BlockDecl) : Option (PBlock × Option Nat) :=
  match instActions env d.insts ⟨[], 1, 1⟩ with
  | none => none
  | some b => match stateActions env d.states (b, none) with
    | none => none
    | some (b, cur) => some (fixup b, cur)

/-- `decl_seq` (`parse.y:61`): the last block and the last `curstate`. -/
def blockActions : Env → List BlockDecl → Option (PBlock × Option Nat) → Option (PBlock × Option Nat)
  | _, [], r => r
  | env, d :: ds, _ =>
    if (env.blocks.lookup d.name).isSome then none
    else match blockAction env d with
      | none => none
      | some (b, cur) =>
        blockActions { env with blocks := env.blocks ++ [(d.name, b)] } ds (some (b, cur))

/-- The state as `generate_epsilon_closure` and `build_transmap` see it. -/
def PState.final (s : PState) : NState :=
  { trans := s.trans.map (fun tr => (tr.1, match tr.2 with | .at i => i | .named _ => 0))
    exits := s.exits
    attrs := s.attrs }

/-- `main` up to `start_state` (`n2d.c:1518-1528`): the NFA and the index of its start state.  `none`
if the program stops with a message, loops, or dereferences the missing start state. -/
def Source.compile (s : Source) : Option (Nfa × Nat) :=
  match blockActions ⟨s.tokens, s.abbrevs, []⟩ s.blocks none with
  | some (b, some cur) => some (⟨b.states.map PState.final, s.tokens.length, s.exit, s.attr⟩, cur)
  | _ => none

/-! ## Shorthands for writing input files -/

open Lean in
/-- `c!"abc"` is the list `['a', 'b', 'c']`, written out (the kernel computes faster with it than
with `"abc".toList`). -/
macro:max "c!" s:str : term => do
  let cs := s.getString.toList.map (fun c => (Syntax.mkCharLit c))
  `([$(cs.toArray),*])

example : c!"ab" = "ab".toList := by decide

/-- `A ; B|C -> x, y.z`. -/
def tr (steps : List (List Ident)) (ds : List (List Ident)) : TransDecl :=
  { first := .toks (steps.headD []), rest := steps.tail.map .toks
    goal := .to (ds.map (·.map .id)) }

/-- `A ; B|C = TAG`. -/
def ex (steps : List (List Ident)) (tag : Name) : TransDecl :=
  { first := .toks (steps.headD []), rest := steps.tail.map .toks, goal := .tag tag }

/-- `STATE x.y`. -/
def st (name : List Ident) (trans : List TransDecl) : StateDecl := ⟨name.map .id, none, trans⟩

/-- `STATE x.y (ATTR)`. -/
def sta (name : List Ident) (attr : Name) (trans : List TransDecl) : StateDecl :=
  ⟨name.map .id, some attr, trans⟩

end Jbo.Dfasyn
