import Verif.DfaParse
import Verif.Block
/-!
# From the declarations of a file of dfasyn to what `Block` starts with

The actions of `parse.y` that only store something are done here; those that build the NFA are in `Block`.
-/

namespace Jbo.DfaSrc
open Jbo.Dfasyn Jbo.DfaParse

/-- The number of an identifier (`identOf` for lists of characters). -/
def ident (s : Str) : Ident := s.foldl (fun n c => n * 256 + c.toNat) 0

/-- The parts of a name with dots (the first character of a part is put before the parts that follow). -/
def parts : Str → List Str
  | [] => [[]]
  | c :: r => if c = '.' then [] :: parts r else
    match parts r with
    | p :: ps => (c :: p) :: ps
    | [] => [[c]]

/-- The name of a state (`lookup_state`, `n2d.c:355-389`). -/
def sname (s : Str) : SName := (parts s).map (fun p => .id (ident p))

/-- `option` (`parse.y:140-142`): `NULL` is the number 0. -/
def opt : Option Str → Ident
  | some s => ident s
  | none => 0

/-- `create_inline_block` (`parse.y:152-154`). -/
def inl : Str × Str × Str → Ident × Ident × Ident
  | (a, b, c) => (ident a, ident b, ident c)

def stepOf : DfaParse.Step → Dfasyn.Step
  | .toks f l => .toks ((f :: l).map opt)
  | .inl f l => .inl ((some f :: l).map (Option.map inl))

def goalOf : DfaParse.Goal → Dfasyn.Goal
  | .to f l => .to ((f :: l).map sname)
  | .tag n => .tag n

def transOf (t : Trans) : TransDecl := ⟨stepOf t.first, t.rest.map stepOf, goalOf t.goal⟩

def stateOf (s : State) : StateDecl := ⟨sname s.name, s.attr, s.trans.map transOf⟩

def blockOf (b : DfaParse.Block) : BlockDecl :=
  ⟨ident b.name, b.insts.map (fun p => (ident p.1, ident p.2)), b.states.map stateOf⟩

/-- `define_result`, `define_symbol` and `define_symresult` (`expr.c:235-281`).  The default result and the type are
not part of `Evaluator`. -/
def define (x : Evaluator) : Line → Evaluator
  | .bare early n => { x with results := x.results ++ [⟨n, .sym n, early⟩] }
  | .result early e n => { x with results := x.results ++ [⟨n, e, early⟩] }
  | .symresult early e n => ⟨(n, e) :: x.defs, x.results ++ [⟨n, e, early⟩]⟩
  | .symbol n e => { x with defs := (n, e) :: x.defs }
  | .defresult _ => x
  | .type _ => x

/-- One declaration (`parse.y:63-87`, `156-176`); `lookup_token` appends the token (`n2d.c:84-117`), `create_abbrev`
the abbreviation (`n2d.c:119-149`). -/
def add (s : Source) : Decl → Source
  | .block b => { s with blocks := s.blocks ++ [blockOf b] }
  | .tokens f l => { s with tokens := s.tokens ++ (f :: l).map ident }
  | .prefix _ => s
  | .abbrev n f l => { s with abbrevs := s.abbrevs ++ [(ident n, (f :: l).map ident)] }
  | .exit l => { s with exit := define s.exit l }
  | .attr l => { s with attr := define s.attr l }

/-- What the declarations of a file make. -/
def source (ds : List Decl) : Source := ds.foldl add ⟨[], [], [], ⟨[], []⟩, ⟨[], []⟩⟩

/-- What `dfasyn` makes of a text (`n2d.c:1518-1528`): scanner, parser and actions; `none` after a syntax error. -/
def ofText (s : List Char) : Option Source :=
  (DfaParse.parse ((DfaScan.scan s).filterMap fun
    | .tok _ t => some t
    | .leak _ => none)).map source

end Jbo.DfaSrc
