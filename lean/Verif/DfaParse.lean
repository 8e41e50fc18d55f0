import Verif.DfaScan
import Verif.DfaExpr
/-!
# The grammar of the files of dfasyn: `dfasyn/parse.y`

From the tokens to the declarations.  Apart from expressions the rules have no conflicts, so that the next token tells
which rule applies; the tables that bison makes from them are represented by functions that look at the next tokens.
What the actions do with the declarations is modelled in `Block`.
-/

namespace Jbo.DfaParse
open Jbo.DfaScan (Tok Kw)
open Jbo.DfaExpr (T)
open Jbo.Dfasyn (Expr)

abbrev Str := List Char

/-- What stands between semicolons (`parse.y:118-154`): options, of which each may be empty, or blocks
`<type:in->out>`, of which all but the first may be empty. -/
inductive Step
  | toks (first : Option Str) (rest : List (Option Str))
  | inl (first : Str × Str × Str) (rest : List (Option (Str × Str × Str)))
deriving DecidableEq, Repr

/-- `-> a, b` or `= tag` (`parse.y:108-116`). -/
inductive Goal
  | to (first : Str) (rest : List Str)
  | tag (n : Str)
deriving DecidableEq, Repr

/-- `transition_decl` (`parse.y:108-112`). -/
structure Trans where
  first : Step
  rest : List Step
  goal : Goal
deriving DecidableEq, Repr

/-- `state_decl` (`parse.y:93-104`). -/
structure State where
  name : Str
  attr : Option Str
  trans : List Trans
deriving DecidableEq, Repr

/-- `block_decl` (`parse.y:67-71`). -/
structure Block where
  name : Str
  insts : List (Str × Str)
  states : List State
deriving DecidableEq, Repr

/-- The arguments of `define_result`, `define_symresult`, `define_symbol`, `define_defresult` and `define_type`
(`parse.y:156-176`). -/
inductive Line
  | bare (early : Bool) (n : Str)
  | result (early : Bool) (e : Expr) (n : Str)
  | symresult (early : Bool) (e : Expr) (n : Str)
  | symbol (n : Str) (e : Expr)
  | defresult (n : Str)
  | type (n : Str)
deriving DecidableEq, Repr

/-- `decl` (`parse.y:63`); lines for `exit_evaluator` and for `attr_evaluator`. -/
inductive Decl
  | block (b : Block)
  | tokens (first : Str) (rest : List Str)
  | prefix (n : Str)
  | abbrev (n first : Str) (rest : List Str)
  | exit (l : Line)
  | attr (l : Line)
deriving DecidableEq, Repr

/-! ## Transitions -/

/-- `option_seq` after its first option (`parse.y:137-142`). -/
def options : List Tok → List (Option Str) × List Tok
  | .sign '|' :: .str s :: r => (some s :: (options r).1, (options r).2)
  | .sign '|' :: r => (none :: (options r).1, (options r).2)
  | r => ([], r)

/-- `inline_block_seq` after its first block (`parse.y:144-154`). -/
def inlines : List Tok → List (Option (Str × Str × Str)) × List Tok
  | .sign '|' :: .sign '<' :: .str a :: .sign ':' :: .str b :: .arrow :: .str c :: .sign '>' :: r =>
    (some (a, b, c) :: (inlines r).1, (inlines r).2)
  | .sign '|' :: r => (none :: (inlines r).1, (inlines r).2)
  | r => ([], r)

/-- A part of `transition_seq` (`parse.y:118-135`). -/
def step : List Tok → Step × List Tok
  | .sign '<' :: .str a :: .sign ':' :: .str b :: .arrow :: .str c :: .sign '>' :: r =>
    (.inl (a, b, c) (inlines r).1, (inlines r).2)
  | .str s :: r => (.toks (some s) (options r).1, (options r).2)
  | r => (.toks none (options r).1, (options r).2)

/-- The other parts of `transition_seq` (`parse.y:118-135`).  Here and below a number bounds the length of a sequence;
the length of the text is always enough. -/
def steps : Nat → List Tok → List Step × List Tok
  | n + 1, .sign ';' :: r => ((step r).1 :: (steps n (step r).2).1, (steps n (step r).2).2)
  | _, r => ([], r)

/-- `destination_seq` after its first name (`parse.y:114-116`). -/
def dests : List Tok → List Str × List Tok
  | .sign ',' :: .str s :: r => (s :: (dests r).1, (dests r).2)
  | r => ([], r)

/-- The end of `transition_decl` (`parse.y:108-112`). -/
def goal : List Tok → Option (Goal × List Tok)
  | .arrow :: .str d :: r => some (.to d (dests r).1, (dests r).2)
  | .sign '=' :: .str n :: r => some (.tag n, r)
  | _ => none

/-- `transition_decl` (`parse.y:108-112`). -/
def trans (ts : List Tok) : Option (Trans × List Tok) :=
  match goal (steps ts.length (step ts).2).2 with
  | none => none
  | some (g, r) => some (⟨(step ts).1, (steps ts.length (step ts).2).1, g⟩, r)

/-- The tokens with which a transition can start; the first option may be empty. -/
def starts : Tok → Bool
  | .str _ | .arrow | .sign '|' | .sign ';' | .sign '<' | .sign '=' => true
  | _ => false

/-- `sdecl_seq` (`parse.y:102-104`). -/
def transs : Nat → List Tok → Option (List Trans × List Tok)
  | n + 1, t :: r =>
    if starts t then
      match trans (t :: r) with
      | none => none
      | some (x, r') => match transs n r' with
        | none => none
        | some (l, r'') => some (x :: l, r'')
    else some ([], t :: r)
  | _, r => some ([], r)

/-! ## Blocks -/

/-- `opt_state_attribute` (`parse.y:97-100`). -/
def attrOf : List Tok → Option Str × List Tok
  | .sign '(' :: .str n :: .sign ')' :: r => (some n, r)
  | r => (none, r)

/-- `state_decl_seq` (`parse.y:91-95`). -/
def states : Nat → List Tok → Option (List State × List Tok)
  | n + 1, .kw .state :: .str s :: r =>
    match transs (attrOf r).2.length (attrOf r).2 with
    | none => none
    | some (l, r') => match states n r' with
      | none => none
      | some (ss, r'') => some (⟨s, (attrOf r).1, l⟩ :: ss, r'')
  | _, r => some ([], r)

/-- `instance_decl_seq` (`parse.y:89`, `106`). -/
def insts : List Tok → List (Str × Str) × List Tok
  | .str n :: .sign ':' :: .str m :: r => ((n, m) :: (insts r).1, (insts r).2)
  | r => ([], r)

/-- `block_decl` after `BLOCK` (`parse.y:67-71`). -/
def block : List Tok → Option (Block × List Tok)
  | .str n :: r => match states r.length (insts r).2 with
    | some (ss, .kw .endblock :: r') => some (⟨n, (insts r).1, ss⟩, r')
    | _ => none
  | _ => none

/-! ## Results -/

/-- The tokens of expressions (`parse.y:48-54`). -/
def toT : Tok → Option T
  | .sign '~' => some .not
  | .sign '&' => some .and
  | .sign '^' => some .xor
  | .sign '|' => some .pipe
  | .sign '?' => some .query
  | .sign ':' => some .colon
  | .sign '(' => some .lparen
  | .sign ')' => some .rparen
  | .sign '*' => some .star
  | .str s => some (.str s)
  | _ => none

/-- The tokens up to the first that cannot belong to an expression. -/
def exprToks : List Tok → List T × List Tok
  | [] => ([], [])
  | t :: r => match toT t with
    | some x => (x :: (exprToks r).1, (exprToks r).2)
    | none => ([], t :: r)

/-- `expr ARROW STRING` (`parse.y:157-161`). -/
def arrowed (r : List Tok) : Option (Expr × Str × List Tok) :=
  match (exprToks r).2 with
  | .arrow :: .str n :: r' => match DfaExpr.parse (exprToks r).1 with
    | some e => some (e, n, r')
    | none => none
  | _ => none

/-- `RESULT` and `EARLYRESULT` after the keyword (`parse.y:156-159`): a `STRING` before an arrow or an operator is an
expression. -/
def result (early : Bool) (r : List Tok) : Option (Line × List Tok) :=
  match arrowed r with
  | some (e, n, r') => some (.result early e n, r')
  | none => match exprToks r with
    | ([.str n], r') => some (.bare early n, r')
    | _ => none

/-- `SYMRESULT` and `EARLYSYMRESULT` after the keyword (`parse.y:160-161`). -/
def symresult (early : Bool) (r : List Tok) : Option (Line × List Tok) :=
  match arrowed r with
  | some (e, n, r') => some (.symresult early e n, r')
  | none => none

/-- `result_decl` (`parse.y:156-165`). -/
def line : List Tok → Option (Line × List Tok)
  | .kw .result :: r => result false r
  | .kw .earlyresult :: r => result true r
  | .kw .symresult :: r => symresult false r
  | .kw .earlysymresult :: r => symresult true r
  | .kw .symbol :: .str n :: .sign '=' :: r => match DfaExpr.parse (exprToks r).1 with
    | some e => some (.symbol n e, (exprToks r).2)
    | none => none
  | .kw .defresult :: .str n :: r => some (.defresult n, r)
  | .kw .type :: .str n :: r => some (.type n, r)
  | _ => none

/-- `attr_decl` after `ATTR` (`parse.y:169-176`): the lines of results but for the early ones. -/
def attrLine : List Tok → Option (Line × List Tok)
  | .kw .earlyresult :: _ => none
  | .kw .earlysymresult :: _ => none
  | r => line r

/-! ## The file -/

/-- `token_seq` after its first token (`parse.y:81`). -/
def strs : List Tok → List Str × List Tok
  | .str s :: r => (s :: (strs r).1, (strs r).2)
  | r => ([], r)

/-- `string_pipe_seq` after its first string (`parse.y:83-85`). -/
def pipes : List Tok → List Str × List Tok
  | .sign '|' :: .str s :: r => (s :: (pipes r).1, (pipes r).2)
  | r => ([], r)

/-- `decl` (`parse.y:63-87`, `156-176`). -/
def decl : List Tok → Option (Decl × List Tok)
  | .kw .block :: r => (block r).map (fun p => (.block p.1, p.2))
  | .kw .tokens :: .str s :: r => some (.tokens s (strs r).1, (strs r).2)
  | .kw .prefix :: .str n :: r => some (.prefix n, r)
  | .kw .abbrev :: .str n :: .sign '=' :: .str s :: r => some (.abbrev n s (pipes r).1, (pipes r).2)
  | .kw .attr :: r => (attrLine r).map (fun p => (.attr p.1, p.2))
  | .kw .defattr :: .str n :: r => some (.attr (.defresult n), r)
  | r => (line r).map (fun p => (.exit p.1, p.2))

/-- `decl_seq` (`parse.y:61`). -/
def file : Nat → List Tok → Option (List Decl)
  | _, [] => some []
  | 0, _ => none
  | n + 1, ts => match decl ts with
    | none => none
    | some (d, r) => (file n r).map (d :: ·)

/-- `yyparse` (`parse.y:59`); `none` is a syntax error. -/
def parse (ts : List Tok) : Option (List Decl) := file ts.length ts

end Jbo.DfaParse
