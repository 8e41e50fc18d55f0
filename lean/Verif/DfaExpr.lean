import Verif.Dfasyn
/-!
# Expressions in the files of dfasyn: `expr` in `dfasyn/parse.y`

The parser that bison makes from the rules of `parse.y:178-186` and the precedences of `parse.y:49-55`.
-/

namespace Jbo.DfaExpr
open Jbo.Dfasyn (Expr Name)

/-- The tokens that can stand in an expression (`parse.y:48-54`). -/
inductive T
  | not | and | xor | pipe | query | colon | lparen | rparen | str (n : Name) | star
deriving DecidableEq, Repr

inductive Assoc
  | left | right
deriving DecidableEq, Repr

/-- The precedences (`parse.y:49-54`): a later line binds more tightly. -/
def prec : T → Option (Nat × Assoc)
  | .query | .colon => some (1, .right)
  | .pipe => some (2, .left)
  | .xor => some (3, .left)
  | .and => some (4, .left)
  | .not => some (5, .left)
  | .lparen | .rparen => some (6, .left)
  | .str _ | .star => none

/-- A part of the stack of the parser: a rule of which everything up to the next expression has been read. -/
inductive Frame
  | not
  | and (a : Expr)
  | xor (a : Expr)
  | pipe (a : Expr)
  | query (a : Expr)
  | colon (a b : Expr)
  | lparen
deriving DecidableEq, Repr

/-- The tokens that can be shifted after an expression whatever stands before it; the others are no conflict. -/
def infix? : T → Bool
  | .and | .xor | .pipe | .query => true
  | _ => false

/-- How bison settles the conflict between a rule whose last token is `rule` and the next token (`none`: the token
that follows the expression): whether it reduces.  The higher precedence wins, and among equals the associativity
decides.  Where the token cannot be shifted there is no conflict. -/
def reduces (rule : T) : Option T → Bool
  | none => true
  | some t =>
    if infix? t then
      match prec rule, prec t with
      | some (r, _), some (p, a) => decide (p < r) || (decide (p = r) && a == .left)
      | _, _ => false
    else true

/-- The reductions before the next token is shifted, for the rules that end with an expression
(`parse.y:178-182`): the expression on top of the stack and what is below. -/
def settle (la : Option T) : Expr → List Frame → Expr × List Frame
  | e, .not :: s => if reduces .not la then settle la (.not e) s else (e, .not :: s)
  | e, .and a :: s => if reduces .and la then settle la (.and a e) s else (e, .and a :: s)
  | e, .pipe a :: s => if reduces .pipe la then settle la (.or a e) s else (e, .pipe a :: s)
  | e, .xor a :: s => if reduces .xor la then settle la (.xor a e) s else (e, .xor a :: s)
  | e, .colon a b :: s => if reduces .colon la then settle la (.cond a b e) s else (e, .colon a b :: s)
  | e, .query a :: s => (e, .query a :: s)
  | e, .lparen :: s => (e, .lparen :: s)
  | e, [] => (e, [])

/-- The parser between two tokens: an expression has to come, or one is on top of the stack. -/
inductive St
  | need (s : List Frame)
  | have (e : Expr) (s : List Frame)
deriving DecidableEq, Repr

/-- What happens to the next token (`parse.y:178-186`); `none` is a syntax error.  Simplified: the rules that end with
a token (`parse.y:183-185`) are reduced together with the shift of the token. -/
def step : St → T → Option St
  | .need s, .not => some (.need (.not :: s))
  | .need s, .lparen => some (.need (.lparen :: s))
  | .need s, .str n => some (.have (.sym n) s)
  | .need s, .star => some (.have .wild s)
  | .need _, _ => none
  | .have e s, t =>
    match t, settle (some t) e s with
    | .and, (e, s) => some (.need (.and e :: s))
    | .pipe, (e, s) => some (.need (.pipe e :: s))
    | .xor, (e, s) => some (.need (.xor e :: s))
    | .query, (e, s) => some (.need (.query e :: s))
    | .colon, (e, .query a :: s) => some (.need (.colon a e :: s))
    | .rparen, (e, .lparen :: s) => some (.have e s)
    | _, _ => none

def run : St → List T → Option St
  | st, [] => some st
  | st, t :: ts => match step st t with
    | none => none
    | some st => run st ts

/-- The reading of an expression that is followed by a token that cannot belong to it (`ARROW`, or a keyword after
`SYMBOL name = expr`; `parse.y:156-176`). -/
def parse (ts : List T) : Option Expr :=
  match run (.need []) ts with
  | some (.have e s) => match settle none e s with
    | (e, []) => some e
    | _ => none
  | _ => none

end Jbo.DfaExpr
