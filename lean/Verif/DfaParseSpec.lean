import Verif.DfaParse
import Verif.DfaExprSpec
/-!
# How the declarations of dfasyn are written
-/

namespace Jbo.DfaParse
open Jbo.DfaScan (Tok Kw)
open Jbo.DfaExpr (T Reads)
open Jbo.Dfasyn (Expr)

/-- An option that may be empty. -/
def optW : Option Str → List Tok
  | some s => [.str s]
  | none => []

/-- `<type:in->out>`. -/
def inlW : Str × Str × Str → List Tok
  | (a, b, c) => [.sign '<', .str a, .sign ':', .str b, .arrow, .str c, .sign '>']

def inlOptW : Option (Str × Str × Str) → List Tok
  | some x => inlW x
  | none => []

def stepW : Step → List Tok
  | .toks f l => optW f ++ l.flatMap (fun o => .sign '|' :: optW o)
  | .inl f l => inlW f ++ l.flatMap (fun o => .sign '|' :: inlOptW o)

def goalW : Goal → List Tok
  | .to f l => .arrow :: .str f :: l.flatMap (fun d => [.sign ',', .str d])
  | .tag n => [.sign '=', .str n]

def transW (t : Trans) : List Tok := stepW t.first ++ t.rest.flatMap (fun s => .sign ';' :: stepW s) ++ goalW t.goal

def attrW : Option Str → List Tok
  | some n => [.sign '(', .str n, .sign ')']
  | none => []

def stateW (s : State) : List Tok := .kw .state :: .str s.name :: attrW s.attr ++ s.trans.flatMap transW

def blockW (b : Block) : List Tok :=
  .kw .block :: .str b.name :: b.insts.flatMap (fun p => [.str p.1, .sign ':', .str p.2]) ++ b.states.flatMap stateW ++ [.kw .endblock]

/-- The tokens of an expression. -/
def exprW : T → Tok
  | .not => .sign '~'
  | .and => .sign '&'
  | .xor => .sign '^'
  | .pipe => .sign '|'
  | .query => .sign '?'
  | .colon => .sign ':'
  | .lparen => .sign '('
  | .rparen => .sign ')'
  | .star => .sign '*'
  | .str s => .str s

/-- A line for results; an expression may be written in more than one way. -/
inductive LineW : Line → List Tok → Prop
  | bare (n : Str) : LineW (.bare false n) [.kw .result, .str n]
  | early (n : Str) : LineW (.bare true n) [.kw .earlyresult, .str n]
  | result (ts : List T) (e : Expr) (n : Str) : Reads 0 ts e → LineW (.result false e n) (.kw .result :: ts.map exprW ++ [.arrow, .str n])
  | earlyresult (ts : List T) (e : Expr) (n : Str) : Reads 0 ts e →
      LineW (.result true e n) (.kw .earlyresult :: ts.map exprW ++ [.arrow, .str n])
  | symresult (ts : List T) (e : Expr) (n : Str) : Reads 0 ts e →
      LineW (.symresult false e n) (.kw .symresult :: ts.map exprW ++ [.arrow, .str n])
  | earlysymresult (ts : List T) (e : Expr) (n : Str) : Reads 0 ts e →
      LineW (.symresult true e n) (.kw .earlysymresult :: ts.map exprW ++ [.arrow, .str n])
  | symbol (ts : List T) (e : Expr) (n : Str) : Reads 0 ts e →
      LineW (.symbol n e) (.kw .symbol :: .str n :: .sign '=' :: ts.map exprW)
  | defresult (n : Str) : LineW (.defresult n) [.kw .defresult, .str n]
  | type (n : Str) : LineW (.type n) [.kw .type, .str n]

/-- Lines that may be given for attributes. -/
def Line.late : Line → Bool
  | .bare early _ | .result early _ _ | .symresult early _ _ => !early
  | _ => true

inductive DeclW : Decl → List Tok → Prop
  | block (b : Block) : DeclW (.block b) (blockW b)
  | tokens (f : Str) (l : List Str) : DeclW (.tokens f l) (.kw .tokens :: .str f :: l.map .str)
  | prefix (n : Str) : DeclW (.prefix n) [.kw .prefix, .str n]
  | abbrev (n f : Str) (l : List Str) :
      DeclW (.abbrev n f l) (.kw .abbrev :: .str n :: .sign '=' :: .str f :: l.flatMap (fun s => [.sign '|', .str s]))
  | exit (l : Line) (ts : List Tok) : LineW l ts → DeclW (.exit l) ts
  | attr (l : Line) (ts : List Tok) : LineW l ts → l.late = true → DeclW (.attr l) (.kw .attr :: ts)
  | defattr (n : Str) : DeclW (.attr (.defresult n)) [.kw .defattr, .str n]

/-- A file: one declaration after the other. -/
inductive FileW : List Decl → List Tok → Prop
  | nil : FileW [] []
  | cons (d : Decl) (ts : List Tok) (ds : List Decl) (r : List Tok) : DeclW d ts → FileW ds r → FileW (d :: ds) (ts ++ r)

end Jbo.DfaParse
