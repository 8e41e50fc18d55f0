import Verif.DfaExpr
/-!
# What an expression says
-/

namespace Jbo.DfaExpr
open Jbo.Dfasyn (Expr Name)

/-- The expressions in layers: 5 a name, `*` or something in parentheses; 4 with `~` before; 3 joined by `&`; 2 joined
by `^`; 1 joined by `|`; 0 a choice `a ? b : c`.  Joined parts belong together from the left, choices from the right. -/
inductive Reads : Nat → List T → Expr → Prop
  | sym (n : Name) : Reads 5 [.str n] (.sym n)
  | wild : Reads 5 [.star] .wild
  | paren (ts : List T) (e : Expr) : Reads 0 ts e → Reads 5 (.lparen :: ts ++ [.rparen]) e
  | not (ts : List T) (e : Expr) : Reads 4 ts e → Reads 4 (.not :: ts) (.not e)
  | and (a b : List T) (x y : Expr) : Reads 3 a x → Reads 4 b y → Reads 3 (a ++ .and :: b) (.and x y)
  | xor (a b : List T) (x y : Expr) : Reads 2 a x → Reads 3 b y → Reads 2 (a ++ .xor :: b) (.xor x y)
  | or (a b : List T) (x y : Expr) : Reads 1 a x → Reads 2 b y → Reads 1 (a ++ .pipe :: b) (.or x y)
  | cond (a b c : List T) (x y z : Expr) : Reads 1 a x → Reads 0 b y → Reads 0 c z →
      Reads 0 (a ++ .query :: b ++ .colon :: c) (.cond x y z)
  | up (k : Nat) (ts : List T) (e : Expr) : Reads (k + 1) ts e → Reads k ts e

end Jbo.DfaExpr
