/-!
# The random text generator: choosing and printing words (`rtg/rtg.pl`)

The 32 bits read from `mymt` are a parameter.  `rnd` divides them by 2^32 and the result is multiplied by a
length; in doubles both steps are exact for lists of less than 2^21 words, so the index is a quotient of natural
numbers here.
-/

namespace Jbo.Rtg

/-- `int($n * &rnd)` (`rtg.pl:30-34, 45, 51`). -/
def scaled (n : Nat) (y : UInt32) : Nat := n * y.toNat / 4294967296

/-- `pick` and `pickx` (`rtg.pl:42-54`); `$#l` is the index of the last word.  (For the empty list it is -1, and
the index `int` gives is 0 all the same.) -/
def pick {α : Type} (l : List α) (y : UInt32) : Option α := l[scaled (l.length - 1) y]?

/-- The choice in `BAI`, `CAhA` and others (`rtg.pl:190-194, 238-242`), with the number of words. -/
def pickAll {α : Type} (l : List α) (y : UInt32) : Option α := l[scaled l.length y]?

/-- `$output` and `$llen`. -/
structure Out where
  text : List Char
  llen : Nat

/-- `emit` (`rtg.pl:98-110`), without the trace. -/
def emit (o : Out) (x : List Char) : Out :=
  if o.llen + x.length > 72 then ⟨o.text ++ x ++ ['\n'], 0⟩
  else ⟨o.text ++ x ++ [' '], o.llen + x.length + 1⟩

/-- `clear_output` (`rtg.pl:112-115`) and the calls of `emit` after it. -/
def emitAll (ws : List (List Char)) : Out := ws.foldl emit ⟨[], 0⟩

end Jbo.Rtg
