import Verif.CmTrans
/-!
# `cm_scan.l`: the scanner of `cmafihe`

The rules are regular expressions; as `flex` does, the scanner takes the longest match and among equals the first rule.  Characters stand for
bytes.  That `flex` makes such a scanner of the rules is trusted.
-/

namespace Jbo.CmScan
open Jbo.CmTrans (Word)

/-- Regular expressions. -/
inductive Re
  | none
  | eps
  | set (p : Char → Bool)
  | seq (a b : Re)
  | alt (a b : Re)
  | star (a : Re)

namespace Re

def nullable : Re → Bool
  | none | set _ => false
  | eps | star _ => true
  | seq a b => a.nullable && b.nullable
  | alt a b => a.nullable || b.nullable

/-- What is left to match after a character. -/
def deriv (c : Char) : Re → Re
  | none | eps => none
  | set p => if p c then eps else none
  | seq a b => if a.nullable then alt (seq (a.deriv c) b) (b.deriv c) else seq (a.deriv c) b
  | alt a b => alt (a.deriv c) (b.deriv c)
  | star a => seq (a.deriv c) (star a)

/-- Whether a text matches. -/
def accepts : Re → Word → Bool
  | r, [] => r.nullable
  | r, c :: w => accepts (r.deriv c) w

/-- `a?`, `a+` and a single character. -/
def opt (a : Re) : Re := alt a eps
def plus (a : Re) : Re := seq a (star a)
def chr (c : Char) : Re := set (· == c)

end Re

open Re

/-- The classes `C`, `CNR`, `V`, `L` (`cm_scan.l:14-17`). -/
def isC (c : Char) : Bool := "bcdfgjklmnprstvxz".toList.contains c
def isCNR (c : Char) : Bool := "bcdfgjklmnpstvxz".toList.contains c
def isV (c : Char) : Bool := "aeiou".toList.contains c
def isL (c : Char) : Bool := isC c || isV c || c == 'y' || c == '\''

def C := set isC
def CNR := set isCNR
def V := set isV
def L := set isL

/-- `{L},?` (`cm_scan.l:18`). -/
def LC := seq L (opt (chr ','))

/-- `VV`, `VVY`, `CCC`, `VCC`, `CMT`, `CM` (`cm_scan.l:22-31`). -/
def VV := seq V (opt V)
def VVY := alt VV (chr 'y')
def more := star (seq (chr '\'') VVY)
def VCC := seq VVY more
def CCC := seq C VCC
def CMT := star (alt CCC (seq (chr '.') VCC))
def CM := alt (seq CCC CMT) (seq (opt (chr '.')) (seq VCC CMT))

/-- `BM1`, `BM2`, `BM3`, `BM` (`cm_scan.l:35-38`). -/
def LV := seq (plus L) V
def BM1 := seq C (seq V (seq (opt (chr '\'')) (seq V (seq (chr 'r') (seq CNR LV)))))
def BM2 := seq C (seq V (seq (opt (chr '\'')) (seq V (seq (chr 'n') (seq (chr 'r') LV)))))
def BM3 := seq C (seq V (seq C (seq (chr 'y') (seq C LV))))
def BM := alt (alt BM1 BM2) BM3

/-- What a rule does with the text. -/
inductive Kind
  | brivla | cmavo | cmene | fallthru | skip | newline | paren
deriving DecidableEq, Repr

/-- `\r?\n` -/
def NL := seq (opt (chr '\r')) (chr '\n')
def isOpen (c : Char) : Bool := c == '(' || c == '['
def isClose (c : Char) : Bool := c == ')' || c == ']'
def isAlpha (c : Char) : Bool := ('a' ≤ c && c ≤ 'z') || ('A' ≤ c && c ≤ 'Z')

/-- The rules outside brackets (`cm_scan.l:48-56`, `62-63`), with the change of the depth. -/
def rules : List (Re × Kind × Int) :=
  [(BM, .brivla, 0), (CM, .cmavo, 0), (seq C LV, .brivla, 0),
   (seq (seq (opt (chr '.')) (seq (star LC) C)) (opt (chr '.')), .cmene, 0), (plus L, .fallthru, 0),
   (plus (set fun c => c == ' ' || c == '\t'), .skip, 0), (NL, .skip, 0), (seq NL (plus NL), .newline, 0),
   (set isOpen, .paren, 1), (plus (set isAlpha), .fallthru, 0), (set (· != '\n'), .fallthru, 0)]

/-- The rules inside brackets (`cm_scan.l:58-60`). -/
def parenRules : List (Re × Kind × Int) :=
  [(set isOpen, .paren, 1), (plus (set fun c => !isOpen c && !isClose c), .paren, 0), (set isClose, .paren, -1)]

/-- The first rule that matches a text. -/
def firstRule (rs : List (Re × Kind × Int)) (u : Word) : Option (Kind × Int) := (rs.find? (·.1.accepts u)).map (·.2)

/-- The longest match of at most `n` characters. -/
def munch (rs : List (Re × Kind × Int)) (w : Word) : Nat → Option (Nat × Kind × Int)
  | 0 => .none
  | n + 1 => match firstRule rs (w.take (n + 1)) with
    | some a => some (n + 1, a)
    | .none => munch rs w n

/-- The start condition: `PAREN` while the depth is above 0 (`cm_scan.l:56-60`). -/
def rulesAt (depth : Int) : List (Re × Kind × Int) := if depth = 0 then rules else parenRules

/-- `yylex`: the kind and the text of all matches.  The first argument bounds their number; where no rule matches `flex` copies a character, which does
not happen (`scan_all`), and the model stops there. -/
def scan : Nat → Int → Word → Option (List (Kind × Word))
  | 0, _, w => if w = [] then some [] else .none
  | fuel + 1, depth, w =>
    if w = [] then some [] else
    match munch (rulesAt depth) w w.length with
    | .none => .none
    | some (n, k, e) => (scan fuel (depth + e) (w.drop n)).map ((k, w.take n) :: ·)

end Jbo.CmScan
