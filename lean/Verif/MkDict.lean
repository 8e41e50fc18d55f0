import Verif.Embed
/-!
# `mkdict.pl`: the word lists become sources of the dictionary

A word list has fixed columns.  Modelled: both loops, line by line; `substr` past the end of a line gives the
empty string.
-/

namespace Jbo.MkDict
open Jbo Dict Embed

/-- `[ \t]`. -/
def blank (c : Byte) : Bool := c == 0x20 || c == 0x09

def substr (s : Str) (o n : Nat) : Str := (s.drop o).take n

/-- `s/[ \t]+$//`. -/
def trimEnd (s : Str) : Str := (s.reverse.dropWhile blank).reverse

/-- `s/^[ \t]+//`. -/
def trimStart (s : Str) : Str := s.dropWhile blank

/-- `s/^\.//`. -/
def noDot : Str → Str
  | [] => []
  | c :: r => if c = 0x2E then r else c :: r

/-- `s/([^ ])[ ]*$/$1/` (`mkdict.pl:15`): a string of blanks stays. -/
def trimEng (s : Str) : Str :=
  if s.all (· == 0x20) then s else (s.reverse.dropWhile (· == 0x20)).reverse

/-- `s/[ \t]+/ /g` (`mkdict.pl:18`). -/
def squash : Str → Str
  | [] => []
  | c :: r =>
    if blank c then
      match r with
      | [] => [0x20]
      | d :: _ => if blank d then squash r else 0x20 :: squash r
    else c :: squash r

/-- `s/^ //` (`mkdict.pl:19`). -/
def noFirst : Str → Str
  | [] => []
  | c :: r => if c = 0x20 then r else c :: r

/-- `s/ $//` (`mkdict.pl:20`). -/
def noLast (s : Str) : Str := if s.getLast? = some 0x20 then s.dropLast else s

/-- The fields between blanks: the first and the others. -/
def fieldsOf : Str → Str × List Str
  | [] => ([], [])
  | c :: r => if c = 0x20 then ([], (fieldsOf r).1 :: (fieldsOf r).2) else (c :: (fieldsOf r).1, (fieldsOf r).2)

/-- `split / /` (`mkdict.pl:21`); of the empty string nothing.  (Empty fields at the end, which Perl drops, do
not occur: there is no blank at the end.) -/
def splitBlank (s : Str) : List Str :=
  if s = [] then [] else (fieldsOf s).1 :: (fieldsOf s).2

/-- The rafsi of a line (`mkdict.pl:17-21`). -/
def rafsiOf (l : Str) : List Str := splitBlank (noLast (noFirst (squash (substr l 6 12))))

def entry (k v : Str) : Str := k ++ 0x3A :: v

/-- A turn of the first loop (`mkdict.pl:10-32`): the lines printed. -/
def gismuLines (l : Str) : List Str :=
  let gis := trimEnd (substr l 0 6)
  let eng := trimEng (substr l 19 20)
  entry gis eng :: (rafsiOf l).flatMap (fun r => [entry (0x25 :: r) eng, entry (0x40 :: r) gis]) ++
    (if gis.length = 5 then [entry (0x25 :: substr gis 0 4) eng, entry (0x40 :: substr gis 0 4) gis] else [])

/-- A turn of the second loop (`mkdict.pl:37-53`). -/
def cmavoLines (l : Str) : List Str :=
  let cma := noDot (trimStart (trimEnd (substr l 0 10)))
  let sma := noDot (trimStart (trimEnd (substr l 10 6)))
  let eng := trimEnd (substr l 20 40)
  [entry cma eng, entry (0x2B :: cma) sma]

/-- `gismu_cmavo.dict`. -/
def mkdict (gismu cmavo : List Str) : List Str := gismu.flatMap gismuLines ++ cmavo.flatMap cmavoLines

end Jbo.MkDict
