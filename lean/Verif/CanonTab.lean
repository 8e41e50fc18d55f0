import Verif.MkDict
/-!
# The table of rafsi: `canonluj.pl`, `lookup_component` of `canonluj.c`

The script writes the entries as C text; here the table is the list of its entries (the words have no quotes or
backslashes, so the compiler reads what was written).
-/

namespace Jbo.CanonTab
open Jbo Dict Embed MkDict

/-- `s/ +$//` (`canonluj.pl:12`). -/
def trimSp (s : Str) : Str := (s.reverse.dropWhile (· == 0x20)).reverse

/-- `s/ +/ /g` (`canonluj.pl:14`). -/
def squashSp : Str → Str
  | [] => []
  | c :: r =>
    if c = 0x20 then
      match r with
      | [] => [0x20]
      | d :: _ => if d = 0x20 then squashSp r else 0x20 :: squashSp r
    else c :: squashSp r

/-- A turn of the loop (`canonluj.pl:9-23`): the assignments to `%rafsi`, in order. -/
def assigned (l : Str) : List (Str × Str) :=
  let gismu := trimSp (substr l 0 5)
  (splitBlank (noLast (noFirst (squashSp (substr l 6 12))))).map (fun r => (r, gismu)) ++
    (if gismu.length = 5 then [(substr gismu 0 4, gismu)] else [])

/-- `%rafsi` in the order of its keys (`canonluj.pl:8-27`). -/
def rafsiTable (lines : List Str) : List (Str × Str) :=
  (lines.flatMap assigned).foldl (fun d p => Embed.insert p.1 p.2 d) []

/-- What the C standard says of `bsearch` over a table in ascending order. -/
def IsBsearch (b : List (Str × Str) → Str → Option (Str × Str)) : Prop :=
  ∀ t : List (Str × Str), t.Pairwise (fun a b => strcmp a.1 b.1 = .lt) → ∀ x,
    (∀ e, b t x = some e → e ∈ t ∧ e.1 = x) ∧ (b t x = none → ∀ e ∈ t, e.1 ≠ x)

/-- `lookup_component` (`canonluj.c:104-116`). -/
def component (b : List (Str × Str) → Str → Option (Str × Str)) (t : List (Str × Str)) (x : Str) : Str :=
  match b t x with
  | none => [0x3F]
  | some e => e.2

end Jbo.CanonTab
