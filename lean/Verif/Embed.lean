import Verif.Dict
/-!
# The dictionary inside the program

With `EMBEDDED_DICTIONARY` the sources of the dictionary are made into a table of C strings by
`dict2inc.pl`, which is compiled into `dictaccs.c`.  Modelled: the script, the reading of its output by a C
compiler as far as the script's form goes, and `dict_lookup`.
-/

namespace Jbo.Embed
open Jbo Dict

/-- The lines of the input without their newlines (`<>` and `chomp`, `dict2inc.pl:13-14`). -/
def lines : List Byte → List Str
  | [] => []
  | c :: r =>
    if c = 0x0A then [] :: lines r
    else match lines r with
      | [] => [[c]]
      | l :: ls => (c :: l) :: ls

/-- `/^[ \t]*#/` (`dict2inc.pl:15`). -/
def isComment (l : Str) : Bool :=
  (l.dropWhile (fun c => c == 0x20 || c == 0x09)).head? == some 0x23

/-- `/^([^:]+):([^:]+)/` (`dict2inc.pl:19-21`). -/
def fields (l : Str) : Option (Str × Str) :=
  match l.takeWhile (· != 0x3A), l.dropWhile (· != 0x3A) with
  | [], _ => none
  | _, [] => none
  | k, _ :: r => match r.takeWhile (· != 0x3A) with
    | [] => none
    | v => some (k, v)

/-- One turn of the loop (`dict2inc.pl:13-25`): the definition on a line, if there is one. -/
def parse (l : Str) : Option (Str × Str) := if isComment l then none else fields l

/-- `$def{$word} = $def` (`dict2inc.pl:23`), with the keys kept in the order of `sort keys` (line 29): the
order of bytes. -/
def insert (k v : Str) : List (Str × Str) → List (Str × Str)
  | [] => [(k, v)]
  | e :: es => match strcmp k e.1 with
    | .lt => (k, v) :: e :: es
    | .eq => (k, v) :: es
    | .gt => e :: insert k v es

/-- `%def` at the end of the loop, in the order of its keys. -/
def collect (ls : List Str) : List (Str × Str) :=
  ls.foldl (fun d l => match parse l with
    | some (k, v) => insert k v d
    | none => d) []

/-- `s/\"/\\"/g` (`dict2inc.pl:22`); done here when the entry is printed instead of when it is stored. -/
def escape : Str → Str
  | [] => []
  | c :: r => if c = 0x22 then 0x5C :: 0x22 :: escape r else c :: escape r

def bytes (s : String) : Str := s.toList.map (fun c => UInt8.ofNat c.toNat)

def opening : Str := bytes "\n  { \""
def middle : Str := bytes "\", \""
def closing : Str := bytes "\"}"
def preface : Str := bytes "static Keyval dict[] = {"
def ending : Str := bytes "};\n\n"

/-- `dict2inc.pl:31-32`. -/
def entryText (e : Str × Str) : Str := opening ++ e.1 ++ middle ++ escape e.2 ++ closing

/-- The loop `dict2inc.pl:29-33`: a comma before each entry but the first. -/
def entriesText : List (Str × Str) → Str
  | [] => []
  | [e] => entryText e
  | e :: es => entryText e ++ 0x2C :: entriesText es

/-- The table as it is printed (`dict2inc.pl:28-34`).  `n_entries` (line 35) is the number of entries. -/
def table (es : List (Str × Str)) : Str := preface ++ entriesText es ++ ending

/-- A fixed text at the beginning. -/
def expect (p s : Str) : Option Str := if p.isPrefixOf s then some (s.drop p.length) else none

/-- The C compiler: a string literal after its opening quote, up to and with the closing quote.  Of the escapes
only `\"` and `\\` are modelled; the others give `none`, as a newline and the end do. -/
def literal : Str → Option (Str × Str)
  | [] => none
  | c :: r =>
    if c = 0x22 then some ([], r)
    else if c = 0x0A then none
    else if c = 0x5C then
      match r with
      | d :: r' => if d = 0x22 ∨ d = 0x5C then (literal r').map (fun p => (d :: p.1, p.2)) else none
      | [] => none
    else (literal r).map (fun p => (c :: p.1, p.2))

/-- An entry `{ "key", "value"}`. -/
def readEntry (s : Str) : Option ((Str × Str) × Str) :=
  match expect opening s with
  | none => none
  | some s => match literal s with
    | none => none
    | some (k, s) => match expect (bytes ", \"") s with
      | none => none
      | some s => match literal s with
        | none => none
        | some (v, s) => match expect (bytes "}") s with
          | none => none
          | some s => some ((k, v), s)

/-- Entries with commas between them; the first argument bounds their number. -/
def readEntries : Nat → Str → Option (List (Str × Str) × Str)
  | 0, _ => none
  | n + 1, s => match readEntry s with
    | none => none
    | some (e, 0x2C :: r) => (readEntries n r).map (fun p => (e :: p.1, p.2))
    | some (e, r) => some ([e], r)

/-- The table as the compiler understands it; `none` if it does not compile. -/
def readTable (s : Str) : Option (List (Str × Str)) :=
  match expect preface s with
  | none => none
  | some s => match expect ending s with
    | some _ => some []
    | none => match readEntries s.length s with
      | some (es, r) => (expect ending r).map (fun _ => es)
      | none => none

/-- `strcmp(key, dict[m].key)` (`dictaccs.c:201`). -/
def cmpAt (es : List (Str × Str)) (key : Str) (m : Nat) : Except Crash Ordering :=
  match es[m]? with
  | none => .error .outOfBounds
  | some e => .ok (strcmp key e.1)

/-- `dict_lookup` (`dictaccs.c:180-211`) with the table in the program. -/
def lookup (es : List (Str × Str)) (key : Str) : Except Crash (Option Str) :=
  match bisect (cmpAt es key) 0 es.length with
  | .error e => .error e
  | .ok none => .ok none
  | .ok (some m) => match es[m]? with
    | none => .error .outOfBounds
    | some e => .ok (some e.2)

end Jbo.Embed
