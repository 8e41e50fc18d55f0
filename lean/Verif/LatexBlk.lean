import Verif.Flow
/-!
# Model of `latexblk.c`: the display in blocks for LaTeX
-/

namespace Jbo.LatexBlk
open Jbo.Output (Br Call)
open Jbo.Flow (Text Ph bufSize)

/-- A write outside of an array, and a look at a character behind the end of a string. -/
inductive Crash
  | bounds | stale
deriving DecidableEq, Repr

abbrev M := Except Crash

/-- What is printed: a blank, an end of paragraph, a bracket, a block. -/
inductive Item
  | space
  | eols (n : Nat)
  | opened (b : Br) (n : Nat)
  | closed (b : Br) (n : Nat)
  | block (loj eng tag : Text)
deriving DecidableEq, Repr

/-- The variables (`latexblk.c:26-30`, `95`, `358`) and what has been printed. -/
structure St where
  state : Ph
  pending : Nat
  first : Bool
  loj : Text
  eng : Text
  tag : Text
  out : List Item

/-- `initialise` (`latexblk.c:36-44`). -/
def initialise : St := { state := .start, pending := 0, first := false, loj := [], eng := [], tag := [], out := [] }

/-- `strcat` onto a buffer. -/
def cat (buf t : Text) : M Text := if (buf ++ t).length < bufSize then .ok (buf ++ t) else .error .bounds

/-- `make_texsafe`, see `Flow.texSafe`. -/
def texSafe (t : Text) : M Text := match Flow.texSafe t with
  | .ok u => .ok u
  | .error _ => .error .bounds

/-- `clear_eols` (`latexblk.c:103-115`). -/
def clearEols (s : St) : St :=
  if 0 < s.pending then { s with out := s.out ++ [.eols s.pending], state := .opened, pending := 0 } else s

/-- `flush_block` (`latexblk.c:121-141`). -/
def flushBlock (s : St) : St := { s with out := s.out ++ [.block s.loj s.eng s.tag], loj := [], eng := [], tag := [] }

/-- The test and flush of `latexblk.c:168-170`, `242-244`, `367-369`. -/
def flushTexts (s : St) : St := if s.loj ≠ [] ∨ s.eng ≠ [] then flushBlock s else s

/-- The blank before an opening bracket (`latexblk.c:174-183`). -/
def openGap (s : St) : St :=
  match s.state with
  | .start | .opened => s
  | .text | .closed => { s with out := s.out ++ [.space] }

/-- The blank before a closing bracket (`latexblk.c:246-255`). -/
def closeGap (s : St) : St :=
  match s.state with
  | .start | .closed | .text => s
  | .opened => { s with out := s.out ++ [.space] }

/-- `write_open_bracket` (`latexblk.c:162-225`). -/
def writeOpen (b : Br) (n : Nat) (s : St) : St :=
  if b = .none then s
  else
    let u := openGap (clearEols (flushTexts s))
    { u with out := u.out ++ [.opened b n], state := .opened }

/-- `write_close_bracket` (`latexblk.c:236-297`). -/
def writeClose (b : Br) (n : Nat) (s : St) : St :=
  if b = .none then s
  else
    let u := closeGap (flushTexts s)
    { u with out := u.out ++ [.closed b n], state := .closed }

/-- `write_lojban_text` (`latexblk.c:307-319`); `state` does not change. -/
def writeLojban (t : String) (s : St) : M St := do
  let u := clearEols (if s.eng ≠ [] then flushBlock s else s)
  return { u with loj := ← cat u.loj (' ' :: t.toList) }

/-- What is added to the English text (`latexblk.c:328-355`). -/
def engText (t : String) : M Text :=
  if t.toList.head? = some '$' then .ok (Flow.special .latex t).toList
  else do return ' ' :: (← texSafe t.toList)

/-- `write_translation` (`latexblk.c:346-355`). -/
def writeTranslation (t : String) (s : St) : M St := do
  return { s with eng := ← cat s.eng (← engText t) }

/-- A new line before a label, unless it is the first after the bracket (`latexblk.c:421-424`, `432-435`). -/
def addTag (tag t : Text) : M Text :=
  match tag with
  | [] => .error .stale
  | [_] => cat tag t
  | _ => cat tag ('\n' :: t)

/-- The text of a label (`latexblk.c:416-420`); `sprintf` writes to a buffer of the same size. -/
def tagText (a b c : String) (e : Bool) : M Text := do
  let t ← texSafe c.toList
  cat [] (a.toList ++ b.toList ++ (if e then Flow.within " (" t ")" else Flow.within " " t ""))

/-- The calls of the driver: besides those above `set_eols` (`latexblk.c:147-151`), `start_tags` (`364-373`), `end_tags`
(`380-384`), `start_tag` (`391-398`), `write_tag_text` (`411-425`), `write_partial_tag_text` (`427-436`). -/
def step (eolsOf : Nat → Nat) (s : St) : Call → M St
  | .opened b n => .ok (writeOpen b n s)
  | .closed b n => .ok (writeClose b n s)
  | .lojban t => writeLojban t s
  | .translation t => writeTranslation t s
  | .eols w => .ok { s with pending := s.pending + eolsOf w }
  | .startTags => do
    let u := clearEols (flushTexts s)
    return { u with tag := ← cat u.tag ['['], first := true }
  | .endTags => do return { s with tag := ← cat s.tag [':', ']'] }
  | .startTag => do return { s with tag := ← cat s.tag (if s.first then [] else [',', ' ']), first := false }
  | .tagText a b c e => do return { s with tag := ← addTag s.tag (← tagText a b c e) }
  | .tagPart t => do return { s with tag := ← addTag s.tag (← cat [] t.toList) }

def run (eolsOf : Nat → Nat) (cs : List Call) : M St := cs.foldlM (step eolsOf) initialise

/-- What a display prints.  The driver has the `latex_write_epilog` of `latex.c` (`latexblk.c:439-454`,
`latex.c:75-79`), which flushes nothing. -/
def display (eolsOf : Nat → Nat) (cs : List Call) : M (List Item) := do return (← run eolsOf cs).out

/-! ## How it is printed -/

/-- The brackets (`latexblk.c:185-217`, `257-289`): as in `latex.c`, but for the triangles. -/
def openMark : Br → String
  | .triangle => "\\TL{}"
  | b => Flow.openMark .latex b
def closeMark : Br → String
  | .triangle => "\\TR{}"
  | b => Flow.closeMark .latex b

/-- The number after a bracket and the blank (`latexblk.c:190`, `219-221`, `262`, `291-293`). -/
def subscript (n : Nat) : Text := "{}$^{\\IS{".toList ++ (toString n).toList ++ "}}$ ".toList

/-- A character of the labels (`latexblk.c:128-134`). -/
def tagChar (c : Char) : Text := if c = '\n' then "}\\\\[-3pt]{\\ISS{}".toList else [c]

def printed : Item → Text
  | .space => [' ']
  | .eols n => (if 1 < n then "\n\n\\vspace{2ex}" else "\n\n").toList
  | .opened b n => (openMark b).toList ++ subscript n
  | .closed b n => (closeMark b).toList ++ subscript n
  | .block l e t => "\\BT[t]{l}{\\bf ".toList ++ l ++ "}\\\\{\\it ".toList ++ e ++ "}\\\\[-3pt]{\\ISS{}".toList ++
      t.flatMap tagChar ++ "}\\ET\n".toList

end Jbo.LatexBlk
