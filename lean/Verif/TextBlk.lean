import Verif.Output
/-!
# Model of `textblk.c`: the display in blocks

Texts are lists of characters where the program counts bytes.  What is printed is a list of groups of lines.  The
variable `state` is set but never read (`textblk.c:31`) and left out.
-/

namespace Jbo.TextBlk
open Jbo.Output (Br Call)

abbrev Text := List Char

/-- What is printed: the lines of `flush_line` with the empty line after them (`textblk.c:92-100`), an empty line, an
empty line with a ruler (`textblk.c:115-119`). -/
inductive Group
  | lines (loj eng : Text) (tags : List Text)
  | gap
  | rule
deriving DecidableEq, Repr

/-- A write outside of an array. -/
inductive Crash
  | bounds
deriving DecidableEq, Repr

abbrev M := Except Crash

/-- `MAX_TAGS` (`textblk.c:34`). -/
def maxTags : Nat := 32

/-- `BUFFER_SIZE` (`textblk.c:22`). -/
def bufferSize : Nat := 512

/-- The variables (`textblk.c:36-47`, `107`, `365`) and what has been printed. -/
structure St where
  used : Nat
  tag : Nat → Text
  loj : Text
  eng : Text
  width : Nat
  tagLine : Nat → Text
  lineUsed : Nat
  lojLine : Text
  engLine : Text
  pending : Nat
  first : Bool
  out : List Group

/-- The end of `strcat` and `sprintf` into a buffer: the NUL counts. -/
def store (t : Text) : M Text := if t.length < bufferSize then .ok t else .error .bounds

/-- Writing an element of an array. -/
def put (f : Nat → Text) (i : Nat) (t : Text) : Nat → Text := fun j => if j = i then t else f j

/-- Writing to `tag_text[i]`. -/
def putTag (s : St) (i : Nat) (t : Text) : M St :=
  if i < maxTags then (store t).map fun u => { s with tag := put s.tag i u } else .error .bounds

/-- `clear_line_buffer` (`textblk.c:49-62`). -/
def clearLine (s : St) : St :=
  { s with tagLine := fun _ => [], lineUsed := 0, lojLine := [], engLine := [], width := 0 }

/-- `initialise` (`textblk.c:64-79`); `pending_eols` is a static variable and starts with 0 (`textblk.c:107`), as does
`first_tag` (`textblk.c:365`). -/
def initialise : St :=
  { used := 0, tag := fun _ => [], loj := [], eng := [], width := 0, tagLine := fun _ => [], lineUsed := 0,
    lojLine := [], engLine := [], pending := 0, first := false, out := [] }

/-- `flush_line` (`textblk.c:86-102`). -/
def flushLine (s : St) : St :=
  if s.width = 0 then s
  else clearLine { s with out := s.out ++ [.lines s.lojLine s.engLine ((List.range s.lineUsed).map s.tagLine)] }

/-- `clear_eols` (`textblk.c:109-123`). -/
def clearEols (s : St) : St :=
  if 0 < s.pending then
    { flushLine s with out := (flushLine s).out ++ [if 1 < s.pending then .rule else .gap], pending := 0 }
  else s

/-- `append_to_width` (`textblk.c:124-138`).  The text is never longer than the width; the buffer for the blanks has
the same size as the others. -/
def appendTo (src dst : Text) (wid : Nat) : M Text :=
  if wid - src.length < bufferSize then store (dst ++ src ++ List.replicate (wid - src.length) ' ')
  else .error .bounds

/-- The width of the block (`textblk.c:147-156`). -/
def blockWidth (s : St) : Nat :=
  ((List.range s.used).map fun i => (s.tag i).length).foldl max (max s.loj.length s.eng.length)

/-- A line of labels not used so far is filled up to the block (`textblk.c:166-168`). -/
def startLine (s : St) (i : Nat) (f : Nat → Text) : M (Nat → Text) :=
  if s.lineUsed ≤ i then (appendTo [] (f i) s.width).map (put f i) else .ok f

/-- The loop over the labels of the block (`textblk.c:165-170`). -/
def tagLoop (s : St) (wid : Nat) : List Nat → (Nat → Text) → M (Nat → Text)
  | [], f => .ok f
  | i :: is, f => do
    let g ← startLine s i f
    let t ← appendTo (s.tag i) (g i) wid
    tagLoop s wid is (put g i t)

/-- The loop over the other lines (`textblk.c:172-176`). -/
def padLoop (wid : Nat) : List Nat → (Nat → Text) → M (Nat → Text)
  | [], f => .ok f
  | i :: is, f => do
    let t ← appendTo [] (f i) wid
    padLoop wid is (put f i t)

/-- The second half of `flush_block`: the block goes on the line (`textblk.c:162-189`). -/
def putBlock (wid : Nat) (s : St) : M St := do
  let loj ← appendTo s.loj s.lojLine wid
  let eng ← appendTo s.eng s.engLine wid
  let f ← tagLoop s wid (List.range s.used) s.tagLine
  let g ← padLoop wid ((List.range s.lineUsed).drop s.used) f
  return { s with
    lojLine := loj, engLine := eng, tagLine := g, width := s.width + wid, lineUsed := max s.lineUsed s.used,
    tag := fun _ => [], loj := [], eng := [], used := 0 }

/-- `flush_block` (`textblk.c:139-191`).  With more labels than the array has it reads outside. -/
def flushBlock (maxw : Int) (s : St) : M St :=
  if s.loj = [] ∧ s.eng = [] ∧ s.used = 0 then .ok s
  else if maxTags < s.used then .error .bounds
  else putBlock (blockWidth s) (if maxw < (blockWidth s + s.width : Nat) then flushLine s else s)

/-- The texts of an opening bracket in the three lines (`textblk.c:220-249`). -/
def openText : Br → String × String × String
  | .none => ("", "", "")
  | .round => ("(", "(", "(")
  | .square => ("[", "[", "[")
  | .brace => ("{", "{", "{")
  | .angle => ("<", "<", "<")
  | .ceil => (" /", "|", "|")
  | .floor => ("|", "|", " \\")
  | .triangle => ("<<", "<<", "<<")

/-- The texts of a closing bracket (`textblk.c:282-311`). -/
def closeText : Br → String × String × String
  | .none => ("", "", "")
  | .round => (")", ")", ")")
  | .square => ("]", "]", "]")
  | .brace => ("}", "}", "}")
  | .angle => (">", ">", ">")
  | .ceil => ("\\", " |", " |")
  | .floor => (" |", " |", "/")
  | .triangle => (">>", ">>", ">>")

/-- `sprintf` of a bracket and its number (`textblk.c:251-263`, `313-325`).  The texts are short; the number is not
checked against the buffer, as an `int` has at most 11 characters. -/
def setBracket (t : String × String × String) (n : Nat) (s : St) : St :=
  { s with
    loj := t.1.toList ++ [' '], eng := t.2.1.toList ++ [' '],
    tag := put (put s.tag 0 (t.2.2.toList ++ [' '])) 1 ((toString n).toList ++ [' ']), used := 2 }

/-- `write_open_bracket` (`textblk.c:205-267`). -/
def writeOpen (maxw : Int) (b : Br) (n : Nat) (s : St) : M St :=
  if b = .none then .ok s
  else (flushBlock maxw s).map fun u => setBracket (openText b) n (clearEols u)

/-- `write_close_bracket` (`textblk.c:269-329`): labels without a text are not flushed. -/
def writeClose (maxw : Int) (b : Br) (n : Nat) (s : St) : M St :=
  if b = .none then .ok s
  else (if s.loj ≠ [] ∨ s.eng ≠ [] then flushBlock maxw s else .ok s).map (setBracket (closeText b) n)

/-- `write_lojban_text` (`textblk.c:330-342`). -/
def writeLojban (maxw : Int) (text : String) (s : St) : M St := do
  let u ← if s.eng ≠ [] then flushBlock maxw s else .ok s
  let t ← store ((clearEols u).loj ++ text.toList ++ [' '])
  return { clearEols u with loj := t }

/-- What `write_special` and `write_translation` append (`textblk.c:343-361`). -/
def engText (text : String) : Text :=
  if text.toList.head? = some '$' then
    if text = "$LEFTARROW" then "<-".toList
    else if text = "$OPENQUOTE" then "\"".toList
    else if text = "$CLOSEQUOTE" then "\"".toList
    else []
  else text.toList ++ [' ']

/-- `write_translation` (`textblk.c:353-361`). -/
def writeTranslation (text : String) (s : St) : M St :=
  (store (s.eng ++ engText text)).map fun t => { s with eng := t }

/-- `start_tags` (`textblk.c:367-374`). -/
def startTags (maxw : Int) (s : St) : M St :=
  (if s.loj ≠ [] ∨ s.eng ≠ [] then flushBlock maxw s else .ok s).map fun u => { clearEols u with first := true }

/-- What `write_tag_text` appends (`textblk.c:387-399`).  Its own buffers of 65536 characters overflow only where
`tag_text` does. -/
def tagText (brivla place trans : String) (brac : Bool) : Text :=
  brivla.toList ++ place.toList ++ [' '] ++ (if brac then "(".toList ++ trans.toList ++ ") ".toList else trans.toList ++ [' '])

/-- The calls of the driver (`textblk.c:193-196`, `375-385`, `401-422`).  `eolsOf` gives the ends of lines after a
word. -/
def step (maxw : Int) (eolsOf : Nat → Nat) (s : St) : Call → M St
  | .opened b n => writeOpen maxw b n s
  | .closed b n => writeClose maxw b n s
  | .lojban t => writeLojban maxw t s
  | .translation t => writeTranslation t s
  | .eols w => .ok { s with pending := s.pending + eolsOf w }
  | .startTags => startTags maxw s
  | .endTags => .ok { s with used := s.used + 1 }
  | .startTag => .ok { s with used := if s.first then s.used else s.used + 1, first := false }
  | .tagText a b c d => putTag s s.used (s.tag s.used ++ tagText a b c d)
  | .tagPart t => putTag s s.used (s.tag s.used ++ t.toList)

/-- `write_epilog` (`textblk.c:198-204`). -/
def epilog (maxw : Int) (s : St) : M St := (flushBlock maxw s).map flushLine

/-- All calls. -/
def steps (maxw : Int) (eolsOf : Nat → Nat) : St → List Call → M St
  | s, [] => .ok s
  | s, c :: cs => do steps maxw eolsOf (← step maxw eolsOf s c) cs

/-- What a display prints with this driver (`do_output`). -/
def display (maxw : Int) (eolsOf : Nat → Nat) (cs : List Call) : M (List Group) := do
  let s ← steps maxw eolsOf initialise cs
  return (← epilog maxw s).out

end Jbo.TextBlk
