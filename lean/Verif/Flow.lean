import Verif.Output
/-!
# Model of `textout.c`, `htmlout.c` and `latex.c`: the display in running text

The three drivers keep the same variables and differ in what they print.  A call gives pieces (`Tok`), and each driver
has its own way to print a piece (`printed`).
-/

namespace Jbo.Flow
open Jbo.Output (Br Call)

abbrev Text := List Char

inductive Driver
  | text | html | latex
deriving DecidableEq, Repr

/-- `States` (`textout.c:17-22`, `htmlout.c:17-22`, `latex.c:18-23`). -/
inductive Ph
  | opened | text | closed | start
deriving DecidableEq, Repr

/-- A piece of the output: a blank or end of line, a Lojban text, a gloss, a bracket, a part of labels. -/
inductive Tok
  | blank (s : String)
  | word (s : String)
  | gloss (s : String)
  | opened (b : Br) (n : Nat)
  | closed (b : Br) (n : Nat)
  | tagsStart
  | tagsEnd
  | tagsNext
  | tagText (brivla place trans : String) (brac : Bool)
  | tagPart (s : String)
deriving DecidableEq, Repr

/-- The variables (`textout.c:24`, `63`, `279`; `htmlout.c:24`, `66`, `330`; `latex.c:25`, `85`, `374`) and what has been
given out. -/
structure St where
  state : Ph
  pending : Nat
  first : Bool
  out : List Tok

/-- `initialise` (`textout.c:30-34`, `htmlout.c:31-35`, `latex.c:32-36`). -/
def initialise : St := { state := .start, pending := 0, first := false, out := [] }

def St.give (s : St) (t : Tok) : St := { s with out := s.out ++ [t] }

/-- What `clear_eols` prints (`textout.c:73`, `htmlout.c:76`, `latex.c:97-102`). -/
def eolText : Driver → Nat → String
  | .text, _ => "\n\n"
  | .html, _ => "\n<P><P>\n"
  | .latex, n => if 1 < n then "\n\n\\vspace{1.50ex}" else "\n\n\\vspace{1.00ex}"

/-- `clear_eols` (`textout.c:69-77`, `htmlout.c:72-80`, `latex.c:91-106`). -/
def clearEols (d : Driver) (s : St) : St :=
  if 0 < s.pending then { s.give (.blank (eolText d s.pending)) with state := .opened, pending := 0 } else s

/-- The first `switch` of a function that begins something (`textout.c:103-112`, `htmlout.c:107-116`,
`latex.c:132-141`). -/
def apart (sep : String) (s : St) : St :=
  match s.state with
  | .start | .opened => s
  | .text | .closed => s.give (.blank sep)

/-- `write_open_bracket` (`textout.c:98-143`, `htmlout.c:102-153`, `latex.c:127-183`). -/
def writeOpen (d : Driver) (b : Br) (n : Nat) (s : St) : St :=
  let u := apart " " (clearEols d s)
  { (if b = .none then u else u.give (.opened b n)) with state := .opened }

/-- The first `switch` of `write_close_bracket` (`textout.c:158-167`, `htmlout.c:168-177`, `latex.c:198-207`). -/
def closeGap (s : St) : St :=
  match s.state with
  | .opened => s.give (.blank " ")
  | .start | .closed | .text => s

/-- `write_close_bracket` (`textout.c:154-198`, `htmlout.c:164-214`, `latex.c:194-249`). -/
def writeClose (b : Br) (n : Nat) (s : St) : St :=
  let u := closeGap s
  { (if b = .none then u else u.give (.closed b n)) with state := .closed }

/-- What stands before a text (`textout.c:216-219`, `262-265`; `htmlout.c:270-273`, `314-317`; `latex.c:314-317`,
`358-361`). -/
def textSep : Driver → String
  | .text => " "
  | .html | .latex => "\n"

/-- `write_lojban_text` (`textout.c:207-226`, `htmlout.c:262-279`, `latex.c:306-323`) and `write_translation`
(`textout.c:253-276`, `htmlout.c:306-327`, `latex.c:350-371`). -/
def writeText (d : Driver) (t : Tok) (s : St) : St :=
  { (apart (textSep d) s).give t with state := .text }

/-- The calls of a driver; `end_tags` sets `state` only in `textout.c` (`textout.c:297-303`, `htmlout.c:348-352`,
`latex.c:392-396`); the others are `set_eols` (`textout.c:83-87`, `htmlout.c:86-90`, `latex.c:112-116`), `start_tags`
(`textout.c:285-290`, `htmlout.c:336-341`, `latex.c:380-385`), `start_tag` (`textout.c:311-318`, `htmlout.c:359-366`,
`latex.c:403-410`), `write_tag_text` and `write_partial_tag_text` (`textout.c:332-346`, `htmlout.c:378-391`,
`latex.c:412-424`). -/
def step (d : Driver) (eolsOf : Nat → Nat) (s : St) : Call → St
  | .opened b n => writeOpen d b n s
  | .closed b n => writeClose b n s
  | .lojban t => writeText d (.word t) s
  | .translation t => writeText d (.gloss t) s
  | .eols w => { s with pending := s.pending + eolsOf w }
  | .startTags => { s.give .tagsStart with first := true }
  | .endTags => { s.give .tagsEnd with state := if d = .text then .closed else s.state }
  | .startTag => { (if s.first then s else s.give .tagsNext) with first := false }
  | .tagText a b c e => s.give (.tagText a b c e)
  | .tagPart t => s.give (.tagPart t)

/-- All calls. -/
def pieces (d : Driver) (eolsOf : Nat → Nat) (cs : List Call) : List Tok := (cs.foldl (step d eolsOf) initialise).out

/-! ## What is printed -/

/-- A write outside of an array. -/
inductive Crash
  | bounds
deriving DecidableEq, Repr

abbrev M := Except Crash

/-- The buffers of `make_htmlsafe` and `make_texsafe` (`htmlout.c:227`, `latex.c:263`). -/
def bufSize : Nat := 65536

/-- The characters that `make_htmlsafe` replaces (`htmlout.c:233-244`). -/
def htmlCode : Char → Option String
  | '&' => some "&amp;"
  | '<' => some "&lt;"
  | '>' => some "&gt;"
  | _ => none

theorem htmlCode_pos {c : Char} {r : String} (h : htmlCode c = some r) : 0 < r.toList.length := by
  unfold htmlCode at h
  split at h <;> first | (cases h; decide) | cases h

/-- The loop of `make_htmlsafe` (`htmlout.c:231-249`): a replacement does not advance `p`.  `acc` is what is in the
buffer; `strcpy` also writes the NUL. -/
def htmlLoop : Text → Text → M Text
  | [], acc => if acc.length < bufSize then .ok acc else .error .bounds
  | c :: p, acc =>
    match _h : htmlCode c with
    | some r => if acc.length + r.toList.length < bufSize then htmlLoop (c :: p) (acc ++ r.toList) else .error .bounds
    | none => if acc.length < bufSize then htmlLoop p (acc ++ [c]) else .error .bounds
termination_by p acc => (bufSize - acc.length) + p.length
decreasing_by
  · have := htmlCode_pos _h; simp; omega
  · simp; omega

/-- `make_htmlsafe` (`htmlout.c:224-253`). -/
def htmlSafe (s : Text) : M Text := htmlLoop s []

/-- What `make_texsafe` writes for a character (`latex.c:268-292`). -/
def texCode (c : Char) : Text :=
  if c ∈ ['^', '&', '{', '}', '%', '_', '#'] then ['\\', c]
  else if c ∈ ['<', '>'] then ['$', c, '$']
  else [c]

/-- `make_texsafe` (`latex.c:260-297`). -/
def texSafe (s : Text) : M Text :=
  if (s.flatMap texCode).length < bufSize then .ok (s.flatMap texCode) else .error .bounds

/-- `write_special` (`textout.c:235-245`, `htmlout.c:288-298`, `latex.c:332-342`). -/
def special : Driver → String → String
  | .text, t => if t = "$LEFTARROW" then "<-" else if t = "$OPENQUOTE" then "``" else if t = "$CLOSEQUOTE" then "''" else ""
  | .html, t =>
    if t = "$LEFTARROW" then "&lt;-" else if t = "$OPENQUOTE" then "<FONT SIZE=+2>&quot;</FONT>"
    else if t = "$CLOSEQUOTE" then "<FONT SIZE=+2>&quot;</FONT>" else ""
  | .latex, t =>
    if t = "$LEFTARROW" then "{\\reflectbox{\\zd\\char233}}" else if t = "$OPENQUOTE" then "``"
    else if t = "$CLOSEQUOTE" then "''" else ""

/-- The opening brackets (`textout.c:114-139`, `htmlout.c:118-149`, `latex.c:143-175`). -/
def openMark : Driver → Br → String
  | _, .none => ""
  | .text, .round => "("
  | .text, .square => "["
  | .text, .brace => "{"
  | .text, .angle => "<"
  | .text, .ceil => "^"
  | .text, .floor => "^"
  | .text, .triangle => "<<"
  | .html, .round => "("
  | .html, .square => "["
  | .html, .brace => "{"
  | .html, .angle => "&lt;"
  | .html, .ceil => "("
  | .html, .floor => "("
  | .html, .triangle => "&lt;&lt;"
  | .latex, .round => "("
  | .latex, .square => "["
  | .latex, .brace => "\\{"
  | .latex, .angle => "$\\langle$"
  | .latex, .ceil => "$\\lceil$"
  | .latex, .floor => "$\\lfloor$"
  | .latex, .triangle => "{\\large{} $\\triangleleft$}"

/-- The closing brackets (`textout.c:169-194`, `htmlout.c:179-210`, `latex.c:209-241`). -/
def closeMark : Driver → Br → String
  | _, .none => ""
  | .text, .round => ")"
  | .text, .square => "]"
  | .text, .brace => "}"
  | .text, .angle => ">"
  | .text, .ceil => "^"
  | .text, .floor => "^"
  | .text, .triangle => ">>"
  | .html, .round => ")"
  | .html, .square => "]"
  | .html, .brace => "}"
  | .html, .angle => "&gt;"
  | .html, .ceil => ")"
  | .html, .floor => ")"
  | .html, .triangle => "&gt;&gt;"
  | .latex, .round => ")"
  | .latex, .square => "]"
  | .latex, .brace => "\\}"
  | .latex, .angle => "$\\rangle$"
  | .latex, .ceil => "$\\rceil$"
  | .latex, .floor => "$\\rfloor$"
  | .latex, .triangle => "{\\large{} $\\triangleright$}"

/-- The number after a bracket: none in `textout.c`, `PRINT_SUB` (`htmlout.c:92`), and `latex.c:148` with the blank of
`latex.c:177-179`, `243-245`. -/
def subscript : Driver → Nat → Text
  | .text, _ => []
  | .html, n => "<SUB><FONT SIZE=\"-3\">".toList ++ (toString n).toList ++ "</FONT></SUB>".toList
  | .latex, n => "{}$^{\\textit{\\scriptsize ".toList ++ (toString n).toList ++ "}}$ ".toList

/-- The escaping that a driver uses for glosses: none in `textout.c`. -/
def safe : Driver → Text → M Text
  | .text, t => .ok t
  | .html, t => htmlSafe t
  | .latex, t => texSafe t

/-- Text around something. -/
def within (a : String) (t : Text) (b : String) : Text := a.toList ++ t ++ b.toList

/-- How a piece is printed, see the functions above for the lines.  Lojban text is not escaped
(`htmlout.c:276`, `latex.c:320`), nor is a part of a label (`htmlout.c:390`, `latex.c:423`). -/
def printed (d : Driver) : Tok → M Text
  | .blank s => .ok s.toList
  | .word s => .ok (match d with
    | .text => s.toList
    | .html => within "<B>" s.toList "</B>"
    | .latex => within "\\mbox{\\textbf{" s.toList "}\\/}")
  | .gloss s =>
    if s.toList.head? = some '$' then .ok (special d s).toList
    else (safe d s.toList).map fun t => match d with
      | .text => within "/" t "/"
      | .html => within "<I>" t "</I>"
      | .latex => within "\\textsl{\\small{}" t "}"
  | .opened b n => .ok ((openMark d b).toList ++ subscript d n)
  | .closed b n => .ok ((closeMark d b).toList ++ subscript d n)
  | .tagsStart => .ok (match d with
    | .text => "[".toList
    | .html => "<U><FONT SIZE=-1>[".toList
    | .latex => "\\textsl{\\footnotesize{}[}".toList)
  | .tagsEnd => .ok (match d with
    | .text => ":]".toList
    | .html => ":] </FONT></U>".toList
    | .latex => "\\textsl{\\footnotesize{}~:] }".toList)
  | .tagsNext => .ok (match d with
    | .text => ", ".toList
    | .html => ", ".toList
    | .latex => "\\textsl{\\footnotesize{}, }\n".toList)
  | .tagText a b c e => (safe d c.toList).map fun t =>
    let u := a.toList ++ b.toList ++ (if e then within " (" t ")" else within " " t "")
    match d with
    | .text => u
    | .html => u ++ ['\n']
    | .latex => within "\\textsl{\\footnotesize{}" u "}\n"
  | .tagPart s => .ok (match d with
    | .text | .html => s.toList
    | .latex => within "\\textsl{\\footnotesize{}" s.toList "}\n")

/-- All pieces. -/
def printAll (d : Driver) : List Tok → M Text
  | [] => .ok []
  | t :: ts => do
    let a ← printed d t
    let b ← printAll d ts
    return a ++ b

/-- What a display prints, without prologue and epilogue. -/
def display (d : Driver) (eolsOf : Nat → Nat) (cs : List Call) : M Text := printAll d (pieces d eolsOf cs)

end Jbo.Flow
