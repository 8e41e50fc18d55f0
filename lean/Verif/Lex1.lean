import Verif.Token
import Verif.CmavoTable
/-!
# The first lexer stage: `lex1.c`

`parse_file` cuts the input into words and hands each to `process_word`, which builds tokens.
Simplified throughout: the 65536-byte word buffers are unbounded, and the input contains no NUL
byte.  `morf_scan` is a parameter here (it is modelled in `Morf`).
-/

namespace Jbo.Lex1

open Jbo

/-! ## Scanner -/

/-- What the scanner hands on: a call `process_word(w, line, col)` or a call `mark_eol()`. -/
inductive Event
  | word (w : Word) (line col : Nat)
  | eol
deriving DecidableEq, Repr

/-- The local variables of `parse_file` (`lex1.c:382-399`). `buf` is the text between `buffer`
and `p`. -/
structure Scan where
  buf : Word
  line : Nat
  col : Nat
  startLine : Nat
  startCol : Nat
  newTok : Bool
  depth : Nat
deriving DecidableEq, Repr

/-- Initial values (`lex1.c:387-399`). -/
def Scan.init : Scan := ⟨[], 1, 0, 1, 0, true, 0⟩

/-- `CLOSE_TOKEN` (`lex1.c:363-369`). -/
def closeToken (s : Scan) : Scan × List Event :=
  if s.buf ≠ [] then ({ s with newTok := true, buf := [] }, [.word s.buf s.startLine s.startCol])
  else (s, [])

/-- `SET_START` (`lex1.c:371`). -/
def setStart (s : Scan) : Scan :=
  if s.newTok then { s with newTok := false, startLine := s.line, startCol := s.col } else s

/-- The table `numbers` and the replacement for `:` (`lex1.c:416-427`). -/
def charWord : Char → Option Word
  | '0' => some ['n', 'o'] | '1' => some ['p', 'a'] | '2' => some ['r', 'e']
  | '3' => some ['c', 'i'] | '4' => some ['v', 'o'] | '5' => some ['m', 'u']
  | '6' => some ['x', 'a'] | '7' => some ['z', 'e'] | '8' => some ['b', 'i']
  | '9' => some ['s', 'o'] | ':' => some ['p', 'i', '\'', 'e']
  | _ => none

/-- The characters listed in the `switch` (`lex1.c:430-435`). -/
def isSep (c : Char) : Bool :=
  c == ' ' || c == '\t' || c == '\n' || c == '.' || c == '(' || c == '>'

/-- One round of the `do` loop (`lex1.c:400-453`); `none` is EOF.  The result state is `none`
when the loop is left by `goto done`. -/
def step (s0 : Scan) (c : Option Char) : Option Scan × List Event :=
  let s := { s0 with col := s0.col + 1 }
  if s.depth > 0 then
    if c = some ')' then (some { s with depth := s.depth - 1, newTok := true }, [])
    else if c = some '(' then (some { s with depth := s.depth + 1 }, [])
    else if c = some '\n' then (some { s with line := s.line + 1, col := 0 }, [])
    else (some s, [])
  else
    match c with
    | none => (none, (closeToken s).2)
    | some c =>
      match charWord c with
      | some w =>
        let (s1, ev) := closeToken s
        let s2 := setStart s1
        (some s2, ev ++ [.word w s2.startLine s2.startCol])
      | none =>
        if isSep c then
          let (s1, ev) := closeToken s
          let (s2, ev2) :=
            if c = '\n' then ({ s1 with line := s1.line + 1, col := 0 }, ev ++ [Event.eol])
            else (s1, ev)
          (some (if c = '(' then { s2 with depth := 1 } else s2), ev2)
        else
          let s1 := setStart s
          (some { s1 with buf := s1.buf ++ [c] }, [])

/-- The `do` loop over the rest of the file.  The flag tells whether the loop ends: when EOF is
read and the loop is not left, `fgetc` returns EOF for ever (see `eof_in_comment_stuck`). -/
def run (s : Scan) : List Char → List Event × Bool
  | [] => ((step s none).2, (step s none).1.isNone)
  | c :: cs =>
    match step s (some c) with
    | (none, ev) => (ev, true)
    | (some s', ev) => (ev ++ (run s' cs).1, (run s' cs).2)

/-- The calls made by `parse_file` on a text and whether it returns (`lex1.c:380-455`). -/
def scan (text : List Char) : List Event × Bool := run Scan.init text

/-! ## cmavo lookup -/

/-- `tab1` (`lex1.c:38-43`). -/
def tab1 : List Int :=
  [-1, 1, 2, 3, -1, 4, 5, -1, -1, 6, 7, 8, 9, 10, -1, 11, -1, 12, 13, 14, -1, 15, -1, 16, -1, 17]

/-- `tab2` (`lex1.c:45-50`). -/
def tab2 : List Int :=
  [1, -1, -1, -1, 2, -1, -1, -1, 3, -1, -1, -1, -1, -1, 4, -1, -1, -1, -1, -1, 5, -1, -1, -1, 6, -1]

/-- `tab[*p - 'a']`; the terminating NUL and characters outside `a..z` index outside the
array. -/
def tabAt (t : List Int) : Word → Except Crash Int
  | [] => .error .outOfBounds
  | c :: _ =>
    if 'a'.toNat ≤ c.toNat then
      match t[c.toNat - 'a'.toNat]? with
      | some v => .ok v
      | none => .error .outOfBounds
    else .error .outOfBounds

/-- `*p == '\''` -/
def atApos (p : Word) : Bool := p.head? == some '\''

/-- `hash_cmavo` (`lex1.c:63-93`). -/
def hashCmavo (buf : Word) : Except Crash Int := do
  let p := buf
  if atApos p then return -1
  let v ← tabAt tab1 p
  let (val, p) : Int × Word := if v > 0 then (v * 98, p.tail) else (0, p)
  if atApos p then return -1
  let v ← tabAt tab2 p
  let val := val + v * 14
  let p := p.tail
  if p = [] then return val
  let (val, p) : Int × Word :=
    if atApos p || p.head? == some ',' then (val + 7, p.tail) else (val, p)
  if atApos p then return -1
  let v ← tabAt tab2 p
  return val + v

/-- The character set of `process_cmavo` (`lex1.c:113`). -/
def cmavoChars : List Char := "abcdefgijklmnoprstuvxyz'".toList

/-- `cmavo_table[h]`: a non-empty cell, if there is one at index `h`. -/
def cellAt (h : Nat) : Option CmavoCell := cmavoCells.find? (fun e => e.idx == h)

/-- A token with the position and end-of-line count fields of `struct treenode`
(`nodes.h:368-398`). -/
structure PTok where
  tok : Tok
  line : Nat
  col : Nat
  eols : Nat
deriving DecidableEq, Repr

/-- The static variables `zoi_form`, `zoi_delim_next`, `zoi_delim`, `zoi_start_*`, `zoi_data`
(`lex1.c:21-25`). `delim` is "`zoi_delim_next` set", `text` is "`zoi_data` not NULL". -/
inductive Zoi
  | idle
  | delim (form : Word) (line col : Nat)
  | text (form delim data : Word) (line col : Nat)
deriving DecidableEq, Repr

/-- Lexer state: the zoi variables, the token list (`lex2.c:toks`) and `had_bad_tokens`. -/
structure LexState where
  zoi : Zoi
  toks : List PTok
  bad : Bool
deriving DecidableEq, Repr

/-- State on entry to `parse_file` (`lex1.c:392-393`; `lex2.c` starts with an empty list). -/
def LexState.init : LexState := ⟨.idle, [], false⟩

/-- `add_token` (`lex2.c:60-66`) of a new node. -/
def addTok (st : LexState) (t : Tok) (line col : Nat) : LexState :=
  { st with toks := st.toks ++ [⟨t, line, col, 0⟩] }

/-- `mark_eol` (`lex2.c:73-76`).  On an empty list the C code counts in the list head, which
nobody reads; here nothing happens. -/
def markEol (st : LexState) : LexState :=
  match st.toks.getLast? with
  | none => st
  | some t => { st with toks := st.toks.dropLast ++ [{ t with eols := t.eols + 1 }] }

/-- `process_cmavo` (`lex1.c:103-146`). The spelling is kept in the token instead of the code. -/
def processCmavo (buf : Word) (line col : Nat) (st : LexState) : Except Crash LexState :=
  if buf.all (fun c => cmavoChars.contains c) then do
    let h ← hashCmavo buf
    let hit : Option CmavoCell :=
      if 0 ≤ h ∧ h ≤ 1750 then
        match cellAt h.toNat with
        | some e => if e.word = buf then some e else none
        | none => none   -- the cell holds "" and `buf` is not empty here
      else none
    match hit with
    | some e => return addTok st (.cmavo e.sel e.word) line col
    | none => return addTok { st with bad := true } (.garbage buf) line col
  else
    return { st with bad := true }

/-! ## Words -/

/-- `MorfType` (`morf.h`); the four stage-3 fu'ivla codes are kept apart as in C. -/
inductive MorfType
  | bogus | gismu | lujvo | fuivla3 | fuivla3Cvc | fuivla3x | fuivla3xCvc | fuivla4
  | cmavos | cmene | badUppercase
deriving DecidableEq, Repr

/-- What `morf_scan` returns (`morf.c:203-685`): the type, the offsets stored in
`word_starts[0..*buf_end]`, and for a cmene whether it is bad, and the offsets `ladoi` and `tail`
(`none`: left uninitialised). -/
structure MorfOut where
  type : MorfType
  starts : List Nat
  isBad : Bool
  ladoi : Option Nat
  tail : Option Nat
deriving DecidableEq, Repr

/-- The pieces between consecutive word starts, and the last one up to the end of the word
(`lex1.c:220-226`, `344-350`). -/
def pieces (w : Word) : List Nat → List Word × Word
  | [] => ([], w)
  | [a] => ([], w.drop a)
  | a :: b :: rest =>
    let (ps, l) := pieces w (b :: rest)
    ((w.drop a).take (b - a) :: ps, l)

/-- `add_preceding_cmavo` and the loop for `MT_CMAVOS` (`lex1.c:214-230`, `344-353`): process
pieces in turn, advancing the column by their length. -/
def cmavoRun (line : Nat) : List Word → Nat → LexState → Except Crash (Nat × LexState)
  | [], col, st => .ok (col, st)
  | p :: ps, col, st => do
    let st ← processCmavo p line col st
    cmavoRun line ps (col + p.length) st

/-- `process_word` with `process_cmene` and `add_brivla_token` inlined (`lex1.c:158-361`).
The recursive calls for a bad cmene go to substrings; a call on a string of the same length would
be a call with identical arguments and never return. -/
def processWord (morf : Word → MorfOut) (buf : Word) (line col : Nat) (st : LexState) :
    Except Crash LexState :=
  match st.zoi with
  | .text form delim data l c =>
    if buf = delim then
      .ok { addTok st (.zoi form delim data) l c with zoi := .idle }
    else
      let data := if data ≠ [] then data ++ [' '] else data
      .ok { st with zoi := .text form delim (data ++ buf) l c }
  | .delim form l c =>
    if buf.length < 64 then .ok { st with zoi := .text form buf [] l c }
    else .error .outOfBounds
  | .idle =>
    if buf = "zoi".toList then .ok { st with zoi := .delim "zoi".toList line col }
    else if buf = "la'o".toList then .ok { st with zoi := .delim "la'o".toList line col }
    else
      let m := morf buf
      match m.type with
      | .bogus => .ok { st with bad := true }
      | .badUppercase => .ok { st with bad := true }
      | .cmavos => do
        let (ps, l) := pieces buf m.starts
        let (_, st) ← cmavoRun line (ps ++ [l]) col st
        return st
      | .cmene =>
        if m.isBad then
          match m.ladoi, m.tail with
          | some a, some b =>
            if a ≤ b ∧ b ≤ buf.length ∧ b - a < 8 then do
              let pre := buf.take a
              let la := (buf.drop a).take (b - a)
              let tl := buf.drop b
              let st ←
                if pre ≠ [] then
                  if _h : pre.length < buf.length then processWord morf pre line col st
                  else .error .diverge
                else .ok st
              let st ←
                if _h : la.length < buf.length then processWord morf la line (col + a) st
                else .error .diverge
              if _h : tl.length < buf.length then processWord morf tl line (col + a + (b - a)) st
              else .error .diverge
            else .error .outOfBounds
          | _, _ => .error .uninit
        else .ok (addTok st (.cmene buf) line col)
      | _ => do
        let (ps, l) := pieces buf m.starts
        let (col, st) ← cmavoRun line ps col st
        return addTok st (.brivla l) line col
termination_by buf.length
decreasing_by all_goals assumption

/-- The calls made by the scanner, in order. -/
def processEvents (morf : Word → MorfOut) : List Event → LexState → Except Crash LexState
  | [], st => .ok st
  | .eol :: es, st => processEvents morf es (markEol st)
  | .word w l c :: es, st => do
    let st ← processWord morf w l c st
    processEvents morf es st

/-- `parse_file` (`lex1.c:380-464`) from a fresh state. -/
def parseFile (morf : Word → MorfOut) (text : List Char) : Except Crash LexState := do
  let (evs, ends) := scan text
  let st ← processEvents morf evs LexState.init
  if ends then
    match st.zoi with
    | .text .. => return { st with bad := true }
    | _ => return st
  else .error .diverge

end Jbo.Lex1
