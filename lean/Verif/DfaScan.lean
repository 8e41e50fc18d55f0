/-!
# The scanner of dfasyn: `dfasyn/scan.l`

With the semantics of `flex`: the longest match, among equals the first rule; what no rule matches is copied to
the output (`yyout`, the C file that is being made).  Characters stand for bytes.
-/

namespace Jbo.DfaScan

/-- The keywords (`scan.l:23-51`). -/
inductive Kw
  | state | abbrev | define | tokens | prefix | block | endblock | type | result | earlyresult | attr | defattr
  | defresult | symbol | symresult | earlysymresult
deriving DecidableEq, Repr

/-- The ways to write them (`scan.l:23-51`). -/
def spellings : List (String × Kw) :=
  [("STATE", .state), ("State", .state), ("state", .state),
   ("ABBREV", .abbrev), ("Abbrev", .abbrev), ("abbrev", .abbrev),
   ("DEFINE", .define), ("Define", .define), ("define", .define),
   ("TOKENS", .tokens), ("Tokens", .tokens), ("tokens", .tokens),
   ("PREFIX", .prefix), ("Prefix", .prefix), ("prefix", .prefix),
   ("BLOCK", .block), ("Block", .block), ("block", .block),
   ("ENDBLOCK", .endblock), ("EndBlock", .endblock), ("Endblock", .endblock), ("endblock", .endblock),
   ("TYPE", .type), ("Type", .type), ("type", .type),
   ("RESULT", .result), ("Result", .result), ("result", .result),
   ("EARLYRESULT", .earlyresult), ("EarlyResult", .earlyresult), ("Earlyresult", .earlyresult),
   ("earlyresult", .earlyresult),
   ("ATTRIBUTE", .attr), ("ATTR", .attr), ("Attribute", .attr), ("Attr", .attr), ("attribute", .attr), ("attr", .attr),
   ("DEFATTR", .defattr), ("DefAttr", .defattr), ("Defattr", .defattr), ("defattr", .defattr),
   ("DEFRESULT", .defresult), ("DefResult", .defresult), ("Defresult", .defresult), ("defresult", .defresult),
   ("SYMBOL", .symbol), ("Symbol", .symbol), ("symbol", .symbol),
   ("SYMRESULT", .symresult), ("SymResult", .symresult), ("Symresult", .symresult), ("symresult", .symresult),
   ("EARLYSYMRESULT", .earlysymresult), ("EarlySymResult", .earlysymresult), ("EarlySymresult", .earlysymresult),
   ("Earlysymresult", .earlysymresult), ("earlysymresult", .earlysymresult)]

/-- What the scanner returns; `sign` is one of the tokens of `scan.l:55-69`. -/
inductive Tok
  | kw (k : Kw)
  | str (s : List Char)
  | arrow
  | sign (c : Char)
deriving DecidableEq, Repr

/-- `[A-Za-z0-9_.]` (`scan.l:52`). -/
def inWord (c : Char) : Bool :=
  ('A' ≤ c && c ≤ 'Z') || ('a' ≤ c && c ≤ 'z') || ('0' ≤ c && c ≤ '9') || c == '_' || c == '.'

/-- A run of such characters: a keyword is matched by its own rule too, which stands first. -/
def word (w : List Char) : Tok :=
  match spellings.find? (fun p => p.1.toList == w) with
  | some p => .kw p.2
  | none => .str w

/-- The tokens of one character (`scan.l:55-69`); `~` and `!` are both `NOT`. -/
def signOf (c : Char) : Option Tok :=
  if c = '!' then some (.sign '~')
  else if c ∈ ['=', '|', '&', '~', '^', '*', '?', ':', ';', '(', ')', '<', '>', ','] then some (.sign c)
  else none

def isBlank (c : Char) : Bool := c == ' ' || c == '\t'

inductive Mode
  | initial | passthru | str
deriving DecidableEq, Repr

/-- The start condition, whether the last character read was a line end (`^`), and `lineno`. -/
structure St where
  mode : Mode
  bol : Bool
  line : Nat
deriving DecidableEq, Repr

/-- A token with `lineno` as it is when the parser gets it, or text copied to the output. -/
inductive Ev
  | tok (line : Nat) (t : Tok)
  | leak (s : List Char)
deriving DecidableEq, Repr

/-- `^\%\{[ \t]*\n` and `^\%\}[ \t]*\n` after the `%` (`scan.l:72, 75`): what is left. -/
def fence (b : Char) (r : List Char) : Option (List Char) :=
  match r with
  | c :: r' => if c = b then
      match r'.dropWhile isBlank with
      | d :: r'' => if d = '\n' then some r'' else none
      | [] => none
    else none
  | [] => none

def notNl (c : Char) : Bool := c != '\n'
def notQuote (c : Char) : Bool := c != '"'

/-- The rules of `INITIAL` (`scan.l:23-73`).  `\#.*$` needs a line end behind the comment. -/
def initialRule (st : St) (c : Char) (r : List Char) : List Ev × St × List Char :=
  if inWord c then
    ([.tok st.line (word (c :: r.takeWhile inWord))], { st with bol := false }, r.dropWhile inWord)
  else if c = '#' then
    match r.dropWhile notNl with
    | [] => ([.leak [c]], { st with bol := false }, r)
    | d :: r' => ([], { st with bol := false }, d :: r')
  else if c = '-' then
    match r with
    | d :: r' => if d = '>' then ([.tok st.line .arrow], { st with bol := false }, r')
        else ([.leak [c]], { st with bol := false }, r)
    | [] => ([.leak [c]], { st with bol := false }, r)
  else if c = '\n' then ([], ⟨.initial, true, st.line + 1⟩, r)
  else if isBlank c then ([], { st with bol := false }, r.dropWhile isBlank)
  else if c = '"' then ([], ⟨.str, false, st.line⟩, r)
  else if c = '%' then
    match (if st.bol then fence '{' r else none) with
    | some r' => ([], ⟨.passthru, true, st.line⟩, r')
    | none => ([.leak [c]], { st with bol := false }, r)
  else match signOf c with
    | some t => ([.tok st.line t], { st with bol := false }, r)
    | none => ([.leak [c]], { st with bol := false }, r)

/-- The rules of `PASSTHRU` (`scan.l:75-77`). -/
def passRule (st : St) (c : Char) (r : List Char) : List Ev × St × List Char :=
  match (if st.bol && c == '%' then fence '}' r else none) with
  | some r' => ([], ⟨.initial, true, st.line⟩, r')
  | none =>
    if c = '\n' then ([.leak [c]], ⟨.passthru, true, st.line + 1⟩, r)
    else ([.leak (c :: r.takeWhile notNl)], { st with bol := false }, r.dropWhile notNl)

/-- The rules of `STR` (`scan.l:79-80`). -/
def strRule (st : St) (c : Char) (r : List Char) : List Ev × St × List Char :=
  if c = '"' then ([], ⟨.initial, false, st.line⟩, r)
  else ([.tok st.line (.str (c :: r.takeWhile notQuote))],
    { st with bol := (c :: r.takeWhile notQuote).getLast? == some '\n' }, r.dropWhile notQuote)

def rule (st : St) (c : Char) (r : List Char) : List Ev × St × List Char :=
  match st.mode with
  | .initial => initialRule st c r
  | .passthru => passRule st c r
  | .str => strRule st c r

/-- `yylex` until the end of the input; the first argument bounds the number of rules applied. -/
def lex : Nat → St → List Char → List Ev
  | 0, _, _ => []
  | _ + 1, _, [] => []
  | n + 1, st, c :: r => (rule st c r).1 ++ lex n (rule st c r).2.1 (rule st c r).2.2

/-- Each rule takes at least one character, so there are enough turns. -/
def scan (s : List Char) : List Ev := lex s.length ⟨.initial, true, 1⟩ s

end Jbo.DfaScan
