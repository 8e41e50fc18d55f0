import Mathlib.Data.List.Basic
/-!
# Model of `main.c`: the command line, the order of the passes and the exit status

Lexing, preprocessing, the parser and the passes are modelled in other modules; here they are steps with results.
-/

namespace Jbo.Main

abbrev Word := List Char

/-- The variables that the options set (`main.c:40-60`, `131-166`). -/
structure Opts where
  debug : Bool := false
  tokenLists : Bool := false
  gloss : Bool := false
  showTree : Bool := false
  fullTree : Bool := false
  latex : Bool := false
  textout : Bool := false
  htmlout : Bool := false
  block : Bool := false
  showMemory : Bool := false
  insertElidables : Bool := false
  requireElidables : Bool := false
  showElisions : Bool := false
  showElisionsVerbose : Bool := false
  cultural : Bool := false
  backtrace : Bool := false
  defects : Bool := false
  width : Int := 79
  file : Option Word := none
deriving DecidableEq, Repr

/-- The white space that `atoi` skips. -/
def blank (c : Char) : Bool := c == ' ' || ('\t' ≤ c && c ≤ '\r')

/-- The number at the start of a text. -/
def digits (n : Nat) : Word → Nat
  | c :: r => if c.isDigit then digits (10 * n + (c.toNat - '0'.toNat)) r else n
  | [] => n

/-- `atoi` of the C library, for numbers that fit into an `int`. -/
def atoi (w : Word) : Int :=
  match w.dropWhile blank with
  | '-' :: r => -(digits 0 r : Int)
  | '+' :: r => digits 0 r
  | r => digits 0 r

/-- How the loop over the arguments ends: the program goes on, or stops with a status, or `atoi` gets the null pointer after the
last argument. -/
inductive Parsed
  | run (o : Opts)
  | quit (status : Nat)
  | null
deriving DecidableEq, Repr

/-- The loop over the arguments (`main.c:168-231`), without the messages. -/
def parse (o : Opts) : List Word → Parsed
  | [] => .run o
  | a :: r =>
    if a = "-d".toList then parse { o with debug := true } r
    else if a = "-v".toList then .quit 0
    else if a = "-k".toList then parse { o with tokenLists := true } r
    else if a = "-g".toList then parse { o with gloss := true } r
    else if a = "-t".toList then parse { o with showTree := true } r
    else if a = "-tf".toList then parse { o with showTree := true, fullTree := true } r
    else if a = "-l".toList then parse { o with latex := true } r
    else if a = "-x".toList then parse { o with textout := true } r
    else if a = "-H".toList then parse { o with htmlout := true } r
    else if a = "-b".toList then parse { o with block := true } r
    else if a = "-m".toList then parse { o with showMemory := true } r
    else if a = "-ie".toList then parse { o with insertElidables := true } r
    else if a = "-re".toList then parse { o with requireElidables := true } r
    else if a = "-se".toList then parse { o with showElisions := true } r
    else if a = "-sev".toList then parse { o with showElisions := true, showElisionsVerbose := true } r
    else if a = "-cr".toList then parse { o with cultural := true } r
    else if a = "-bt".toList then parse { o with backtrace := true } r
    else if a = "-dd".toList then parse { o with defects := true } r
    else if a.take 2 = "-w".toList then
      if a.length > 2 then parse { o with width := atoi (a.drop 2) } r
      else match r with
        | [] => .null
        | b :: r' => parse { o with width := atoi b } r'
    else if a = "--help".toList then .quit 0
    else if a = "-h".toList then .quit 0
    else if a = "-?".toList then .quit 0
    else if a.take 1 = "-".toList then .quit 1
    else parse { o with file := some a } r

/-- The check of compatibility (`main.c:233-237`). -/
def compatible (o : Opts) : Opts :=
  if o.requireElidables && o.showElisions then { o with showElisions := false } else o

/-- `DriverVector` (`main.c:27-29`). -/
inductive Driver
  | latex | latexBlock | text | textBlock | html
deriving DecidableEq, Repr

/-- The calls of `main` (`main.c:248-337`). -/
inductive Step
  | lex (file : Option Word)
  | tokens
  | preprocess
  | parse (full : Bool)
  | expand | errorScan
  | compress | printTree | bracketed (gloss : Bool)
  | terms | conversions | tenses | connectives | relative | brackets
  | output (d : Driver)
  | memory
deriving DecidableEq, Repr

/-- What the steps report: whether a file can be opened, `had_bad_tokens` after the lexer and after the preprocessing, and what the
parser returns, with `had_syntax_error`. -/
structure World where
  opens : Word → Bool
  badLex : Bool
  badPre : Bool
  parser : Bool → Nat × Bool

/-- What is done with the tree (`main.c:296-330`). -/
def display (o : Opts) : List Step :=
  [.expand, .errorScan] ++
  if o.showTree then (if o.fullTree then [] else [.compress]) ++ [.printTree]
  else if o.latex || o.textout || o.htmlout then
    [.terms, .conversions, .tenses, .connectives, .relative, .brackets] ++
      if o.latex then [.output (if o.block then .latexBlock else .latex)]
      else if o.textout then [.output (if o.block then .textBlock else .text)]
      else if o.htmlout then [.output .html]
      else []
  else [.compress, .bracketed o.gloss]

/-- `print_memory_statistics` (`main.c:335-337`). -/
def memory (o : Opts) : List Step := if o.showMemory then [.memory] else []

/-- `show_tokens` (`main.c:266-269`, `278-283`). -/
def tokens (o : Opts) : List Step := if o.tokenLists then [.tokens] else []

/-- `main` after the options (`main.c:248-339`): the calls and the exit status. -/
def go (w : World) (o : Opts) : List Step × Nat :=
  if o.file.any (! w.opens ·) then ([], 1)
  else if w.badLex then ([.lex o.file], 3)
  else if w.badPre then (.lex o.file :: tokens o ++ [.preprocess], 3)
  else
    let p := w.parser o.requireElidables
    (.lex o.file :: tokens o ++ [.preprocess] ++ tokens o ++ [.parse o.requireElidables] ++
      (if p.1 = 0 ∧ p.2 = false then display o else []) ++ memory o,
     if p.1 ≠ 0 then 1 else if p.2 then 2 else 0)

/-- How the program ends. -/
inductive End
  | exit (steps : List Step) (status : Nat)
  | null
deriving DecidableEq, Repr

/-- `main` (`main.c:128-340`), for passes that end. -/
def main (w : World) (args : List Word) : End :=
  match parse {} args with
  | .quit s => .exit [] s
  | .null => .null
  | .run o => .exit (go w (compatible o)).1 (go w (compatible o)).2

end Jbo.Main
