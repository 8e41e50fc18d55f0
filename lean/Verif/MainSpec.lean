import Verif.Main
/-!
# What the manual says about the command line, and the meaning of the exit status
-/

namespace Jbo.Main.Spec

/-- An argument: a word, or the width with its value. -/
inductive Item
  | word (a : Word)
  | width (v : Word)
deriving DecidableEq

/-- A command line cut into its arguments: the width is `-w` with the next word, or with the rest of the same word. -/
inductive Reads : List Word → List Item → Prop
  | nil : Reads [] []
  | word {a r is} : ¬ "-w".toList <+: a → Reads r is → Reads (a :: r) (.word a :: is)
  | width {v r is} : Reads r is → Reads ("-w".toList :: v :: r) (.width v :: is)
  | glued {v r is} : v ≠ [] → Reads r is → Reads (("-w".toList ++ v) :: r) (.width v :: is)

/-- The options that are known and do not end the program. -/
def switches : List Word :=
  ["-d", "-k", "-g", "-t", "-tf", "-l", "-x", "-H", "-b", "-m", "-ie", "-re", "-se", "-sev", "-cr", "-bt", "-dd"].map String.toList

/-- The options that ask for a text and end the program. -/
def asking : List Word := ["-v", "--help", "-h", "-?"].map String.toList

/-- A word that is not an option is the name of a file. -/
def IsFile (a : Word) : Prop := a.head? ≠ some '-'

instance (a : Word) : Decidable (IsFile a) := inferInstanceAs (Decidable (_ ≠ _))

/-- An argument after which the program goes on. -/
def Fine : Item → Prop
  | .word a => a ∈ switches ∨ IsFile a
  | .width _ => True

instance : (i : Item) → Decidable (Fine i)
  | .word a => inferInstanceAs (Decidable (a ∈ switches ∨ IsFile a))
  | .width _ => .isTrue trivial

/-- The widths and the files given. -/
def width? : Item → Option Word
  | .width v => some v
  | _ => none
def file? : Item → Option Word
  | .word a => if IsFile a then some a else none
  | _ => none

/-- Whether an option is given. -/
def given (is : List Item) (s : String) : Bool := decide (.word s.toList ∈ is)

/-- **The meaning of a command line**: an option counts wherever it stands; of several widths or files the last counts. -/
structure Means (is : List Item) (o : Opts) : Prop where
  debug : o.debug = given is "-d"
  tokenLists : o.tokenLists = given is "-k"
  gloss : o.gloss = given is "-g"
  showTree : o.showTree = (given is "-t" || given is "-tf")
  fullTree : o.fullTree = given is "-tf"
  latex : o.latex = given is "-l"
  textout : o.textout = given is "-x"
  htmlout : o.htmlout = given is "-H"
  block : o.block = given is "-b"
  showMemory : o.showMemory = given is "-m"
  insertElidables : o.insertElidables = given is "-ie"
  requireElidables : o.requireElidables = given is "-re"
  showElisions : o.showElisions = (given is "-se" || given is "-sev")
  showElisionsVerbose : o.showElisionsVerbose = given is "-sev"
  cultural : o.cultural = given is "-cr"
  backtrace : o.backtrace = given is "-bt"
  defects : o.defects = given is "-dd"
  width : o.width = ((is.filterMap width?).getLast?.map atoi).getD 79
  file : o.file = (is.filterMap file?).getLast?

/-- The steps that show the text to the user. -/
def shows : Step → Bool
  | .printTree | .bracketed _ | .output _ => true
  | _ => false

/-- The kind of display, with the options that decide: the tree before the formats, LaTeX before plain text before HTML, and
without any of them the text in brackets.  Blocks are for LaTeX and plain text, glosses for the text in brackets. -/
def kind (is : List Item) : Step :=
  if given is "-t" || given is "-tf" then .printTree
  else if given is "-l" then .output (if given is "-b" then .latexBlock else .latex)
  else if given is "-x" then .output (if given is "-b" then .textBlock else .text)
  else if given is "-H" then .output .html
  else .bracketed (given is "-g")

/-- What is done with the tree: for the tree as asked with `-t`, and for the text in brackets, nodes with one child are left out, for `-tf` all
nodes are kept; before a display by a driver all passes, in this order. -/
def route (is : List Item) : List Step :=
  match kind is with
  | .printTree => if given is "-tf" then [.printTree] else [.compress, .printTree]
  | .output d => [.terms, .conversions, .tenses, .connectives, .relative, .brackets, .output d]
  | s => [.compress, s]

/-- The file is there, all words are words, and the parser finds nothing wrong. -/
def Good (w : World) (is : List Item) : Prop :=
  (∀ f, (is.filterMap file?).getLast? = some f → w.opens f = true) ∧ w.badLex = false ∧ w.badPre = false ∧ w.parser (given is "-re") = (0, false)

end Jbo.Main.Spec
