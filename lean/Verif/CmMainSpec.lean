import Verif.CmMain
import Verif.CmSpec
import Verif.CmScanSpec
/-!
# What `cmafihe` is to print
-/

namespace Jbo.CmMain.Spec
open Jbo.CmTrans (Word)
open Jbo.Cm Jbo.CmScan Jbo.CmSpec

/-- A word without a dot in front. -/
def bare : Word → Word
  | '.' :: w => w
  | w => w

/-- What is shown for a word: the word, its gloss, its class.  Known words have the gloss of the dictionary, brivla that are not known the one made of
their parts; cmavo that are not known are cut into known ones, for the gloss and for the class separately. -/
inductive Glossed (d : Word → Option Word) (parts : Word → Word) : Word → Kind → Ev → Prop
  | brivla (w t : Word) : d w = some t → Glossed d parts w .brivla (.item w t "BRIVLA".toList)
  | lujvo (w : Word) : d w = none → Glossed d parts w .brivla (.item w (parts w) "BRIVLA".toList)
  | cmene (w : Word) : Glossed d parts w .cmene (.item w [] "CMENE".toList)
  | cmavo (w t : Word) : d (bare w) = some t → Glossed d parts w .cmavo (.item w t ((d ('+' :: bare w)).getD []))
  | cluster (w : Word) (ps qs : List (Word × Option Word)) : d (bare w) = none → Cover d (bare w) ps → Cover (fun x => d ('+' :: x)) (bare w) qs →
      Glossed d parts w .cmavo (.item w ([' '].intercalate (ps.map fun p => shown p.2)) ([' '].intercalate (qs.map fun p => shown p.2)))

/-- One for each, in order. -/
inductive Each {α β : Type} (R : α → β → Prop) : List α → List β → Prop
  | nil : Each R [] []
  | cons {a b as bs} : R a b → Each R as bs → Each R (a :: as) (b :: bs)

/-- An entry in the plain format: the word, the class in angles, the gloss in square brackets. -/
def inRow : Ev → Word
  | .item w g c => w ++ (" <" ++ String.ofList c ++ "> [" ++ String.ofList g ++ "] ").toList
  | .newline => ['\n']
  | .paren t => ("(" ++ String.ofList t ++ ") ").toList

/-- A text in a font of LaTeX. -/
def cell (font : String) (x : Word) : Word := ("\\" ++ font ++ "{\\footnotesize ").toList ++ x ++ ['}']

/-- An entry in LaTeX: a table of one column with the word, the class, the gloss. -/
def table : Ev → Word
  | .item w g c => "\\begin{tabular}[t]{l}".toList ++ "\\\\\n".toList.intercalate [cell "textbf" w, cell "textrm" c, cell "textit" g] ++
      "\n\\end{tabular}\n".toList ++ "\\rule{0in}{1.0\\baselineskip}".toList
  | .newline => "\n\n".toList
  | .paren t => cell "textrm" t

/-- The entries for the display in blocks: text in brackets is three, an end of line is `none`. -/
def columns : Ev → List (Option Entry)
  | .item w g c => [some ⟨w, c, g⟩]
  | .newline => [none]
  | .paren t => [some ⟨['('], ['('], ['(']⟩, some ⟨t, [], []⟩, some ⟨[')'], [')'], [')']⟩]

/-- **The displays of a list of entries.** -/
inductive Shown (o : Opts) (es : List Ev) : Word → Prop
  | text : o.fmt = .text → Shown o es ((es.map inRow).flatten ++ ['\n'])
  | latex (pre : Word) : o.fmt = .latex → "\\documentclass".toList <+: pre → "\\begin{document}\n".toList <:+ pre →
      Shown o es (pre ++ (es.map table).flatten ++ "\\end{document}\n\n\n".toList)
  | blocks (lss : List (List (List Entry))) : o.fmt = .textblk → lss.map List.flatten = paras (es.flatMap columns) →
      (∀ ls ∈ lss, Fill o.width ls.flatten ls) → Shown o es (printed lss ++ ['\n'])

/-- An argument of the command line. -/
inductive Item
  | format (f : Fmt)
  | width (v : Word)
  | file (a : Word)
  | ask
deriving DecidableEq

/-- The words that are no names of files. -/
def options : List Word := ["-l", "-b", "-w", "-v", "-h", "--help"].map String.toList

/-- A command line cut into its arguments. -/
inductive Reads : List Word → List Item → Prop
  | nil : Reads [] []
  | latex {r is} : Reads r is → Reads ("-l".toList :: r) (.format .latex :: is)
  | blocks {r is} : Reads r is → Reads ("-b".toList :: r) (.format .textblk :: is)
  | width {v r is} : Reads r is → Reads ("-w".toList :: v :: r) (.width v :: is)
  | ask {a r is} : a ∈ ["-v".toList, "-h".toList, "--help".toList] → Reads r is → Reads (a :: r) (.ask :: is)
  | file {a r is} : a ∉ options → Reads r is → Reads (a :: r) (.file a :: is)

def format? : Item → Option Fmt
  | .format f => some f
  | _ => none
def width? : Item → Option Word
  | .width v => some v
  | _ => none
def file? : Item → Option Word
  | .file a => some a
  | _ => none

/-- **The meaning of a command line**: of several formats, widths or files the last counts. -/
structure Means (is : List Item) (o : Opts) : Prop where
  fmt : o.fmt = (is.filterMap format?).getLast?.getD .text
  width : o.width = ((is.filterMap width?).getLast?.map Main.atoi).getD 80
  file : o.file = (is.filterMap file?).getLast?

end Jbo.CmMain.Spec
