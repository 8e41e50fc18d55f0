import Verif.Cm
import Verif.CmScan
import Verif.Main
/-!
# `cm_main.c` and the plain formats of `cm_output.c`

The whole of `cmafihe`, from the arguments to what is printed.  The format `OF_PLIST` is compiled in only with `PLIST` and is not modelled.
-/

namespace Jbo.CmMain
open Jbo.CmTrans (Word)
open Jbo.Cm Jbo.CmScan

/-- `ofmt` (`cm.h`). -/
inductive Fmt
  | text | latex | textblk
deriving DecidableEq, Repr

/-- The values set by the arguments (`cm_main.c:26-30`). -/
structure Opts where
  fmt : Fmt := .text
  width : Int := 80
  file : Option Word := none
deriving DecidableEq, Repr

/-- How the loop over the arguments ends; `null` if `atoi` gets the null pointer after the last argument. -/
inductive Parsed
  | run (o : Opts)
  | quit
  | null
deriving DecidableEq, Repr

/-- The loop over the arguments (`cm_main.c:32-61`), without the messages. -/
def parse (o : Opts) : List Word → Parsed
  | [] => .run o
  | a :: r =>
    if a = "-l".toList then parse { o with fmt := .latex } r
    else if a = "-b".toList then parse { o with fmt := .textblk } r
    else if a = "-w".toList then match r with
      | [] => .null
      | b :: r' => parse { o with width := Main.atoi b } r'
    else if a = "-v".toList then .quit
    else if a = "-h".toList ∨ a = "--help".toList then .quit
    else parse { o with file := some a } r

/-- The actions of the scanner (`cm_scan.l:48-63`), with `gather_*` (`cm_gather.c:53-98`): the node that is put at the end of the list, if any. -/
def gather : Kind × Word → Option Node
  | (.brivla, w) => some (.brivla w)
  | (.cmavo, w) => some (.cmavo w)
  | (.cmene, w) => some (.cmene w)
  | (.newline, _) => some .newline
  | (.paren, w) => some (.paren w)
  | (.fallthru, _) | (.skip, _) => none

/-- `do_trans` over the list (`cm_gather.c:220-267`). -/
def doTrans (d : Word → Option Word) : List Node → Except Crash (List Ev)
  | [] => .ok []
  | n :: ns => match doNode d (fun w => some (CmTrans.translateUnknown d w)) n with
    | .error c => .error c
    | .ok e => match doTrans d ns with
      | .error c => .error c
      | .ok es => .ok (e :: es)

/-- `output`, `output_newline` and `output_paren` in the format `OF_TEXT` (`cm_output.c:165-167`, `187-189`, `206-208`). -/
def plain : Ev → Word
  | .item lojban tr selmao => lojban ++ " <".toList ++ selmao ++ "> [".toList ++ tr ++ "] ".toList
  | .newline => ['\n']
  | .paren text => '(' :: text ++ ") ".toList

/-- The same in the format `OF_LATEX` (`cm_output.c:156-164`, `184-186`, `203-205`). -/
def latex : Ev → Word
  | .item lojban tr selmao =>
    "\\begin{tabular}[t]{l}\\textbf{\\footnotesize ".toList ++ lojban ++ "}\\\\\n\\textrm{\\footnotesize ".toList ++ selmao ++
      "}\\\\\n\\textit{\\footnotesize ".toList ++ tr ++ "}\n\\end{tabular}\n\\rule{0in}{1.0\\baselineskip}".toList
  | .newline => "\n\n".toList
  | .paren text => "\\textrm{\\footnotesize ".toList ++ text ++ "}".toList

/-- What `start_output` prints in the format `OF_LATEX` (`cm_output.c:95-106`). -/
def preamble : Word :=
  ("\\documentclass[10pt]{article}\n\\usepackage{geometry}\n" ++
   "\\geometry{left=0.5in,right=0.5in,top=0.5in,bottom=0.5in,a4paper}\n\\def\\rmdefault{bch}\n\\setlength{\\parindent}{0pt}\n" ++
   "\\setlength{\\parskip}{1ex plus0.5ex minus0.5ex}\n\\setlength{\\baselineskip}{10pt}\n\\def\\arraystretch{0.7}\n\\begin{document}\n").toList

/-- `start_output`, `do_output`, `end_output`, `output_newline` (`cm_main.c:83-86`). -/
def display (o : Opts) (es : List Ev) : Except Crash Word :=
  match o.fmt with
  | .text => .ok (es.flatMap plain ++ ['\n'])
  | .latex => .ok (preamble ++ es.flatMap latex ++ "\\end{document}\n".toList ++ "\n\n".toList)
  | .textblk => match textBlocks o.width es with
    | .error c => .error c
    | .ok out => .ok (out ++ ['\n'])

/-- The scanner, translation and output on a text (`cm_main.c:75-86`).  `yylex` does not stop early (`CmScan.scan_all`). -/
def gloss (d : Word → Option Word) (o : Opts) (text : Word) : Except Crash Word :=
  match doTrans d (((scan text.length 0 text).getD []).filterMap gather) with
  | .error c => .error c
  | .ok es => display o es

/-- What the program does. -/
inductive Outcome
  | prints (out : Word)
  | quits (status : Nat)
  | crash (c : Crash)
  | null
deriving DecidableEq, Repr

/-- `main` (`cm_main.c:23-88`); `files` are the files that can be opened. -/
def main (d : Word → Option Word) (files : Word → Option Word) (stdin : Word) (args : List Word) : Outcome :=
  match parse {} args with
  | .quit => .quits 0
  | .null => .null
  | .run o =>
    match (match o.file with | none => some stdin | some f => files f) with
    | none => .quits 1
    | some text => match gloss d o text with
      | .error c => .crash c
      | .ok out => .prints out

end Jbo.CmMain
