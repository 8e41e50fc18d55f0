import Verif.Gloss
/-!
# What is shown of a word, and which entry of the dictionary is its gloss
-/

namespace Jbo.Gloss.Spec
open Jbo.Gloss

/-- The first of these headwords that is in the dictionary gives the gloss. -/
def firstOf (look : Word → Option Word) (keys : List Word) : Option Word := keys.findSome? look

/-- The name of the place of a tense in the headwords. -/
def place : Tenses.Ctx → String
  | .term => "TERM"
  | .noun => "NOUN"
  | .selbri => "SELBRI"
  | .link => "LINK"
  | .connect => "CONNECT"
  | .jaitag => "JAI"

/-- The kinds of cmavo by the way the gloss is found. -/
inductive Kind
  | plain | silenced | tense | jai | bai | pronoun | abstractor | indicator
deriving DecidableEq, Repr

def kind (s : Terms.Sel) : Kind :=
  if s = .BAI then .bai
  else if s = .SE ∨ s = .GOI then .silenced
  else if s = .KOhA then .pronoun
  else if s = .NU then .abstractor
  else if s = .PU ∨ s = .ZAhO ∨ s = .VA ∨ s = .FAhA then .tense
  else if s = .UI ∨ s = .CAI then .indicator
  else if s = .JAI then .jai
  else .plain

/-- The letter for the role of `jai`: verb, noun or adjective. -/
def letter : Option (Bool × Bool) → Char
  | some (inSelbri, tertau) => if tertau then (if inSelbri then 'v' else 'n') else 'a'
  | none => 'a'

/-- The headwords that are tried, in order: a word in its place in the sentence before the word as such. -/
def keys (s : Terms.Sel) (p : Props) (w : Word) : List Word :=
  match kind s with
  | .silenced => if p.quiet then [] else [w]
  | .tense => (p.tense.map fun c => w ++ '@' :: (place c).toList).toList ++ [w]
  | .jai => [w ++ ['_', letter p.role], w]
  | _ => [w]

/-- The words `cai`, `sai`, `ru'e`, `cu'i`, `pei`, and whether `nai` follows. -/
def degree : Lex2.Cai → String × Bool
  | .CAI => ("cai", false)
  | .SAI => ("sai", false)
  | .RUhE => ("ru'e", false)
  | .CUhI => ("cu'i", false)
  | .PEI => ("pei", false)
  | .CAINAI => ("cai", true)
  | .SAINAI => ("sai", true)
  | .RUhENAI => ("ru'e", true)
  | .PEINAI => ("pei", true)

def degreeWord (c : Lex2.Cai) : Word := (degree c).1.toList ++ (if (degree c).2 then ['n', 'a', 'i'] else [])

/-- The word for a degree, after a blank. -/
def degreePart : Option Lex2.Cai → Word
  | some c => ' ' :: degreeWord c
  | none => []

/-- An indicator with the words that belong to it. -/
def withSuffixes (w : Word) (nai : Bool) (cai : Option Lex2.Cai) : Word :=
  w ++ (if nai then ['n', 'a', 'i'] else []) ++ degreePart cai

/-- The Lojban text of a word. -/
def spelled (p : Props) : Item → Word
  | .cmavo s w elided =>
    if s = .UI ∨ s = .CAI then withSuffixes w p.nai p.cai else if elided then w.map Char.toUpper else w
  | .zoi form term text => List.intercalate [' '] [form, term, text, term]
  | .zo text => ['z', 'o', ' '] ++ text
  | .zei withZei _ _ => withZei
  | .lohu text => List.intercalate [' '] ["lo'u".toList, text, "le'u".toList]
  | .bu w => w ++ ['.', 'b', 'u']
  | .brivla w => w
  | .cmene w => w

/-- A full stop stands before a vowel, and after a name; none beside a compound made with `zei`. -/
def stopped (x : Item) (w : Word) : Word :=
  match x with
  | .zei .. => w
  | _ => (if w.head?.all (· ∈ ['a', 'e', 'i', 'o', 'u']) then ['.'] else []) ++ w ++ (match x with | .cmene _ => ['.'] | _ => [])

/-- The part of speech of a gloss: in a selbri the last word of a tanru is a verb, in a sumti a noun; the other words qualify it. -/
def speech (inSelbri tertau : Bool) : Trans.Ctx := if tertau then (if inSelbri then .verb else .noun) else .qual

end Jbo.Gloss.Spec
