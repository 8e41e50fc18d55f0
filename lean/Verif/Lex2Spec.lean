import Verif.Lex2

/-!
# Specification of quotation, compounding, emphasis and indicator folding

Independent of the passes: reading the result aloud, and what the text says.
-/

namespace Jbo.Lex2Spec
open Jbo Lex2

/-- What a quoted, named or compounded token contributes as text. -/
def wordOf : Tok → Option Word
  | .garbage w | .cmavo _ w | .brivla w | .cmene w => some w
  | _ => none

def naiTok : Tok := .cmavo .NAI "nai".toList
def caiTok (w : String) : Tok := .cmavo .CAI w.toList

/-- The words an attached intensity stands for. -/
def caiWords : Cai → List Tok
  | .CAI => [caiTok "cai"]
  | .SAI => [caiTok "sai"]
  | .RUhE => [caiTok "ru'e"]
  | .CUhI => [caiTok "cu'i"]
  | .PEI => [caiTok "pei"]
  | .CAINAI => [caiTok "cai", naiTok]
  | .SAINAI => [caiTok "sai", naiTok]
  | .RUhENAI => [caiTok "ru'e", naiTok]
  | .PEINAI => [caiTok "pei", naiTok]

/-- Reading a token with its attachments: emphasis first, then the word, then nai, then
the intensity. -/
def readLeaf (l : Leaf) : List Tok :=
  l.bahe ++ l.tok :: ((if l.neg then [naiTok] else []) ++
    (match l.cai with | none => [] | some c => caiWords c))

/-- Reading a node: the token, then its indicators. -/
def readNode (n : Node) : List Tok := readLeaf n.leaf ++ n.ui.flatMap readLeaf

/-- Reading a whole text. -/
def readAll (ns : List Node) : List Tok := ns.flatMap readNode

/-- The name given to the letter `y bu`; markers name nothing. -/
def letterName : Tok → Option Word
  | .garbage w | .cmavo _ w | .brivla w | .cmene w | .zoi _ _ w => some w
  | .zo w => some ("zo".toList ++ w)
  | .lohu t => some ("lo'u-".toList ++ t ++ "-le'u".toList)
  | .zei parts => some (List.intercalate " zei ".toList parts)
  | .bu w => some (w ++ ".bu".toList)
  | .broken _ => some "<Defective erasure>".toList
  | .marker _ => none

/-- Saying one more word, with `bu` turning the word before it into a letter. -/
def sayLetter (said : List Tok) (t : Tok) : Option (List Tok) :=
  if t.isSel .BU then
    match said with
    | [] => none
    | y :: before => (letterName y).map (fun w => .bu w :: before)
  else some (t :: said)

/-- The text with letters formed, most recent word first. -/
def letters : List Tok → List Tok → Option (List Tok)
  | said, [] => some said
  | said, t :: ts => (sayLetter said t).bind (fun s => letters s ts)

/-- Texts on which folding is lossless: ba'e is not followed by nai, a CAI word or bu, nor by
a word and bu; cu'i is not followed by nai. -/
def Keeps : List Tok → Prop
  | [] => True
  | [_] => True
  | a :: b :: rest =>
    (a.isSel .BAhE = true → b.isSel .NAI = false ∧ b.isSel .CAI = false ∧ b.isSel .BU = false ∧
      ∀ c, rest.head? = some c → c.isSel .BU = false) ∧
    (a = caiTok "cu'i" → b.isSel .NAI = false) ∧ Keeps (b :: rest)

/-- Words come from the cmavo table: the only NAI is "nai" and the CAI are the five. -/
def Lexical (t : Tok) : Prop :=
  (t.isSel .NAI = true → t = naiTok) ∧
  (t.isSel .CAI = true → t = caiTok "cai" ∨ t = caiTok "sai" ∨ t = caiTok "ru'e" ∨
    t = caiTok "cu'i" ∨ t = caiTok "pei")

/-- The six selma'o of free indicators. -/
def indicator : Tok → Bool
  | .cmavo s _ => [Sel.UI, .CAI, .Y, .DAhO, .FUhE, .FUhO].contains s
  | _ => false

/-- Shape of the final token list: an initial run of bare indicators, then non-indicator
tokens each carrying only indicators. -/
def FoldedText (ns : List Node) : Prop :=
  ∃ lead rest, ns = lead ++ rest ∧
    (∀ n ∈ lead, indicator n.leaf.tok = true ∧ n.ui = []) ∧
    (∀ n ∈ rest, indicator n.leaf.tok = false ∧ ∀ l ∈ n.ui, indicator l.tok = true)

/-- The tokens in text order, indicators after their carrier. -/
def flat (ns : List Node) : List Leaf := ns.flatMap (fun n => n.leaf :: n.ui)

end Jbo.Lex2Spec
