import Verif.CmMainSpec
/-!
# Texts for `cmafihe`
-/

namespace Jbo.CmMain.Spec
open Jbo.CmTrans (Word)
open Jbo.Cm Jbo.CmScan Jbo.CmScan.Spec

/-- What a text consists of. -/
inductive Piece
  | word (w : Word) (k : Kind)
  | gap
  | bracket (t : Word)

/-- A text does not go on with one of these. -/
def NotNext (cs : List Char) (rest : Word) : Prop := ∀ c, rest.head? = some c → c ∉ cs

/-- A full stop after a word: it does not make one word of the two, unless cmavo come before it and a cmavo without a consonant, or the like, comes after
it. -/
def Stopped (w rest : Word) : Prop := ∃ r, rest = '.' :: r ∧ (BrivlaForm w ∧ ¬ CmavoForm w ∨ CmavoForm w ∧ ∀ c, r.head? = some c → ¬ letter c)

/-- A character that is in no word and no bracket, and no blank. -/
def Other (c : Char) : Prop := ¬ letter c ∧ c ∉ [' ', '\t', '\n', '\r', '(', '[', '.'] ∧ ¬ ('a' ≤ c ∧ c ≤ 'z') ∧ ¬ ('A' ≤ c ∧ c ≤ 'Z')

instance (c : Char) : Decidable (Other c) := inferInstanceAs (Decidable (_ ∧ _))

/-- **The reading of a text**: words, text in brackets, and gaps, which are made by empty lines; blanks, single ends of line, and
stops and signs between words count for nothing. -/
inductive Text : Word → List Piece → Prop
  | nil : Text [] []
  | word {w k rest ps} : Is w k → Ends rest ∨ Stopped w rest → Text rest ps → Text (w ++ rest) (.word w k :: ps)
  | blank {s rest ps} : s ≠ [] → (∀ c ∈ s, c = ' ' ∨ c = '\t') → NotNext [' ', '\t'] rest → Text rest ps → Text (s ++ rest) ps
  | line {rest ps} : NotNext ['\n', '\r'] rest → Text rest ps → Text ('\n' :: rest) ps
  | gap {n rest ps} : NotNext ['\n', '\r'] rest → Text rest ps → Text (List.replicate (n + 2) '\n' ++ rest) (.gap :: ps)
  | stop {rest ps} : (∀ c, rest.head? = some c → ¬ letter c) → Text rest ps → Text ('.' :: rest) ps
  | other {c rest ps} : Other c → Text rest ps → Text (c :: rest) ps
  | bracket {a b u rest ps} : a ∈ ['(', '['] → b ∈ [')', ']'] → Balanced u → Text rest ps → Text (a :: u ++ b :: rest) (.bracket (a :: u ++ [b]) :: ps)

/-- The entries for a piece: one for a word, unless it is of no kind; one for a gap; and for text in brackets such as make it up. -/
inductive Entries (d : Word → Option Word) (parts : Word → Word) : Piece → List Ev → Prop
  | word {w k e} : Glossed d parts w k e → Entries d parts (.word w k) [e]
  | unknown {w} : Entries d parts (.word w .fallthru) []
  | gap : Entries d parts .gap [.newline]
  | bracket {t : Word} (ts : List Word) : ts.flatten = t → Entries d parts (.bracket t) (ts.map .paren)

end Jbo.CmMain.Spec
