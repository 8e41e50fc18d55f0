import Verif.DfaScan
/-!
# Files for dfasyn
-/

namespace Jbo.DfaScan

/-- What may stand between two tokens: blanks, line ends, comments up to the end of their line. -/
inductive Gap : List Char → Prop
  | nil : Gap []
  | blank (c : Char) (r : List Char) : c = ' ' ∨ c = '\t' ∨ c = '\n' → Gap r → Gap (c :: r)
  | comment (s r : List Char) : '\n' ∉ s → Gap r → Gap ('#' :: s ++ '\n' :: r)

/-- The letters of names. -/
def nameChars : List Char :=
  "abcdefghijklmnopqrstuvwxyzABCDEFGHIJKLMNOPQRSTUVWXYZ0123456789_.".toList

/-- The keywords and the words they are made of. -/
def kwParts : List (List String × Kw) :=
  [(["state"], .state), (["abbrev"], .abbrev), (["define"], .define), (["tokens"], .tokens), (["prefix"], .prefix),
   (["block"], .block), (["end", "block"], .endblock), (["type"], .type), (["result"], .result),
   (["early", "result"], .earlyresult), (["attribute"], .attr), (["attr"], .attr), (["def", "attr"], .defattr),
   (["def", "result"], .defresult), (["symbol"], .symbol), (["sym", "result"], .symresult),
   (["early", "sym", "result"], .earlysymresult)]

def capital : List Char → List Char
  | [] => []
  | c :: r => c.toUpper :: r

/-- A keyword may be in small letters, in capitals, with a capital, or with a capital on each of its words. -/
def forms (parts : List String) : List (List Char) :=
  let w := parts.flatMap (·.toList)
  [w, w.map (·.toUpper), capital w, parts.flatMap (fun p => capital p.toList)]

/-- The keywords as they may be written. -/
def Keyword (k : Kw) (w : List Char) : Prop :=
  (∃ p ∈ kwParts, p.2 = k ∧ w ∈ forms p.1) ∨ (k = .earlysymresult ∧ w = "EarlySymresult".toList)

/-- How a token may be written. -/
inductive Written : Tok → List Char → Prop
  | kw (w : List Char) (k : Kw) : Keyword k w → Written (.kw k) w
  | bare (w : List Char) : w ≠ [] → (∀ c ∈ w, c ∈ nameChars) → (∀ k, ¬ Keyword k w) → Written (.str w) w
  | quoted (s : List Char) : s ≠ [] → '"' ∉ s → Written (.str s) ('"' :: s ++ ['"'])
  | arrow : Written .arrow ['-', '>']
  | not : Written (.sign '~') ['!']
  | sign (c : Char) : c ∈ ['=', '|', '&', '~', '^', '*', '?', ':', ';', '(', ')', '<', '>', ','] → Written (.sign c) [c]

/-- The number of line ends. -/
def nls (s : List Char) : Nat := s.count '\n'

/-- Tokens with the lines on which they end, in a text that starts on line `n`.  A word must not run into the
next one. -/
inductive Laid : Nat → List (Nat × Tok) → List Char → Prop
  | nil (n : Nat) (g : List Char) : Gap g → Laid n [] g
  | cons (n : Nat) (g w r : List Char) (t : Tok) (ts : List (Nat × Tok)) : Gap g → Written t w →
      ((∃ c ∈ w.getLast?, c ∈ nameChars) → ∀ c ∈ r.head?, c ∉ nameChars) →
      Laid (n + nls g + nls w) ts r → Laid n ((n + nls g + nls w, t) :: ts) (g ++ w ++ r)

/-- Strings on one line. -/
def OneLine (ts : List (Nat × Tok)) : Prop := ∀ p ∈ ts, ∀ s, p.2 = .str s → '\n' ∉ s

end Jbo.DfaScan
