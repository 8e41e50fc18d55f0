/-!
# Specification for cmafihe

Which part of a cluster gets which gloss, and how entries are laid out in blocks, said without reference to the model.
-/

namespace Jbo.CmSpec

/-- A vowel or an apostrophe. -/
def Vowelish (c : Char) : Prop := c ∈ ['a', 'e', 'i', 'o', 'u', '\'']

/-- The text `p ++ r` may be cut behind `p`. -/
def Cut (r : List Char) : Prop := ∀ c r', r = c :: r' → ¬ Vowelish c

/-- `p` is the longest beginning that is known, among those where the text may be cut. -/
def LongestKnown (f : List Char → Option (List Char)) (s p t : List Char) : Prop :=
  p ≠ [] ∧ f p = some t ∧ (∃ r, s = p ++ r ∧ Cut r) ∧
    ∀ p' r', s = p' ++ r' → Cut r' → p.length < p'.length → f p' = none

/-- No beginning is known. -/
def NoneKnown (f : List Char → Option (List Char)) (s : List Char) : Prop :=
  ∀ p r, p ≠ [] → s = p ++ r → Cut r → f p = none

/-- The pieces of a cluster with their glosses; `none` for a piece shown as `?`. -/
inductive Cover (f : List Char → Option (List Char)) : List Char → List (List Char × Option (List Char)) → Prop
  | nil : Cover f [] []
  | known {p r t : List Char} {ps} : LongestKnown f (p ++ r) p t → Cover f r ps → Cover f (p ++ r) ((p, some t) :: ps)
  | unknown {c : Char} {v d r : List Char} {ps} : NoneKnown f (c :: (v ++ (d ++ r))) → (∀ x ∈ v, Vowelish x) →
      Cut (d ++ r) → (d = ['.'] ∨ (d = [] ∧ ∀ r', r ≠ '.' :: r')) → Cover f r ps →
      Cover f (c :: (v ++ (d ++ r))) ((c :: (v ++ d), none) :: ps)

/-- What is shown for a piece. -/
def shown : Option (List Char) → List Char
  | some t => t
  | none => ['?']

/-- An entry: three texts to be put under each other. -/
structure Entry where
  a : List Char
  b : List Char
  c : List Char
deriving DecidableEq, Repr

/-- The column is one wider than the longest text. -/
def Entry.cols (e : Entry) : Nat := max e.a.length (max e.b.length e.c.length) + 1

def Entry.row (e : Entry) : Fin 3 → List Char
  | 0 => e.a
  | 1 => e.b
  | 2 => e.c

def padded (e : Entry) (i : Fin 3) : List Char := e.row i ++ List.replicate (e.cols - (e.row i).length) ' '

def lineCols (l : List Entry) : Nat := (l.map Entry.cols).sum

/-- One row of a line. -/
def rowOf (l : List Entry) (i : Fin 3) : List Char := (l.map (padded · i)).flatten

/-- A printed line: three rows and an empty one. -/
def block (l : List Entry) : List Char := rowOf l 0 ++ ['\n'] ++ rowOf l 1 ++ ['\n'] ++ rowOf l 2 ++ ['\n', '\n']

/-- Filling lines one after the other: a new line is begun just when the next entry does not fit. -/
inductive Fill (w : Int) : List Entry → List (List Entry) → Prop
  | nil : Fill w [] []
  | line {e : Entry} {l r : List Entry} {ls} :
      (∀ i, i < l.length → (lineCols (e :: l.take (i + 1)) : Int) ≤ w) →
      (∀ e' r', r = e' :: r' → w < lineCols (e :: l ++ [e'])) → Fill w r ls → Fill w (e :: l ++ r) ((e :: l) :: ls)

/-- The paragraphs of a text in which `none` stands for the end of a line of the input. -/
def paras : List (Option Entry) → List (List Entry)
  | [] => [[]]
  | none :: r => [] :: paras r
  | some e :: r => match paras r with
    | [] => [[e]]
    | p :: ps => (e :: p) :: ps

/-- The printed paragraphs, one empty line between them. -/
def printed (lss : List (List (List Entry))) : List Char := ['\n'].intercalate (lss.map (fun ls => (ls.map block).flatten))

end Jbo.CmSpec
