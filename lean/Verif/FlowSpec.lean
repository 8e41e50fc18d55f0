import Verif.Flow
import Verif.OutputSpec
/-!
# What a display in running text is

Independent of the drivers: texts are kept apart, the pieces are those that were asked for, and what is printed is
markup that a browser or TeX can read.
-/

namespace Jbo.Flow.Spec
open Jbo.Output (Br Call)
open Jbo.Output.Spec (Piece)

/-- Words and glosses are texts. -/
def isText : Tok → Bool
  | .word _ | .gloss _ => true
  | _ => false

/-- Something that is printed as white space, or has white space in it. -/
def isBlank : Tok → Bool
  | .blank s => s.toList.any fun c => c = ' ' || c = '\n'
  | _ => false

/-- Between any two texts there is a blank. -/
def Apart (ts : List Tok) : Prop :=
  ∀ a x b y c, ts = a ++ [x] ++ b ++ [y] ++ c → isText x → isText y → ∃ z ∈ b, isBlank z

/-- What a piece lets see of the Lojban text. -/
def piece : Tok → Option Piece
  | .opened b n => some (.opened b n)
  | .closed b n => some (.closed b n)
  | .word s => some (.word s)
  | _ => none

/-- Glosses. -/
def glossOf : Tok → Option String
  | .gloss s => some s
  | _ => none
def glossSaid : Call → Option String
  | .translation s => some s
  | _ => none

/-- The texts of labels, each with the parts that are given to the driver. -/
def labelOf : Tok → Option Call
  | .tagText a b c e => some (.tagText a b c e)
  | .tagPart s => some (.tagPart s)
  | _ => none
def labelSaid : Call → Option Call
  | .tagText a b c e => some (.tagText a b c e)
  | .tagPart s => some (.tagPart s)
  | _ => none

/-! ## HTML -/

/-- Where a reader of HTML stands: the elements that are open, and the tag that is being read, its characters in
reverse. -/
structure Html where
  stack : List Text
  tag : Option Text
deriving DecidableEq, Repr

/-- The name of an element, without attributes. -/
def name (t : Text) : Text := t.takeWhile (· ≠ ' ')

/-- A whole tag has been read.  `P` needs no end. -/
def element (stack : List Text) (tag : Text) : Option (List Text) :=
  match tag with
  | '/' :: n => match stack with
    | m :: st => if n = m then some st else none
    | [] => none
  | n => if name n = ['P'] then some stack else some (name n :: stack)

/-- One character: in text, `>` is not allowed; in a tag, `<` is not. -/
def htmlChar (h : Html) (c : Char) : Option Html :=
  match h.tag with
  | none => if c = '<' then some { h with tag := some [] } else if c = '>' then none else some h
  | some t =>
    if c = '>' then (element h.stack t.reverse).map fun st => ⟨st, none⟩
    else if c = '<' then none else some { h with tag := some (c :: t) }

def html (h : Html) (t : Text) : Option Html := t.foldlM htmlChar h

/-- Every element is closed, in the reverse order of opening. -/
def WellFormed (t : Text) : Prop := html ⟨[], none⟩ t = some ⟨[], none⟩

/-- What a text must become: the characters of markup are replaced. -/
def entity : Char → Text
  | '&' => "&amp;".toList
  | '<' => "&lt;".toList
  | '>' => "&gt;".toList
  | c => [c]
def escaped (t : Text) : Text := t.flatMap entity

/-! ## TeX -/

/-- Where a reader of TeX stands: the number of open groups, whether in mathematics, whether after a backslash. -/
structure Tex where
  depth : Nat
  math : Bool
  slash : Bool
deriving DecidableEq, Repr

/-- One character.  Alignment marks, parameters and comments are not allowed; scripts are allowed in mathematics. -/
def texChar (s : Tex) (c : Char) : Option Tex :=
  if s.slash then some { s with slash := false }
  else if c = '\\' then some { s with slash := true }
  else if c = '{' then some { s with depth := s.depth + 1 }
  else if c = '}' then (if s.depth = 0 then none else some { s with depth := s.depth - 1 })
  else if c = '$' then some { s with math := !s.math }
  else if c ∈ ['#', '%', '&'] then none
  else if c ∈ ['^', '_'] then (if s.math then some s else none)
  else some s

def tex (s : Tex) (t : Text) : Option Tex := t.foldlM texChar s

/-- Groups and mathematics are closed and no character has a meaning that is not wanted. -/
def Clean (t : Text) : Prop := tex ⟨0, false, false⟩ t = some ⟨0, false, false⟩

/-- The characters that TeX gives for a text: those after a backslash, and those in mathematics. -/
def typeset : Bool → Text → Text
  | _, [] => []
  | true, c :: t => c :: typeset false t
  | false, c :: t => if c = '\\' then typeset true t else if c = '$' then typeset false t else c :: typeset false t

/-- Text without characters that mean something to TeX. -/
def Plain (t : Text) : Prop := ∀ c ∈ t, c ∉ ['\\', '{', '}', '$', '#', '%', '&', '^', '_']

end Jbo.Flow.Spec
