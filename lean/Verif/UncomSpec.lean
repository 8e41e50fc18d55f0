import Verif.Uncom
/-!
# Comments and what is kept
-/

namespace Jbo.Uncom

/-- A text with no place where `a` is followed by `b`. -/
def Apart (a b : Char) (s : List Char) : Prop := ∀ p q, s ≠ p ++ a :: b :: q

/-- What a comment holds: text and comments. -/
inductive Item
  | text (s : List Char)
  | comment (l : List Item)

mutual
  /-- A comment as it is written. -/
  def Item.show : Item → List Char
    | .text s => s
    | .comment l => '/' :: '*' :: (showAll l ++ ['*', '/'])
  def showAll : List Item → List Char
    | [] => []
    | i :: l => i.show ++ showAll l
end

/-- No text follows a text. -/
def headComment : List Item → Prop
  | [] => True
  | .text _ :: _ => False
  | .comment _ :: _ => True

/-- The last character of a text before a comment (`inner`) or before the end of the comment around. -/
def endOk (s : List Char) (l : List Item) : Prop :=
  match l with
  | [] => s.getLast? ≠ some '/'
  | _ => s.getLast? ≠ some '*'

mutual
  /-- The texts hold no beginning or end of a comment, nor make one with what follows. -/
  def Item.Good : Item → Prop
    | .text s => Apart '/' '*' s ∧ Apart '*' '/' s
    | .comment l => GoodAll l
  def GoodAll : List Item → Prop
    | [] => True
    | .text s :: l => (Item.text s).Good ∧ headComment l ∧ endOk s l ∧ GoodAll l
    | .comment k :: l => GoodAll k ∧ GoodAll l
end

/-- A piece of a file: text, the two comments that are kept, and other comments. -/
inductive Piece
  | text (s : List Char)
  | error
  | et (name : List Char)
  | comment (l : List Item)

def Piece.show : Piece → List Char
  | .text s => s
  | .error => "/* error */".toList
  | .et x => "/* ET ".toList ++ x ++ " */".toList
  | .comment l => (Item.comment l).show

/-- What is left of a piece. -/
def Piece.kept : Piece → List Char
  | .comment _ => []
  | p => p.show

/-- A name as in `/* ET BOI */`. -/
def Name (x : List Char) : Prop := x ≠ [] ∧ ∀ c ∈ x, c = 'h' ∨ ('A' ≤ c ∧ c ≤ 'Z')

/-- A comment that is not one of the two kinds that are kept. -/
def Plain (l : List Item) : Prop :=
  showAll l ≠ " error ".toList ∧ ∀ x, Name x → showAll l ≠ " ET ".toList ++ x ++ [' ']

def Piece.Good : Piece → Prop
  | .text s => Apart '/' '*' s
  | .error => True
  | .et x => Name x
  | .comment l => GoodAll l ∧ Plain l

def headMark : List Piece → Prop
  | .text _ :: _ => False
  | _ => True

/-- A file: no text follows a text. -/
def GoodFile : List Piece → Prop
  | [] => True
  | .text s :: l => (Piece.text s).Good ∧ headMark l ∧ GoodFile l
  | .error :: l => GoodFile l
  | .et x :: l => Name x ∧ GoodFile l
  | .comment k :: l => (Piece.comment k).Good ∧ GoodFile l

end Jbo.Uncom
