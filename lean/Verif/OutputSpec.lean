import Verif.Output
/-!
# What the display of a text is
-/

namespace Jbo.Output.Spec
open Jbo.Terms Jbo.Output

/-- What can be seen of the Lojban text: numbered brackets and words. -/
inductive Piece
  | opened (b : Br) (n : Nat)
  | closed (b : Br) (n : Nat)
  | word (text : String)
deriving DecidableEq, Repr

/-- A text in a bracket, or not in any. -/
def enclose (b : Br × Nat) (ps : List Piece) : List Piece :=
  if b.1 = .none then ps else [.opened b.1 b.2] ++ ps ++ [.closed b.1 b.2]

mutual
/-- The tree written out: each word once, in order, and around the words of each node the bracket of the node. -/
def written (word : Node → String) (brac : Nat → Br × Nat) : Node → List Piece
  | .nt i _ cs => enclose (brac i) (writtens word brac cs)
  | .zei i => enclose (brac i) [.word (word (.zei i))]
  | x => [.word (word x)]
def writtens (word : Node → String) (brac : Nat → Br × Nat) : List Node → List Piece
  | [] => []
  | c :: cs => written word brac c ++ writtens word brac cs
end

mutual
/-- The words of the tree in order. -/
def words : Node → List Node
  | .nt _ _ cs => wordss cs
  | x => [x]
def wordss : List Node → List Node
  | [] => []
  | c :: cs => words c ++ wordss cs
end

/-- The text of a piece that is a word. -/
def Piece.text? : Piece → Option String
  | .word s => some s
  | _ => none

/-- The number of a bracket that is opened. -/
def Piece.number? : Piece → Option Nat
  | .opened _ n => some n
  | _ => none

/-- Whether brackets are closed in the reverse order of opening, each with its own number; the list holds those open. -/
def nested : List (Br × Nat) → List Piece → Bool
  | st, [] => st.isEmpty
  | st, .opened b n :: r => nested ((b, n) :: st) r
  | [], .closed _ _ :: _ => false
  | (b', n') :: st, .closed b n :: r => b = b' && n = n' && nested st r
  | st, .word _ :: r => nested st r

/-- How a word is written: with a dot before a vowel and after a name; a compound with `zei` has no dot. -/
def spelled (loj : String) (compound name : Bool) : String :=
  if compound then loj
  else (if loj.toList.head?.all ("aeiou".toList.contains ·) then "." else "") ++ loj ++ (if name then "." else "")

/-- A compound made with `zei`. -/
def compound : Node → Bool
  | .zei _ => true
  | _ => false

/-- What a call of the driver lets see of the Lojban text. -/
def seen : Call → Option Piece
  | .opened b n => if b = .none then none else some (.opened b n)
  | .closed b n => if b = .none then none else some (.closed b n)
  | .lojban s => some (.word s)
  | _ => none

end Jbo.Output.Spec
