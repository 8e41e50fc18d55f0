import Verif.Tree
import Verif.Lex2Spec

/-! # Specification for parse trees and their display -/

namespace Jbo.TreeSpec
open Jbo Lex2 Lex2Spec Tree

mutual
/-- Leaves from left to right. -/
def leaves {α} : Tree α → List α
  | .leaf a => [a]
  | .node _ cs => leavesList cs
/-- Leaves of a row of trees. -/
def leavesList {α} : List (Tree α) → List α
  | [] => []
  | c :: cs => leaves c ++ leavesList cs
end

/-- Items of prefix (Polish) notation, which determines a tree. -/
inductive Item (α : Type)
  | word (a : α)
  | op (ty : Ty) (arity : Nat)

mutual
/-- Prefix notation of a tree. -/
def polish {α} : Tree α → List (Item α)
  | .leaf a => [.word a]
  | .node ty cs => .op ty cs.length :: polishList cs
/-- Prefix notation of a row of trees. -/
def polishList {α} : List (Tree α) → List (Item α)
  | [] => []
  | c :: cs => polish c ++ polishList cs
end

/-- Everything but unary operators. -/
def Item.keep {α} : Item α → Bool
  | .op _ 1 => false
  | _ => true

/-- The words of a leaf itself (no emphasis, no attached indicators). -/
def ownWords (l : Leaf) : List Tok :=
  l.tok :: ((if l.neg then [naiTok] else []) ++
    (match l.cai with | none => [] | some c => caiWords c))

/-- The text of a word as shown to the reader. -/
def tokText : Tok → List Word
  | .cmavo _ w | .brivla w | .cmene w => [w]
  | .zoi _ d t => ["zoi".toList, d, t, d]
  | .zo t => ["zo".toList, t]
  | .zei parts => [List.intercalate " zei ".toList parts]
  | .lohu t => ["lo'u".toList, t, "le'u".toList]
  | .bu w => [w, "bu".toList]
  | .marker _ | .garbage _ | .broken _ => []

/-- The words a reader should see for a leaf: its own words, an inserted terminator in capitals. -/
def shown (p : PLeaf) : List Word :=
  if p.elid then
    match p.leaf.tok with
    | .cmavo _ w => [w.map Char.toUpper]
    | t => tokText t
  else (ownWords p.leaf).flatMap tokText

/-- Leaves whose attachments the printer knows how to show: nai only on UI and CAI, intensity
only on UI and not "pei nai". -/
def Showable (p : PLeaf) : Prop :=
  (p.leaf.neg = true → p.leaf.tok.isSel .UI = true ∨ p.leaf.tok.isSel .CAI = true) ∧
  (p.leaf.cai ≠ none → p.leaf.tok.isSel .UI = true ∧ p.leaf.cai ≠ some .PEINAI)

/-- The pieces of text in a printout. -/
def texts : List Ev → List Word
  | [] => []
  | .txt w :: es => w :: texts es
  | _ :: es => texts es

/-- Reading brackets with a stack of open depths. -/
def nest : List Nat → List Ev → Option (List Nat)
  | s, [] => some s
  | s, .op d :: es => nest (d :: s) es
  | d' :: s, .cl d :: es => if d = d' then nest s es else none
  | [], .cl _ :: _ => none
  | s, _ :: es => nest s es

/-- No two pieces of text touch. -/
def Apart (es : List Ev) : Prop := ∀ a b v w, es ≠ a ++ .txt v :: .txt w :: b

mutual
/-- The bracketing that mirrors the tree. -/
def mirror : Tree PLeaf → Nat → List Ev
  | .leaf p, d =>
    match p.leaf.tok with
    | .zei _ | .lohu _ => .op (d + 1) :: (shown p).map .txt ++ [.cl (d + 1)]
    | _ => (shown p).map .txt
  | .node _ cs, d => .op d :: mirrorList cs (d + 1) ++ [.cl d]
/-- Bracketing of a row. -/
def mirrorList : List (Tree PLeaf) → Nat → List Ev
  | [], _ => []
  | c :: cs, d => mirror c d ++ mirrorList cs d
end

/-- Which closing character belongs to which opening character. -/
def mate (c : Char) : Option Char :=
  [('(', ')'), ('[', ']'), ('{', '}'), ('<', '>')].lookup c

/-- Everything but white space. -/
def ink : Ev → Bool
  | .sp => false
  | .nl => false
  | .op _ => true
  | .cl _ => true
  | .txt _ => true

/-- Printout without its white space. -/
def dense (es : List Ev) : List Ev := es.filter ink

end Jbo.TreeSpec
