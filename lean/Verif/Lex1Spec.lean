import Verif.Lex1
/-!
# Specification of the first lexer stage

Written without reference to the scanner loop: what counts as a word, a comment and a position is
defined from the text by decomposition.
-/

namespace Jbo.Lex1

/-- Comment nesting depth after a text; parentheses outside a comment only matter when opening. -/
def depthOf (text : List Char) : Nat :=
  text.foldl (fun d c =>
    if d = 0 then (if c = '(' then 1 else 0)
    else if c = '(' then d + 1 else if c = ')' then d - 1 else d) 0

/-- The line on which the character after `pre` stands, counting from 1. -/
def lineOf (pre : List Char) : Nat := 1 + (pre.filter (· == '\n')).length

/-- The column of the character after `pre`, counting from 1. -/
def colOf (pre : List Char) : Nat := 1 + (pre.reverse.takeWhile (· != '\n')).length

/-- White space and punctuation between words. -/
def separators : List Char := [' ', '\t', '\n', '.', '(', '>']

/-- How a digit or colon is read aloud. -/
def digitNames : List (Char × Word) :=
  [('0', "no".toList), ('1', "pa".toList), ('2', "re".toList), ('3', "ci".toList),
   ('4', "vo".toList), ('5', "mu".toList), ('6', "xa".toList), ('7', "ze".toList),
   ('8', "bi".toList), ('9', "so".toList), (':', "pi'e".toList)]

/-- Characters words are made of: neither separators nor digits nor colons. -/
def plain (c : Char) : Bool :=
  !(separators.contains c) && (digitNames.lookup c).isNone

/-- A word may start after `pre`: `pre` is empty, ends in a non-word character, or its last
character still belongs to a comment. -/
def boundary (pre : List Char) : Bool :=
  match pre.getLast? with
  | none => true
  | some c => !(plain c) || depthOf pre.dropLast != 0

/-- The item that starts at the first character of `rest`, when `pre` precedes it. -/
def itemAt (pre rest : List Char) : Option Event :=
  if depthOf pre ≠ 0 then none
  else
    match rest with
    | [] => none
    | c :: _ =>
      if c = '\n' then some .eol
      else match digitNames.lookup c with
        | some w => some (.word w (lineOf pre) (colOf pre))
        | none =>
          if plain c && boundary pre then
            some (.word (rest.takeWhile plain) (lineOf pre) (colOf pre))
          else none

/-- All items of a text, from left to right. -/
def items (text : List Char) : List Event :=
  (List.range text.length).filterMap (fun i => itemAt (text.take i) (text.drop i))

/-- An item without its position. -/
def Event.erase : Event → Option Word
  | .word w _ _ => some w
  | .eol => none

/-- Just the words of an event list. -/
def wordsOf (evs : List Event) : List Word := evs.filterMap Event.erase

/-- A well-formed cmavo spelling: an optional consonant, a vowel or y, and optionally another
vowel, which may be separated by an apostrophe. -/
inductive CmavoForm : Word → Prop
  | mk (c : Option Char) (v : Char) (rest : Word)
      (hc : ∀ x ∈ c, x ∈ "bcdfgjklmnprstvxz".toList) (hv : v ∈ "aeiouy".toList)
      (hr : rest = [] ∨ ∃ u ∈ "aeiouy".toList, rest = [u] ∨ rest = ['\'', u]) :
      CmavoForm (c.toList ++ v :: rest)

/-- The inside of a comment: parentheses in it are balanced. -/
inductive CommentBody : List Char → Prop
  | nil : CommentBody []
  | char (c : Char) (rest : List Char) (h1 : c ≠ '(') (h2 : c ≠ ')') (h : CommentBody rest) :
      CommentBody (c :: rest)
  | nest (b rest : List Char) (hb : CommentBody b) (h : CommentBody rest) :
      CommentBody ('(' :: (b ++ ')' :: rest))

/-- Words joined with single spaces. -/
def joinSp (ws : List Word) : Word := List.intercalate [' '] ws

end Jbo.Lex1
