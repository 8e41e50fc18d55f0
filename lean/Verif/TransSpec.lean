import Verif.Token

/-!
# Specification for the glosser

Place structure under conversion, what the components of a lujvo are, and the endings of English words as the comment
in `translate.c` (198-292) describes them, said without reference to the model.
-/

namespace Jbo.TransSpec

open Jbo

/-- The place that a conversion exchanges with the first. -/
def Conv (w : Word) : Option Nat :=
  [("se", 2), ("te", 3), ("ve", 4), ("xe", 5)].findSome? (fun e => if w = e.1.toList then some e.2 else none)

/-- The exchange of place 1 and place `k`. -/
def exch (k i : Nat) : Nat := if i = 1 then k else if i = k then 1 else i

/-- Which place of the converted word place `i` of the whole is; the conversions from the outside to the inside. -/
def placeOf : List Nat → Nat → Nat
  | [], i => i
  | k :: ks, i => placeOf ks (exch k i)

/-- A component with the conversions before it. -/
structure Group where
  before : List Word
  convs : List Word
  base : Word
deriving DecidableEq, Repr

/-- The components of a sequence of words that follows `before`.  Conversions at the end belong to nothing. -/
def groupsAt (before : List Word) : List Word → List Group
  | [] => []
  | w :: ws => match Conv w with
    | none => ⟨before, [], w⟩ :: groupsAt (before ++ [w]) ws
    | some _ => match groupsAt (before ++ [w]) ws with
      | [] => []
      | g :: gs => ⟨before, w :: g.convs, g.base⟩ :: gs

/-- Words joined by `+`. -/
def join (ws : List Word) : Word := ['+'].intercalate ws

/-- What happens to a place on the way outward. -/
inductive Op
  | conv (k : Nat)
  | jai
deriving DecidableEq, Repr

/-- Place `i` of the whole in terms of the inner word; 0 if it is none of its places.  Operators from the outside to the
inside. -/
def placeThrough : List Op → Nat → Nat
  | [], i => i
  | .conv k :: os, i => placeThrough os (exch k i)
  | .jai :: os, i => if i = 1 then 0 else placeThrough os i

/-! ## English endings -/

/-- White space in the C locale. -/
def Space (c : Char) : Prop := c ∈ [' ', '\t', '\n', '\x0b', '\x0c', '\r']

/-- What may follow the star that marks the end of an inflected word. -/
def Follows : Word → Prop
  | [] => True
  | c :: _ => Space c ∨ c = '/'

/-- A gloss with stars: the inflected parts, and the rest. -/
def starred : List Word → Word → Word
  | [], last => last
  | s :: ss, last => s ++ '*' :: starred ss last

/-- No part contains a star, and every star is followed by the end, a space or a slash. -/
def Marked : List Word → Word → Prop
  | [], last => '*' ∉ last
  | s :: ss, last => '*' ∉ s ∧ Follows (starred ss last) ∧ Marked ss last

/-- `x` ends in `e`. -/
def Ends (x : Word) (e : String) : Prop := ∃ y, x = y ++ e.toList

/-- The consonants of the plural in `ies`. -/
def EngCons (c : Char) : Prop := c ∈ "bcdfghjklmnpqrstvwxz".toList

/-- Note 5: the ending of the plural. -/
inductive Plural : Word → Word → Prop
  | es {x : Word} : Ends x "s" ∨ Ends x "z" ∨ Ends x "x" ∨ Ends x "ch" → Plural x (x ++ "(es)".toList)
  | ies {x y : Word} {c : Char} : x = y ++ [c, 'y'] → EngCons c → Plural x (x ++ "(ies)".toList)
  | s {x : Word} : ¬ (Ends x "s" ∨ Ends x "z" ∨ Ends x "x" ∨ Ends x "ch") → (∀ y c, x = y ++ [c, 'y'] → ¬ EngCons c) →
      Plural x (x ++ "(s)".toList)

/-- The agent. -/
inductive Agent : Word → Word → Prop
  | r {x : Word} : Ends x "e" → Agent x (x ++ "-r(s)".toList)
  | er {x : Word} : ¬ Ends x "e" → Agent x (x ++ "-er(s)".toList)

/-- The participle: a final `e` behind a letter that is no vowel is dropped. -/
inductive Participle : Word → Word → Prop
  | drop {x y : Word} {c : Char} : x = y ++ [c, 'e'] → c ∉ "aeiou".toList → Participle x (y ++ c :: "-ing".toList)
  | keep {x : Word} : (∀ y c, x = y ++ [c, 'e'] → c ∈ "aeiou".toList) → Participle x (x ++ "-ing".toList)

/-- The rest begins with a preposition, white space before it left out. -/
def Prep (x : Word) : Prop :=
  ∃ a b, x = a ++ b ∧ (∀ c ∈ a, Space c) ∧ (∀ c r, b = c :: r → ¬ Space c) ∧
    ∃ p ∈ ["in", "at", "with", "through"], ∃ r, b = p.toList ++ r

/-- A starred gloss with `f` applied to each inflected part; a gloss without stars is one such part. -/
inductive Inflected (R : Word → Word → Prop) (link : Word → Word → Prop) : List Word → Word → Word → Prop
  | plain {last out : Word} : R last out → Inflected R link [] last out
  | one {s last t k : Word} : R s t → link last k → Inflected R link [s] last (t ++ k ++ last)
  | more {s s' : Word} {ss : List Word} {last t k out : Word} : R s t → link (starred (s' :: ss) last) k →
      Inflected R link (s' :: ss) last out → Inflected R link (s :: s' :: ss) last (t ++ k ++ out)

/-- Nothing between the parts. -/
def NoLink (_ k : Word) : Prop := k = []

/-- `of` between an agent and what follows, unless there is a preposition. -/
def OfLink (x k : Word) : Prop := (Prep x ∧ k = []) ∨ (¬ Prep x ∧ k = " of".toList)

/-! ## The table of classes and contexts -/

/-- How the word appears. -/
inductive Form
  | x
  | plural
  | agent
  | participle
  | nounOrX
  | nounOrPlural
deriving DecidableEq, Repr

/-- The table of the comment (`translate.c:241-254`), by class and context: what stands before, the form, and what stands
behind.  `E` is a placeholder for `D` (`translate.c:542`). -/
def cell : Char → Char → Option (String × Form × String)
  | 'D', 'n' => some ("", .plural, "")
  | 'D', 'v' => some ("being ", .nounOrPlural, "")
  | 'D', 'q' => some ("", .x, "-ish")
  | 'D', 't' => some ("", .nounOrPlural, "")
  | 'E', 'n' => some ("", .plural, "")
  | 'E', 'v' => some ("being ", .nounOrPlural, "")
  | 'E', 'q' => some ("", .x, "-ish")
  | 'E', 't' => some ("", .nounOrPlural, "")
  | 'S', 'n' => some ("", .x, "")
  | 'S', 'v' => some ("being ", .nounOrX, "")
  | 'S', 'q' => some ("", .x, "-ish")
  | 'S', 't' => some ("", .nounOrX, "")
  | 'A', 'n' => some ("", .agent, "")
  | 'A', 'v' => some ("", .participle, "")
  | 'A', 'q' => some ("", .participle, "")
  | 'A', 't' => some ("", .agent, "")
  | 'P', 'n' => some ("", .x, " thing(s)")
  | 'P', 'v' => some ("being ", .x, "")
  | 'P', 'q' => some ("", .x, "")
  | 'P', 't' => some ("", .x, " thing(s)")
  | 'R', 'n' => some ("thing(s) ", .x, "")
  | 'R', 'v' => some ("being ", .x, "")
  | 'R', 'q' => some ("", .x, "")
  | 'R', 't' => some ("thing(s) ", .x, "")
  | 'I', 'n' => some ("thing(s) ", .participle, "")
  | 'I', 'v' => some ("", .participle, "")
  | 'I', 'q' => some ("", .participle, "")
  | 'I', 't' => some ("thing(s) ", .participle, "")
  | _, _ => none

/-- The form of a word, given the noun of a special entry (empty if there is none). -/
inductive Shape (x noun : Word) : Form → Word → Prop
  | x : Shape x noun .x x
  | plural {y} : Plural x y → Shape x noun .plural y
  | agent {y} : Agent x y → Shape x noun .agent y
  | participle {y} : Participle x y → Shape x noun .participle y
  | nounX : noun ≠ [] → Shape x noun .nounOrX noun
  | elseX : noun = [] → Shape x noun .nounOrX x
  | nounP : noun ≠ [] → Shape x noun .nounOrPlural noun
  | elseP {y} : noun = [] → Plural x y → Shape x noun .nounOrPlural y

end Jbo.TransSpec
