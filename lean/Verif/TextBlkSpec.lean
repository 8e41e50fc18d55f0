import Verif.TextBlk
/-!
# What a display in blocks is

Independent of the driver: a block has a text for Lojban, one for English and labels; blocks stand side by side, all
their lines padded to the width of the block.  The calls are cut into consecutive segments; a block is what the calls
of its segment say.
-/

namespace Jbo.TextBlk.Spec
open Jbo.Output (Br Call)

structure Block where
  loj : Text
  eng : Text
  tags : List Text
deriving DecidableEq, Repr

/-- The longest of the lines. -/
def Block.width (b : Block) : Nat := (b.loj :: b.eng :: b.tags).foldr (fun t n => max t.length n) 0

def pad (n : Nat) (t : Text) : Text := t ++ List.replicate (n - t.length) ' '

/-- Blocks side by side, in one of their lines. -/
def side (line : Block → Text) (row : List Block) : Text := row.flatMap fun b => pad b.width (line b)

def rowWidth (row : List Block) : Nat := (row.map Block.width).sum

def height (row : List Block) : Nat := row.foldr (fun b n => max b.tags.length n) 0

/-- A row as it is printed: each label stands under its block. -/
def render (row : List Block) : Group :=
  .lines (side (·.loj) row) (side (·.eng) row)
    ((List.range (height row)).map fun i => side (fun b => b.tags.getD i []) row)

/-- A row fits: it is not wider than the limit, or nothing but one block has a width. -/
def Fits (maxw : Int) (row : List Block) : Prop :=
  (rowWidth row : Int) ≤ maxw ∨ (row.filter fun b => b.width ≠ 0).length ≤ 1

/-- A printed piece: a row of blocks, or an empty line or ruler. -/
inductive Item
  | row (bs : List Block)
  | gap
  | rule

def Item.show : Item → Group
  | .row bs => render bs
  | .gap => .gap
  | .rule => .rule

def Item.blocks : Item → List Block
  | .row bs => bs
  | _ => []

def Item.Good (maxw : Int) : Item → Prop
  | .row bs => Fits maxw bs ∧ rowWidth bs ≠ 0
  | _ => True

/-! ## What the calls say -/

/-- The Lojban line: a word is followed by a blank, as is a bracket. -/
def lojOf : Call → Text
  | .opened b _ => if b = .none then [] else (openText b).1.toList ++ [' ']
  | .closed b _ => if b = .none then [] else (closeText b).1.toList ++ [' ']
  | .lojban t => t.toList ++ [' ']
  | _ => []

/-- The English line. -/
def engOf : Call → Text
  | .opened b _ => if b = .none then [] else (openText b).2.1.toList ++ [' ']
  | .closed b _ => if b = .none then [] else (closeText b).2.1.toList ++ [' ']
  | .translation t => engText t
  | _ => []

/-- Text for the label begun last. -/
def extend (l : List Text) (t : Text) : List Text := l.dropLast ++ [l.getLastD [] ++ t]

/-- The labels: `startTag` begins one, texts belong to the one begun last; a bracket gives its third line and its
number. -/
def label (l : List Text) : Call → List Text
  | .opened b n => if b = .none then l else l ++ [(openText b).2.2.toList ++ [' '], (toString n).toList ++ [' ']]
  | .closed b n => if b = .none then l else l ++ [(closeText b).2.2.toList ++ [' '], (toString n).toList ++ [' ']]
  | .startTag => l ++ [[]]
  | .tagText a b c d => extend l (tagText a b c d)
  | .tagPart t => extend l t.toList
  | _ => l

def labels (seg : List Call) : List Text := seg.foldl label []

def blockOf (seg : List Call) : Block := ⟨seg.flatMap lojOf, seg.flatMap engOf, labels seg⟩

/-- Where a new block begins: at each bracket, at a word after a gloss, at labels after a text. -/
def cut (seg : List Call) : Call → Bool
  | .opened b _ | .closed b _ => b ≠ .none
  | .lojban _ => (blockOf seg).eng ≠ []
  | .startTags => (blockOf seg).loj ≠ [] ∨ (blockOf seg).eng ≠ []
  | _ => false

def segments : List Call → List Call → List (List Call)
  | seg, [] => [seg]
  | seg, c :: cs => if cut seg c then seg :: segments [c] cs else segments (seg ++ [c]) cs

/-- Nothing to show. -/
def Block.blank (b : Block) : Bool := b.loj = [] ∧ b.eng = [] ∧ b.tags = []

/-- The blocks of a display. -/
def blocks (cs : List Call) : List Block := ((segments [] cs).map blockOf).filter (!·.blank)

/-! ## Calls in good order -/

/-- Where the calls stand: outside of labels, after `startTags`, inside of a label, after labels whose text is still to
come. -/
inductive Phase
  | plain | opening | inside | waiting
deriving DecidableEq, Repr

def next : Phase → Call → Option Phase
  | .plain, .startTags | .waiting, .startTags => some .opening
  | .opening, .startTag => some .inside
  | .inside, .startTag | .inside, .tagText .. | .inside, .tagPart _ | .inside, .eols _ => some .inside
  | .inside, .endTags => some .waiting
  | .plain, .opened .. | .plain, .closed .. | .plain, .lojban _ | .plain, .translation _ | .plain, .eols _ => some .plain
  | .waiting, .opened b _ => some (if b = .none then .waiting else .plain)
  | .waiting, .closed b _ => if b = .none then some .waiting else none
  | .waiting, .lojban _ => some .plain
  | .waiting, .translation t => some (if engText t = [] then .waiting else .plain)
  | .waiting, .eols _ => some .waiting
  | _, _ => none

def runs : Phase → List Call → Option Phase
  | p, [] => some p
  | p, c :: cs => (next p c).bind fun q => runs q cs

/-- Labels are opened and closed in order, each group has a label, and a closing bracket never follows labels without
a text between. -/
def Ordered (cs : List Call) : Prop := runs .plain cs = some .plain ∨ runs .plain cs = some .waiting

end Jbo.TextBlk.Spec
