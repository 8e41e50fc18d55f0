import Verif.Lex2

/-!
# Model of `tree.c`: parse trees, expansion of attachments, singleton compression, bracketed
output (without the `-x` glossing option)
-/

namespace Jbo.Tree
open Jbo Lex2

/-- `nonterm.h` (generated): the added type `AUGMENTED`, or any other. -/
inductive Ty
  | augmented
  | nt (k : Nat)
deriving DecidableEq, Repr

/-- Parse trees (`nodes.h:178-190` and the terminal nodes) over leaves `α`. -/
inductive Tree (α : Type) where
  | leaf (a : α)
  | node (ty : Ty) (cs : List (Tree α))

/-- `tree.c:600-608`: the chain of ba'e hanging on a node, as children in text order
(`children[n_b - ++j]` reverses the chain). -/
def baheLeaves (bs : List Tok) : List (Tree Node) := bs.map (fun b => .leaf { leaf := { tok := b } })

/-- `tree.c:623-625`: an indicator of the list, itself a node with no indicators but possibly
ba'e. -/
def expandUi (l : Leaf) : Tree Node :=
  if l.bahe = [] then .leaf { leaf := l }
  else .node .augmented (baheLeaves l.bahe ++ [.leaf { leaf := l }])

/-- `tree.c:580-627`: a terminal node.  `y->bahe` is not reset by the code, so the leaf keeps
its (stale) chain; the list of indicators is reset. -/
def expandLeaf (n : Node) : Tree Node :=
  if n.leaf.bahe = [] ∧ n.ui = [] then .leaf n
  else .node .augmented
    (baheLeaves n.leaf.bahe ++ .leaf { leaf := n.leaf } :: n.ui.map expandUi)

mutual
/-- `tree.c:566-630` `expand_bahe_ui_internal`, returning the new child. -/
def expand : Tree Node → Tree Node
  | .leaf n => expandLeaf n
  | .node ty cs => .node ty (expandList cs)
/-- the loop at `tree.c:576-578` -/
def expandList : List (Tree Node) → List (Tree Node)
  | [] => []
  | c :: cs => expand c :: expandList cs
end

/-- `tree.c:636-647` `expand_bahe_ui`: only a non-terminal root is expanded. -/
def expandTop : Tree Node → Tree Node
  | .leaf n => .leaf n
  | .node ty cs => .node ty (expandList cs)

/-- `tree.c:33-38`: raise the only child. -/
def strip {α} : Tree α → Tree α
  | .node _ [c] => strip c
  | t => t

theorem strip_size {α} (t : Tree α) : sizeOf (strip t) ≤ sizeOf t := by
  induction t using strip.induct with
  | case1 ty c ih => rw [strip]; simp; omega
  | case2 t h => rw [strip]; · exact Nat.le_refl _
                 · exact h

/-- `tree.c:23-42` `compress_singletons`. -/
def compress {α} : Tree α → Tree α
  | .leaf a => .leaf a
  | .node ty cs => .node ty (cs.attach.map (fun c => compress (strip c.1)))
termination_by t => sizeOf t
decreasing_by
  have h1 := List.sizeOf_lt_of_mem c.2
  have h2 := strip_size c.1
  simp; omega

/-! ## Bracketed output -/

/-- What is printed: brackets (with their depth), a space, a newline, a piece of text. -/
inductive Ev
  | op (d : Nat) | cl (d : Nat) | sp | nl | txt (w : Word)
deriving DecidableEq, Repr

/-- `tree.c:233-237` `State`. -/
inductive St
  | B_OPEN | B_TEXT | B_CLOSE
deriving DecidableEq, Repr

/-- A leaf as the printer sees it: the node, its count of line ends, whether it is an inserted
terminator. -/
structure PLeaf where
  leaf : Leaf
  eols : Nat := 0
  elid : Bool := false
deriving DecidableEq, Repr

/-- `functions.c:675-684` `make_uppercase` (ASCII). -/
def upper (w : Word) : Word := w.map Char.toUpper

/-- `tree.c:376-388`: the pieces printed for a scaled indicator. -/
def caiPieces : Cai → List Word
  | .CAI => ["cai".toList]
  | .SAI => ["sai".toList]
  | .RUhE => ["ru'e".toList]
  | .CUhI => ["cu'i".toList]
  | .PEI => ["pei".toList]
  | .CAINAI => ["cai".toList, "nai".toList]
  | .SAINAI => ["sai".toList, "nai".toList]
  | .RUhENAI => ["ru'e".toList, "nai".toList]
  | .PEINAI => ["pei".toList]

/-- `tree.c:365-394`: the words printed for a cmavo. -/
def cmavoPieces (p : PLeaf) (s : Sel) (w : Word) : List Word :=
  if p.elid then [upper w]
  else w ::
    (if s = .UI then
      (if p.leaf.neg then ["nai".toList] else []) ++
        (match p.leaf.cai with | none => [] | some c => caiPieces c)
    else if s = .CAI then (if p.leaf.neg then ["nai".toList] else [])
    else [])

/-- Pieces separated by spaces. -/
def spaced : List Word → List Ev
  | [] => []
  | [w] => [.txt w]
  | w :: ws => .txt w :: .sp :: spaced ws

/-- `SPACE_B4_TEXT`, `tree.c:239-245`. -/
def spaceB4 (st : St) : List Ev := if st = .B_TEXT ∨ st = .B_CLOSE then [.sp] else []

/-- `clear_eols`, `tree.c:251-262`: output and new state. -/
def clearEols (st : St) (pend : Nat) : List Ev × St :=
  if pend > 0 then (List.replicate pend .nl, .B_OPEN) else ([], st)

/-- `tree.c:359-539`: a terminal. -/
def prLeaf (p : PLeaf) (depth : Nat) (st0 : St) (pend : Nat) : List Ev × St × Nat :=
  let (e0, st) := clearEols st0 pend
  match p.leaf.tok with
  | .cmavo s w => (e0 ++ spaceB4 st ++ spaced (cmavoPieces p s w), .B_TEXT, p.eols)
  | .zoi _ term text => (e0 ++ spaceB4 st ++ spaced ["zoi".toList, term, text, term], .B_TEXT, p.eols)
  | .zo text => (e0 ++ spaceB4 st ++ spaced ["zo".toList, text], .B_TEXT, p.eols)
  | .zei parts =>
    (e0 ++ [.op (depth + 1), .txt (joinWith " zei ".toList parts), .nl, .cl (depth + 1)], .B_CLOSE, p.eols)
  | .lohu text =>
    (e0 ++ spaceB4 st ++ [.op (depth + 1)] ++ spaced ["lo'u".toList, text, "le'u".toList] ++
      [.cl (depth + 1)], .B_CLOSE, p.eols)
  | .bu w => (e0 ++ spaceB4 st ++ spaced [w, "bu".toList], .B_TEXT, p.eols)
  | .brivla w => (e0 ++ spaceB4 st ++ [.txt w], .B_TEXT, p.eols)
  | .cmene w => (e0 ++ spaceB4 st ++ [.txt w], .B_TEXT, p.eols)
  | _ => (e0, st, p.eols)

mutual
/-- `tree.c:306-540` `print_bracketed` with `do_glossing` off. -/
def pr : Tree PLeaf → Nat → St → Nat → List Ev × St × Nat
  | .leaf p, depth, st, pend => prLeaf p depth st pend
  | .node _ cs, depth, st0, pend =>
    let (e0, st) := clearEols st0 pend
    let (e1, _, pend') := prList cs (depth + 1) .B_OPEN 0
    (e0 ++ spaceB4 st ++ [.op depth] ++ e1 ++ [.cl depth], .B_CLOSE, pend')
/-- the loop over the children -/
def prList : List (Tree PLeaf) → Nat → St → Nat → List Ev × St × Nat
  | [], _, st, pend => ([], st, pend)
  | c :: cs, depth, st, pend =>
    let (e1, st1, p1) := pr c depth st pend
    let (e2, st2, p2) := prList cs depth st1 p1
    (e1 ++ e2, st2, p2)
end

/-- `tree.c:547-556` `print_bracketed_text`. -/
def printText (t : Tree PLeaf) : List Ev := (pr t 0 .B_OPEN 0).1 ++ [.nl]

/-- `print_open`, `print_close`, `tree.c:268-292`. -/
def render : Ev → List Char
  | .op d =>
    if d % 4 = 0 then '(' :: (toString (d / 4)).toList
    else if d % 4 = 1 then ['['] else if d % 4 = 2 then ['{'] else ['<']
  | .cl d =>
    if d % 4 = 0 then ')' :: (toString (d / 4)).toList
    else if d % 4 = 1 then [']'] else if d % 4 = 2 then ['}'] else ['>']
  | .sp => [' ']
  | .nl => ['\n']
  | .txt w => w

/-! ## Structured output -/

/-- One line of the tree display: indentation and what is shown (`tree.c:96-216`
`print_tree`, reduced to the node order and depth: children are printed before their parent;
markers print nothing). -/
inductive Line
  | nt (ty : Ty) (indent : Nat)
  | term (p : PLeaf) (indent : Nat)

mutual
/-- `tree.c:96-216` `print_tree`. -/
def tr : Tree PLeaf → Nat → List Line
  | .leaf p, d => match p.leaf.tok with
    | .marker _ => []
    | _ => [.term p d]
  | .node ty cs, d => trList cs (d + 1) ++ [.nt ty d]
/-- the loop `tree.c:103-105` -/
def trList : List (Tree PLeaf) → Nat → List Line
  | [], _ => []
  | c :: cs, d => tr c d ++ trList cs d
end

end Jbo.Tree
