import Verif.Gram
import Verif.Ext
/-!
# Model of `new_node_…` of `functions.c`: how nodes are made, with their links

Addresses are numbers; the number of a node in the tree is its address.
-/

namespace Jbo.Make
open Jbo.Terms Jbo.Gram Jbo.Ext

/-- The parts of `TreeNode` (`nodes.h:363-400`) that the functions below write: the link to the parent (`none`: no value yet), the line and column of the
start, and for a non-terminal its type and children. -/
structure Cell where
  parent : Option Nat
  start : Nat × Nat
  kids : Option (NT × List (Option Nat))
deriving DecidableEq

abbrev Heap := Nat → Option Cell

/-- A null pointer, an address where there is no node. -/
inductive Fault
  | null | wild
deriving DecidableEq, Repr

/-- `functions.c:63-67`: the loop of `compress_children`, which works in place; `m` more steps, from `i`. -/
def squeeze : Nat → Nat → Nat → List (Option Nat) → List (Option Nat) × Nat
  | 0, _, j, arr => (arr, j)
  | m + 1, i, j, arr =>
    let v := (arr[i]?).join
    squeeze m (i + 1) (if v.isSome then j + 1 else j) (arr.set j v)

/-- `functions.c:34-37`: the loop of `mark_children`. -/
def markAll (h : Heap) (p : Nat) : List (Option Nat) → Except Fault Heap
  | [] => .ok h
  | none :: _ => .error .null
  | some c :: cs => match h c with
    | none => .error .wild
    | some x => markAll (set h c (some { x with parent := some p })) p cs

/-- `functions.c:38-44`: the end of `mark_children`. -/
def startOf (h : Heap) : List (Option Nat) → Except Fault (Nat × Nat)
  | [] => .ok (0, 0)
  | none :: _ => .error .null
  | some c :: _ => match h c with
    | none => .error .wild
    | some x => .ok x.start

/-- `functions.c:113-455`: `new_node_0` to `new_node_12`; `new` returns the address `a`. -/
def newNode (h : Heap) (a : Nat) (t : NT) (args : List (Option Nat)) : Except Fault Heap :=
  let (arr, n) := squeeze args.length 0 0 args
  let kids := arr.take n
  match markAll h a kids with
  | .error e => .error e
  | .ok h1 => match startOf h1 kids with
    | .error e => .error e
    | .ok s => .ok (set h1 a (some ⟨none, s, some (t, kids)⟩))

mutual
/-- The address of the node as the parser has it: that of the word, if `expand_bahe_ui` will put a node around it. -/
def base : Node → Nat
  | .nt i t cs => if t = .augmented then baseWord cs else i
  | x => x.id
def baseWord : List Node → Nat
  | [] => 0
  | c :: cs => if c.isSel .BAhE then baseWord cs else base c
end

mutual
/-- The parser makes the children, then the node (`action.perl:84-94`, `122-134`).  `pos` is where the words start (line 0 and column 0 for a terminator that was
put in, `functions.c:99`); `args` gives the arguments of `new_node_…`, with null pointers for terminators that were left out.  Words are made by the lexer
before; here they are made when they are needed. -/
def build (pos : Nat → Nat × Nat) (args : Nat → List Nat → List (Option Nat)) (h : Heap) : Node → Except Fault Heap
  | .nt i t cs =>
    if t = .augmented then buildWord pos args h cs
    else match buildAll pos args h cs with
      | .error e => .error e
      | .ok h1 => newNode h1 i t (args i (cs.map base))
  | x => .ok (set h x.id (some ⟨none, pos x.id, none⟩))
def buildAll (pos : Nat → Nat × Nat) (args : Nat → List Nat → List (Option Nat)) (h : Heap) : List Node → Except Fault Heap
  | [] => .ok h
  | c :: cs => match build pos args h c with
    | .error e => .error e
    | .ok h1 => buildAll pos args h1 cs
/-- Of a word with BAhE and indicators only the word goes through the parser. -/
def buildWord (pos : Nat → Nat × Nat) (args : Nat → List Nat → List (Option Nat)) (h : Heap) : List Node → Except Fault Heap
  | [] => .ok h
  | c :: cs => if c.isSel .BAhE then buildWord pos args h cs else build pos args h c
end

/-- `tree.c:580-619`: a step of `expand_bahe_ui_internal` for the child of `x` at `at`: a node AUGMENTED is made at `j` with the children `ds` (BAhE, the word,
indicators) and takes its place.  Its start and its parent get no value (`s` is by chance). -/
def wrap (h : Heap) (x n j : Nat) (ds : List Nat) (s : Nat × Nat) : Except Fault Heap := match h x with
  | some ⟨p, q, some (t, kids)⟩ => .ok (set (set h j (some ⟨none, s, some (.augmented, ds.map some)⟩)) x (some ⟨p, q, some (t, kids.set n (some j))⟩))
  | _ => .error .wild

/-- `x->parent` again and again. -/
def climb (h : Heap) : Nat → Nat → Option Nat
  | 0, a => some a
  | n + 1, a => match h a with
    | some c => match c.parent with
      | some p => climb h n p
      | none => none
    | none => none

end Jbo.Make
