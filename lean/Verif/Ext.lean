import Verif.Token
/-!
# Model of `properties.c`: records hung on the nodes of the tree

Addresses are numbers.  A record has a kind, the address of the next one and its fields; the fields of all the structures of the union
`ExtensionData` are numbered from 0, and a value is a number (an `int` or an address).
-/

namespace Jbo.Ext
open Jbo

/-- `nodes.h:129-148`: `ExtensionType`. -/
inductive Kind
  | conv | baiConv | dontGloss | termVectors | termVector | termTags | glosstype | doneTu1 | doneS3 | tenseCtx | negIndicator | caiIndicator | connective
  | antecedent | requireBrac | relClauseLink | containsKeha | elidable
deriving DecidableEq, Repr

/-- `nodes.h:354-358`: `Extension`. -/
structure Rec where
  kind : Kind
  next : Option Nat
  data : Nat → Nat

/-- The records and, for each node, its field `ext` (`nodes.h:376`).  `count` is the number of records made so far; it is not in the program and
only bounds the loop of `lookup_extension`. -/
structure Heap where
  recs : Nat → Option Rec
  ext : Nat → Option (Option Nat)
  count : Nat

/-- A function with one value changed. -/
def set {α : Type} (f : Nat → α) (i : Nat) (v : α) : Nat → α := fun j => if j = i then v else f j

/-- What can go wrong: reading where there is no record or node, and a loop without end. -/
inductive Bad
  | wild | endless
deriving DecidableEq, Repr

/-- `properties.c:22-27`: the loop of `lookup_extension`. -/
def walk (h : Heap) (k : Kind) : Nat → Option Nat → Except Bad (Option Nat)
  | _, none => .ok none
  | 0, some _ => .error .endless
  | n + 1, some p => match h.recs p with
    | none => .error .wild
    | some r => if r.kind = k then .ok (some p) else walk h k n r.next

/-- `properties.c:18-28`: `lookup_extension`. -/
def lookup (h : Heap) (x : Nat) (k : Kind) : Except Bad (Option Nat) := match h.ext x with
  | none => .error .wild
  | some y => walk h k h.count y

/-- `properties.c:35-50`: `obtain_extension`; `new` returns the address `a`, where the fields have the values `g` by chance. -/
def obtain' (h : Heap) (x : Nat) (k : Kind) (a : Nat) (g : Nat → Nat) : Except Bad (Nat × Heap) := match lookup h x k with
  | .error e => .error e
  | .ok (some p) => .ok (p, h)
  | .ok none => match h.ext x with
    | none => .error .wild
    | some y => .ok (a, ⟨set h.recs a (some ⟨k, y, g⟩), set h.ext x (some (some a)), h.count + 1⟩)

/-- `properties.c:59-70`: `fetch_conversion`, for all kinds. -/
def fetch (h : Heap) (x : Nat) (create : Bool) (k : Kind) (a : Nat) (g : Nat → Nat) : Except Bad (Option Nat × Heap) :=
  if create then match obtain' h x k a g with
    | .error e => .error e
    | .ok (p, h') => .ok (some p, h')
  else match lookup h x k with
    | .error e => .error e
    | .ok r => .ok (r, h)

/-- A write to a field of the record at `p`. -/
def write (h : Heap) (p f v : Nat) : Except Bad Heap := match h.recs p with
  | none => .error .wild
  | some r => .ok { h with recs := set h.recs p (some { r with data := set r.data f v }) }

/-- The field `is_tertau` of `XGlosstype` (`nodes.h:176`). -/
def tertau : Nat := 1

/-- `properties.c:141-152`: `prop_glosstype`. -/
def glosstype (h : Heap) (x : Nat) (create : Bool) (a : Nat) (g : Nat → Nat) : Except Bad (Option Nat × Heap) :=
  match fetch h x false .glosstype a g with
  | .error e => .error e
  | .ok (some p, h') => .ok (some p, h')
  | .ok (none, h') =>
    if create then match fetch h' x true .glosstype a g with
      | .error e => .error e
      | .ok (none, _) => .error .wild
      | .ok (some p, h'') => match write h'' p tertau 0 with
        | .error e => .error e
        | .ok h3 => .ok (some p, h3)
    else .ok (none, h')

/-- `properties.c:77-265`: the functions `prop_…`; all but that for `EX_GLOSSTYPE` are alike. -/
def prop (h : Heap) (x : Nat) (k : Kind) (create : Bool) (a : Nat) (g : Nat → Nat) : Except Bad (Option Nat × Heap) :=
  if k = .glosstype then glosstype h x create a g else fetch h x create k a g

/-- What the passes do: make a node (`functions.c:77-86`: `new_node`), ask for a record, write and read its fields. -/
inductive Op
  | node (x : Nat)
  | prop (x : Nat) (k : Kind) (create : Bool) (a : Nat) (g : Nat → Nat)
  | write (p f v : Nat)
  | read (p f : Nat)

/-- What has been done, with the answers. -/
inductive Ev
  | node (x : Nat)
  | got (x : Nat) (k : Kind) (create : Bool) (r : Option Nat)
  | wrote (p f v : Nat)
  | saw (p f v : Nat)
deriving DecidableEq, Repr

/-- One step. -/
def step (h : Heap) : Op → Except Bad (Heap × Ev)
  | .node x => .ok ({ h with ext := set h.ext x (some none) }, .node x)
  | .prop x k c a g => match prop h x k c a g with
    | .error e => .error e
    | .ok (r, h') => .ok (h', .got x k c r)
  | .write p f v => match write h p f v with
    | .error e => .error e
    | .ok h' => .ok (h', .wrote p f v)
  | .read p f => match h.recs p with
    | none => .error .wild
    | some r => .ok (h, .saw p f (r.data f))

/-- Nothing has been made. -/
def empty : Heap := ⟨fun _ => none, fun _ => none, 0⟩

end Jbo.Ext
