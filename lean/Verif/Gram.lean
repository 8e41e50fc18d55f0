import Verif.GramRules
import Verif.GramWords
import Verif.Terms
/-!
# The parse trees

What the parser made by `bison` from `rpc2x.y` with the actions of `action.perl` can build, after
`expand_bahe_ui` (`tree.c:556-650`).  The parser itself is not modelled: whatever text it reads, the tree it
returns is put together by the actions of rules.
-/

namespace Jbo.Gram
open Jbo.Terms

/-- A word as the parser takes it for a terminal (`lex2.c:1034-1102`). -/
inductive Base : Item → Node → Prop
  | cmavo {i s w} : w ∈ wordsOf s → Base (.t s) (.cmavo i s w)
  | brivla {i} : Base .brivla (.brivla i)
  | zei {i} : Base .zei (.zei i)
  | leaf {i} : Base .leaf (.leaf i)

/-- Words of BAhE. -/
def AllBahe (bs : List Node) : Prop := ∀ b ∈ bs, ∃ k v, b = Node.cmavo k .BAhE v ∧ v ∈ wordsOf .BAhE

theorem AllBahe.any {bs : List Node} (h : AllBahe bs) : ∀ b ∈ bs, ∃ k v, b = Node.cmavo k .BAhE v := fun b hb => by
  obtain ⟨k, v, e, _⟩ := h b hb
  exact ⟨k, v, e⟩

/-- `is_indicator_cmavo` (`lex2.c:670-687`). -/
def indicators : List Sel := [.UI, .CAI, .Y, .DAhO, .FUhE, .FUhO]

/-- A member of the chain of indicators of a word: it may have words of BAhE before it
(`tree.c:621-625`). -/
inductive Indic : Node → Prop
  | word {i s w} : s ∈ indicators → w ∈ wordsOf s → Indic (.cmavo i s w)
  | marked {j bs i s w} : AllBahe bs → s ∈ indicators → w ∈ wordsOf s → Indic (.nt j .augmented (bs ++ [.cmavo i s w]))

/-- A terminal in the tree: `expand_bahe_ui_internal` (`tree.c:562-629`) puts a word with BAhE or indicators
into a node AUGMENTED. -/
inductive WordR : Item → Node → Prop
  | alone {it x} : Base it x → WordR it x
  | marked {it x j bs rs} : AllBahe bs → Base it x → (∀ r ∈ rs, Indic r) → WordR it (.nt j .augmented (bs ++ x :: rs))

/-- The children, `P` tells what the tree of a non-terminal may be.  A terminator that was left out is put in
(`new_elidable`, `functions.c:90-108`) or not, then `compress_children` (`functions.c:53-69`) closes the gap. -/
inductive Kids (P : NT → Node → Prop) : List Item → List Node → Prop
  | nil : Kids P [] []
  | n {t c its cs} : P t c → Kids P its cs → Kids P (.n t :: its) (c :: cs)
  | word {it c its cs} : WordR it c → Kids P its cs → Kids P (it :: its) (c :: cs)
  | put {s i w its cs} : w ∈ wordsOf s → Kids P its cs → Kids P (.e s :: its) (.cmavo i s w :: cs)
  | out {s its cs} : Kids P its cs → Kids P (.e s :: its) cs

/-- The tree of a non-terminal: the action `new_node_…` of one of its rules (`action.perl:84-94`,
`122-134`; `functions.c:106-453`). -/
inductive Parse : NT → Node → Prop
  | mk {i cs r} : r ∈ rules → Kids Parse r.rhs cs → Parse r.lhs (.nt i r.lhs cs)

/-! ## Walks over the tree

`x->parent` is set by `mark_children` (`functions.c:25-44`) when the parent is made.  A node AUGMENTED is made
later and does not set it: the word in it keeps the parent that it had, and its indicators have none. -/

mutual
/-- A pass over the tree that looks at every node before its children; the pass sees the ancestors of
the node along `parent`, the nearest first. -/
def visit (f : List Node → Node → M (List α)) : List Node → Node → M (List α)
  | anc, .nt i t cs => do
    let e ← f anc (.nt i t cs)
    let es ← if t = .augmented then visitAug f anc cs else visitAll f (.nt i t cs :: anc) cs
    return e ++ es
  | anc, x => f anc x
def visitAll (f : List Node → Node → M (List α)) : List Node → List Node → M (List α)
  | _, [] => .ok []
  | anc, c :: cs => do
    let e ← visit f anc c
    return e ++ (← visitAll f anc cs)
/-- The children of AUGMENTED: the first word that is not BAhE has the ancestors, the others have none. -/
def visitAug (f : List Node → Node → M (List α)) : List Node → List Node → M (List α)
  | _, [] => .ok []
  | anc, c :: cs => do
    if c.isSel .BAhE then
      let e ← visit f [] c
      return e ++ (← visitAug f anc cs)
    else
      let e ← visit f anc c
      return e ++ (← visitAll f [] cs)
end

end Jbo.Gram
