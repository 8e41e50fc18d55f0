import Verif.Gram
/-!
# Model of `relative.c`: what relative clauses belong to, and `ke'a`

What the pass does is the list of properties that it hangs on nodes.  The program looks at the children of a node
before the node, the model after it; nothing that the pass does depends on what it has done before.
-/

namespace Jbo.Relative
open Jbo.Terms

/-- `prop_antecedent`, `prop_require_brac`, `prop_dont_gloss`, `prop_rel_clause_link`, `prop_contains_keha`, and the
message *Shouldn't find relative clause in this context*. -/
inductive Ev
  | antecedent (rel node : Nat)
  | brac (node : Nat)
  | dontGloss (goi : Nat)
  | link (keha rel : Nat)
  | contains (rel : Nat)
  | message (rel : Nat)
deriving DecidableEq, Repr

/-- `process_goi_clause` (`relative.c:24-81`). -/
def goiClause (x : Node) : M (List Ev) := do
  let goi ← asserted (← findCmavo x .GOI)
  let term ← asserted (← findNth x 1 .term)
  match ← ntOf (← childRef term 0) with
  | .termTaggedSumti => return [.dontGloss goi.id]
  | .taggedTermset => return [.dontGloss goi.id]
  | _ => return []

/-- The first loop of `process_any_rel_clause` and the step after it (`relative.c:111-116`): the node around
RELATIVE_CLAUSES. -/
def enclosing : List Node → M Node
  | [] => .error .null
  | .nt _ t _ :: rest =>
    if t = .relativeClauses then
      match rest with
      | e :: _ => .ok e
      | [] => .error .null
    else enclosing rest
  | _ :: _ => .error .uninit

/-- The `switch` (`relative.c:122-166`): the antecedent, `NULL`, or the message. -/
inductive Found
  | node (x : Node)
  | null
  | message

def antecedentOf (encl : Node) : M Found := do
  match ← ntOf encl with
  | .fragment => return .null
  | .sumti => return .node (← childRef encl 0)
  | .sumti5 => return .node (← childRef encl 0)
  | .laheSumti6 => return opt (← findNth encl 1 .sumti)
  | .naheBoSumti6 => return opt (← findNth encl 1 .sumti)
  | .nameSumti6 => return .node encl
  | .sumtiTail => return opt (← findNth encl 1 .sumti6)
  | .sumtiTail1 => return .node (← childRef encl 0)
  | .freeVocative => return .node encl
  | _ => return .message
where
  opt : Option Node → Found
    | some x => .node x
    | none => .null

/-- `process_any_rel_clause` (`relative.c:103-180`). -/
def anyRelClause (anc : List Node) (x : Node) : M (List Ev) := do
  let encl ← enclosing anc
  match ← antecedentOf encl with
  | .node a => return [.antecedent x.id a.id, .brac a.id]
  | .null => return []
  | .message => return [.message x.id]

/-- `process_keha` (`relative.c:190-213`). -/
def keha (x : Node) : List Node → M (List Ev)
  | [] => .error .null
  | .nt i t cs :: rest =>
    if t = .relativeClause then .ok [.link x.id (Node.nt i t cs).id, .contains (Node.nt i t cs).id]
    else if t = .chunks then .ok []
    else keha x rest
  | _ :: _ => .error .uninit

/-- One node in `relative_clause_processing` (`relative.c:246-282`). -/
def node (anc : List Node) (x : Node) : M (List Ev) :=
  match x with
  | .nt _ t _ =>
    match t with
    | .relativeClause => anyRelClause anc x
    | .termRelativeClause => goiClause x
    | _ => .ok []
  | .cmavo _ _ w => if w = "ke'a" then keha x anc else .ok []
  | _ => .ok []

/-- `relative_clause_processing` (`relative.c:246-282`). -/
def relativeClauseProcessing (top : Node) : M (List Ev) := Gram.visit node [] top

end Jbo.Relative
