import Verif.Gram
/-!
# Model of `tenses.c`: how tense words are glossed

What the pass does is the list of contexts that it hangs on nodes (`prop_tense_ctx`).
-/

namespace Jbo.Tenses
open Jbo.Terms

/-- `tense_contexts` without `TSC_OTHER` (`nodes.h:263-273`). -/
inductive Ctx
  | selbri | term | noun | link | connect | jaitag
deriving DecidableEq, Repr

structure Ev where
  id : Nat
  ctx : Ctx
deriving DecidableEq, Repr

/-- A case of the `switch` in `check_tense_context` (`tenses.c:48-131`): a context, an end without one,
`abort()`, or on to the parent. -/
inductive Case
  | found (c : Ctx)
  | done
  | abort
  | up
deriving DecidableEq, Repr

def caseOf : NT → Case
  | .termTaggedSumti | .taggedTermset => .found .term
  | .text1c | .iJjStagBo | .gihekStagKe | .gihekStagBo | .joikEkKe | .joikEkStagBo | .joikStagKe | .joikJekStagBo => .found .link
  | .sumti5b | .sumtiTail1 => .found .noun
  | .statement3 | .termFloatingTense | .gekSentence | .mainSelbri | .metalinguisticMainSelbri => .found .selbri
  | .jaiTagTu2 => .found .jaitag
  | .mexOperator => .done
  | .operand3 => .done
  | .complexTenseModal => .done
  | .free => .done
  | .gek => .found .connect
  | .chunks => .abort
  | _ => .up

/-- The loop of `check_tense_context` (`tenses.c:31-138`) over the ancestors. -/
def climb (x : Node) : List Node → M (List Ev)
  | [] => .error .null
  | .nt _ t _ :: rest => match caseOf t with
    | .found c => .ok [⟨x.id, c⟩]
    | .done => .ok []
    | .abort => .error .abort
    | .up => climb x rest
  | _ :: _ => .error .uninit

/-- One node in `scan_tenses` (`tenses.c:147-188`). -/
def node (anc : List Node) (x : Node) : M (List Ev) :=
  match x with
  | .nt _ t _ =>
    match t with
    | .timeOffset | .spaceIntProp | .intervalProperty => climb x anc
    | _ => .ok []
  | .cmavo _ s _ =>
    match s with
    | .ZAhO | .VA | .FAhA | .BAI | .PU => climb x anc
    | _ => .ok []
  | _ => .ok []

/-- `tense_processing` (`tenses.c:196-201`). -/
def tenseProcessing (top : Node) : M (List Ev) := Gram.visit node [] top

end Jbo.Tenses
