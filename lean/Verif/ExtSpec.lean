import Verif.Ext
/-!
# Specification: the records of the nodes

Everything is said about the list of what has been done, the newest first.  Nothing is said about memory.
-/

namespace Jbo.Ext.Spec
open Jbo.Ext

/-- What the passes may do: nodes and records that are made anew have addresses that none has; a record is asked for on a node that has been
made; fields are read and written only of records that were handed out. -/
def Legal (es : List Ev) : Op → Prop
  | .node x => .node x ∉ es
  | .prop x _ _ a _ => .node x ∈ es ∧ ∀ y k c, .got y k c (some a) ∉ es
  | .write p _ _ => ∃ x k c, .got x k c (some p) ∈ es
  | .read p _ => ∃ x k c, .got x k c (some p) ∈ es

/-- The answer is to the question. -/
def Answers : Op → Ev → Prop
  | .node x, e => e = .node x
  | .prop x k c _ _, e => ∃ r, e = .got x k c r
  | .write p f v, e => e = .wrote p f v
  | .read p f, e => ∃ v, e = .saw p f v

/-- What a field is known to hold: what was last written to it; before that, a record for glosses says that the word is no tertau. -/
def told : List Ev → Nat → Nat → Option Nat
  | [], _, _ => none
  | .wrote q g v :: es, p, f => if q = p ∧ g = f then some v else told es p f
  | .got _ .glosstype _ (some q) :: es, p, f => (told es p f).orElse fun _ => if q = p ∧ f = 1 then some 0 else none
  | _ :: es, p, f => told es p f

/-- The right answers.  A node that was given a record of a kind has the same one ever after; one that was not has none, or is given a new one if that is
wanted; a field holds what it is known to hold. -/
def Right (es : List Ev) : Ev → Prop
  | .got x k c r => (∀ c' p, .got x k c' (some p) ∈ es → r = some p) ∧
      ((∀ c' p, .got x k c' (some p) ∉ es) → if c then ∃ p, r = some p ∧ ∀ y k' c', .got y k' c' (some p) ∉ es else r = none)
  | .saw p f v => ∀ w, told es p f = some w → v = w
  | _ => True

/-- The states that the program comes to, with what has been done. -/
inductive Reach : Heap → List Ev → Prop
  | start : Reach empty []
  | step {h es op h' e} : Reach h es → Legal es op → Ext.step h op = .ok (h', e) → Reach h' (e :: es)

end Jbo.Ext.Spec
