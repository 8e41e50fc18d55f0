import Verif.Dfasyn

/-!
# What the automaton builder should do

The language side: which NFA states can be reached on a word of tokens, and what the tags of a set of
states mean.  Nothing here mentions bit vectors, worklists, classes or tables.
-/

namespace Jbo.Dfasyn

/-- `q` can be reached from `p` by epsilon transitions. -/
inductive EReach (a : Nfa) : Nat → Nat → Prop
  | refl (p : Nat) : EReach a p p
  | step {p q r : Nat} : EReach a p q → (none, r) ∈ (a.state q).trans → EReach a p r

/-- `q` can be reached from `start` by reading the tokens of a word (the last one first in the list,
so `After a s (t :: w)` is the situation after the word `w` and then `t`). -/
inductive After (a : Nfa) (start : Nat) : List Nat → Nat → Prop
  | nil {q : Nat} : EReach a start q → After a start [] q
  | read {w : List Nat} {t p d q : Nat} : After a start w p → (some t, d) ∈ (a.state p).trans →
      EReach a d q → After a start (t :: w) q

/-- A sensible NFA: destinations and tokens exist. -/
def Nfa.WF (a : Nfa) : Prop :=
  ∀ p, ∀ tr ∈ (a.state p).trans, tr.2 < a.n ∧ ∀ t, tr.1 = some t → t < a.nt

/-- `n` is a tag of one of the states in which the NFA can be after `w`. -/
def Tagged (a : Nfa) (get : NState → List Name) (start : Nat) (w : List Nat) (n : Name) : Prop :=
  ∃ q, After a start w q ∧ n ∈ get (a.state q)

/-- The expression is true for the tags, given whether an earlier result was true.  Symbols stand
for their expression if they have one. -/
inductive Holds (x : Evaluator) (tags : Name → Prop) (any : Bool) : Expr → Bool → Prop
  | and {a b : Expr} {u v : Bool} : Holds x tags any a u → Holds x tags any b v →
      Holds x tags any (.and a b) (u && v)
  | andF {a b : Expr} : Holds x tags any a false → Holds x tags any (.and a b) false
  | or {a b : Expr} {u v : Bool} : Holds x tags any a u → Holds x tags any b v →
      Holds x tags any (.or a b) (u || v)
  | orT {a b : Expr} : Holds x tags any a true → Holds x tags any (.or a b) true
  | xor {a b : Expr} {u v : Bool} : Holds x tags any a u → Holds x tags any b v →
      Holds x tags any (.xor a b) (u ^^ v)
  | condT {a b c : Expr} {v : Bool} : Holds x tags any a true → Holds x tags any b v →
      Holds x tags any (.cond a b c) v
  | condF {a b c : Expr} {v : Bool} : Holds x tags any a false → Holds x tags any c v →
      Holds x tags any (.cond a b c) v
  | not {a : Expr} {u : Bool} : Holds x tags any a u → Holds x tags any (.not a) (!u)
  | wild : Holds x tags any .wild any
  | tag {n : Name} : x.lookup n = none → tags n → Holds x tags any (.sym n) true
  | noTag {n : Name} : x.lookup n = none → ¬ tags n → Holds x tags any (.sym n) false
  | defined {n : Name} {e : Expr} {u : Bool} : x.lookup n = some e → Holds x tags any e u →
      Holds x tags any (.sym n) u

/-- The verdict a list of results calls for: nothing if all are false; result number `i` if it is the
only true one; otherwise ambiguous.  `*` is false up to the first true result and true after it. -/
inductive Calls (x : Evaluator) (tags : Name → Prop) : List Result → Verdict → Prop
  | none {rs : List Result} : (∀ r ∈ rs, Holds x tags false r.e false) → Calls x tags rs .none
  | unique {before after : List Result} {r : Result} :
      (∀ r' ∈ before, Holds x tags false r'.e false) → Holds x tags false r.e true →
      (∀ r' ∈ after, Holds x tags true r'.e false) → Calls x tags (before ++ r :: after) (.unique r)
  | ambiguous {before mid after : List Result} {r s : Result} :
      (∀ r' ∈ before, Holds x tags false r'.e false) → Holds x tags false r.e true →
      (∀ r' ∈ mid, Holds x tags true r'.e false) → Holds x tags true s.e true →
      Calls x tags (before ++ r :: (mid ++ s :: after)) .ambiguous

/-- The word leads to a result that is marked early: the caller stops reading there. -/
def EarlyAt (a : Nfa) (start : Nat) (w : List Nat) : Prop :=
  ∃ r, Calls a.exit (Tagged a (·.exits) start w) a.exit.results (.unique r) ∧ r.early = true

/-- A word of tokens of the automaton that the caller reads to its end: no shorter beginning has an
early result. -/
def Open (a : Nfa) (start : Nat) : List Nat → Prop
  | [] => True
  | t :: w => t < a.nt ∧ Open a start w ∧ ¬ EarlyAt a start w

/-- The text of a verdict. -/
def Verdict.text : Verdict → Option Name
  | .unique r => .some r.result
  | _ => Option.none

/-- A table automaton reads a word, last token first; `none` when it jams. -/
def run (step : Nat → Nat → Option Nat) (start : Nat) : List Nat → Option Nat
  | [] => some start
  | t :: w => (run step start w).bind (fun s => step s t)

/-- The transition of a list of nodes. -/
def nodeStep (nodes : List Node) (s t : Nat) : Option Nat := ((nodeAt nodes s).map[t]?).join

end Jbo.Dfasyn
