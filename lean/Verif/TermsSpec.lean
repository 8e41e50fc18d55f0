import Verif.Terms
/-!
# What the labels of terms should be

Written from the rules of the language, not from `terms.c`.
-/

namespace Jbo.Terms.Spec

/-! ## Places -/

/-- A place as the speaker counts it: the `k`-th place of the selbri as it stands, or `fai` number `k`. -/
inductive Surf
  | num (k : Nat)
  | fai (k : Nat)
deriving DecidableEq, Repr

/-- A place as the dictionary counts it: place `p` of the word itself; the place that a tag with `jai` adds;
the place that `jai` alone adds.  `d` tells nested `jai` apart. -/
inductive Target
  | ord (p : Nat)
  | tag (d t u : Nat)
  | event (d : Nat)
deriving DecidableEq, Repr

/-- `se` and its kin exchange place 1 with place `c`. -/
def exchange (c k : Nat) : Nat := if k = 1 then c else if k = c then 1 else k

/-- What a place of a selbri with conversions means, the outermost conversion first. `jai` puts a new place
first and moves the old one to `fai`. -/
def target : List LC → Surf → Option Target
  | [], .num k => some (.ord k)
  | [], .fai _ => none
  | .links _ :: rest, s => target rest s
  | .se c _ :: rest, .num k => target rest (.num (exchange c k))
  | .se _ _ :: rest, .fai k => target rest (.fai k)
  | .jaiTag t u :: rest, .num k => if k = 1 then some (.tag rest.length t u) else target rest (.num k)
  | .jai :: rest, .num k => if k = 1 then some (.event rest.length) else target rest (.num k)
  | .jaiTag _ _ :: rest, .fai k => if k ≤ 1 then target rest (.num 1) else target rest (.fai (k - 1))
  | .jai :: rest, .fai k => if k ≤ 1 then target rest (.num 1) else target rest (.fai (k - 1))

/-- The place named by FA: 1 to 5, or `fai`. -/
def named (p : Nat) : Surf := if p < faiOffset then .num p else .fai (p - faiOffset + 1)

/-- The places that words of FA fill in a group of terms. -/
def faTargets (T : Surf → Option Target) (es : List Entry) : List Target :=
  es.filterMap (fun e => match e with
    | .fa p _ => T (named p)
    | _ => none)

/-- The terms of a group are seated one after the other.  A bare sumti takes the first place from the
counter on that nobody holds; FA takes its place and sets the counter behind it; `fai` takes its place.
`F` are the places that are held: those of earlier groups and those that FA of this group names. -/
inductive Seated (T : Surf → Option Target) : List Target → Nat → List Entry → List (Option Target) → List Target → Prop
  | nil {F b} : Seated T F b [] [] F
  | pos {F b k t id es ts F'} : b ≤ k → T (.num k) = some t → t ∉ F →
      (∀ j, b ≤ j → j < k → ∃ u ∈ F, T (.num j) = some u) →
      Seated T (t :: F) (k + 1) es ts F' → Seated T F b (.pos id :: es) (some t :: ts) F'
  | fa {F b p id es ts F'} : p < faiOffset → Seated T F (p + 1) es ts F' →
      Seated T F b (.fa p id :: es) (T (named p) :: ts) F'
  | fai {F b p id es ts F'} : faiOffset ≤ p → Seated T F b es ts F' →
      Seated T F b (.fa p id :: es) (T (named p) :: ts) F'
  | fiha {F b id es ts F'} : Seated T F b es ts F' → Seated T F b (.fiha id :: es) (none :: ts) F'
  | tag {F b id es ts F'} : Seated T F b es ts F' → Seated T F b (.tag id :: es) (none :: ts) F'

/-- The terms with FA and their places. -/
def shownFa : List Entry → List (Option Target) → List (Nat × Target)
  | .fa _ id :: es, some t :: ts => (id, t) :: shownFa es ts
  | _ :: es, _ :: ts => shownFa es ts
  | _, _ => []

/-- The bare sumti and their places. -/
def shownPos : List Entry → List (Option Target) → List (Nat × Target)
  | .pos id :: es, some t :: ts => (id, t) :: shownPos es ts
  | _ :: es, _ :: ts => shownPos es ts
  | _, _ => []

/-- All terms of a group that get a place, those with FA first. -/
def shown (es : List Entry) (ts : List (Option Target)) : List (Nat × Target) := shownFa es ts ++ shownPos es ts

/-- Linked sumti are seated from the inside outwards, each group in the places of the selbri that it is
linked to, from place 2 on. -/
inductive Chained : List LC → List (Nat × Target) → List Target → Prop
  | nil : Chained [] [] []
  | se {c id rest s F} : Chained rest s F → Chained (.se c id :: rest) s F
  | jai {rest s F} : Chained rest s F → Chained (.jai :: rest) s F
  | jaiTag {t u rest s F} : Chained rest s F → Chained (.jaiTag t u :: rest) s F
  | links {es rest s F ts F'} : Chained rest s F →
      Seated (target rest) (faTargets (target rest) es ++ F) 2 es ts F' →
      Chained (.links es :: rest) (s ++ shown es ts) F'

/-- All seats of a selbri: linked sumti, then the terms before it from place 1 on, then those after it from
place 2 on. -/
def Places (lc : List LC) (pre post : List Entry) (s : List (Nat × Target)) : Prop :=
  ∃ s0 F0 t1 F1 t2 F2, Chained lc s0 F0 ∧
    Seated (target lc) (faTargets (target lc) pre ++ F0) 1 pre t1 F1 ∧
    Seated (target lc) (faTargets (target lc) post ++ F1) 2 post t2 F2 ∧
    s = s0 ++ shown pre t1 ++ shown post t2

/-- What a label says about the place. -/
inductive Seen
  | ord (p : Nat)
  | tag (t u : Nat)
deriving DecidableEq, Repr

/-- What the label should say; `none` for the place of a bare `jai`, which has no number in the dictionary. -/
def Target.seen : Target → Option Seen
  | .ord p => some (.ord p)
  | .tag _ t u => some (.tag t u)
  | .event _ => none

end Jbo.Terms.Spec
