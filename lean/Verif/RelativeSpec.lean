import Verif.Relative
import Verif.GramOcc
/-!
# What relative clauses belong to
-/

namespace Jbo.Relative.Spec
open Jbo.Terms Jbo.Terms.Spec Jbo.Gram

/-- The antecedent of relative clauses that stand in a node. -/
inductive Antecedent : Node → Node → Prop
  /-- `… vu'o poi …`: the whole sumti before it -/
  | sumti {i a ds} : a.isNT .sumti1 = true → Antecedent (.nt i .sumti (a :: ds)) a
  /-- `le gerku ku poi …`, `da poi …` -/
  | sumti5 {i a ds} : a.isNT .sumti5a = true ∨ a.isNT .sumti5b = true → Antecedent (.nt i .sumti5 (a :: ds)) a
  /-- `la'e poi … ku'o mi`, `na'e bo poi … ku'o mi`: the sumti after it -/
  | lahe {i t ds a} : t = .laheSumti6 ∨ t = .naheBoSumti6 → kids ds .sumti = [a] → Antecedent (.nt i t ds) a
  /-- `la poi … ku'o djan`: the name -/
  | name {i ds} : Antecedent (.nt i .nameSumti6 ds) (.nt i .nameSumti6 ds)
  /-- `le mi poi … ku'o gerku`: the sumti before it -/
  | owner {i ds a} : kids ds .sumti6 = [a] → Antecedent (.nt i .sumtiTail ds) a
  /-- `le gerku poi …` -/
  | tail {i a ds} : a.isNT .sumtiTail1a = true → Antecedent (.nt i .sumtiTail1 (a :: ds)) a
  /-- `coi djan poi …`, `coi poi … ku'o djan`: the whole vocative -/
  | vocative {i ds} : Antecedent (.nt i .freeVocative ds) (.nt i .freeVocative ds)

/-- The nodes between a relative clause and the node in which it stands: the sequence of clauses joined by `zi'e`. -/
def Stands (anc : List Node) (encl : Node) : Prop :=
  ∃ near i cs rest, anc = near ++ .nt i .relativeClauses cs :: encl :: rest ∧ ∀ y ∈ near, y.isNT .relativeClauseSeq = true

/-- A clause with NOI. -/
def noiClause (r : Node) : Prop := ∃ i j cs, r = .nt i .relativeClause [.nt j .fullRelativeClause cs]

/-- A clause with NOI, or a phrase with GOI. -/
def anyClause (r : Node) : Prop := ∃ i cs, r = .nt i .relativeClause cs

/-- The nearest node of a kind. -/
def Nearest (P : Node → Prop) (anc : List Node) (r : Node) : Prop :=
  ∃ near rest, anc = near ++ r :: rest ∧ P r ∧ ∀ y ∈ near, ¬ P y

/-- What is to be hung on nodes because of a node and its ancestors; `P` are the clauses to which `ke'a` belongs. -/
inductive Told (P : Node → Prop) : List Node → Node → Ev → Prop
  /-- the antecedent is known to the clause, and is shown in brackets -/
  | clause {anc i cs encl a e} : Stands anc encl → Antecedent encl a → e ∈ [Ev.antecedent i a.id, .brac a.id] →
      Told P anc (.nt i .relativeClause cs) e
  /-- `pe` before a tagged sumti is not shown -/
  | goi {anc i g j w cs k t n ts r} : Word g j .GOI w → kids cs .term = [.nt k .term (.nt n t ts :: r)] →
      t ∈ [NT.termTaggedSumti, .taggedTermset] → Told P anc (.nt i .termRelativeClause (g :: cs)) (.dontGloss j)
  /-- `ke'a` and the clause know of each other -/
  | keha {anc i r e} : Nearest P anc r → e ∈ [Ev.link i r.id, .contains r.id] → Told P anc (.cmavo i .KOhA "ke'a") e

/-- A text in which no `ke'a` stands in a phrase with GOI, but for clauses with NOI in this phrase. -/
def NoGoi (top : Node) : Prop :=
  ∀ anc i near r rest, Occ top anc (.cmavo i .KOhA "ke'a") → anc = near ++ r :: rest → anyClause r → (∀ y ∈ near, ¬ anyClause y) → noiClause r

end Jbo.Relative.Spec
