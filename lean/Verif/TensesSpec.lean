import Verif.Tenses
import Verif.GramOcc
/-!
# Where a tense stands
-/

namespace Jbo.Tenses.Spec
open Jbo.Terms Jbo.Terms.Spec Jbo.Gram

/-- Where a tense or a selbri with a tense may stand. -/
def places : List (NT × Ctx) := [
  -- before a sumti or a termset
  (.termTaggedSumti, .term), (.taggedTermset, .term),
  -- in a connective, as in `.ijebabo`
  (.text1c, .link), (.iJjStagBo, .link), (.gihekStagKe, .link), (.gihekStagBo, .link), (.joikEkKe, .link), (.joikEkStagBo, .link),
  (.joikStagKe, .link), (.joikJekStagBo, .link),
  -- in a description, as in `le ca nolraitru`
  (.sumti5b, .noun), (.sumtiTail1, .noun),
  -- before the selbri of a sentence, before a group of sentences, or alone with `ku`
  (.statement3, .selbri), (.termFloatingTense, .selbri), (.gekSentence, .selbri), (.mainSelbri, .selbri),
  (.metalinguisticMainSelbri, .selbri),
  -- after `jai`
  (.jaiTagTu2, .jaitag),
  -- as in `ca gi … gi …`
  (.gek, .connect)]

/-- A selbri in a mathematical expression, in a vocative and after `fi'o` gives its tense no context. -/
def mute (x : Node) : Prop :=
  ∃ i t cs, x = .nt i t cs ∧ (t ∈ [NT.mexOperator, .operand3, .free] ∨
    t = .complexTenseModal ∧ ∃ c ∈ cs, ∃ j w, Word c j .FIhO w)

/-- The same, with the tense before a free modifier, as in `ca xi re`, taken for one after `fi'o`. -/
def muteAll (x : Node) : Prop := ∃ i t cs, x = .nt i t cs ∧ t ∈ [NT.mexOperator, .operand3, .free, .complexTenseModal]

/-- A node is a place for a tense. -/
def placed (x : Node) : Prop := ∃ i t cs c, x = .nt i t cs ∧ (t, c) ∈ places

/-- The nearest place around a node has this context. -/
def Within (mute : Node → Prop) (anc : List Node) (c : Ctx) : Prop :=
  ∃ near i t cs rest, anc = near ++ .nt i t cs :: rest ∧ (t, c) ∈ places ∧ ∀ y ∈ near, ¬ placed y ∧ ¬ mute y

/-- The tense words, and the groups of them that are glossed as one. -/
def isTense (x : Node) : Prop :=
  (∃ i t cs, x = .nt i t cs ∧ t ∈ [NT.timeOffset, .spaceIntProp, .intervalProperty]) ∨
    ∃ i s w, x = .cmavo i s w ∧ s ∈ [Sel.ZAhO, .VA, .FAhA, .BAI, .PU]

/-- What a node is to get. -/
def Told (mute : Node → Prop) (anc : List Node) (x : Node) (e : Ev) : Prop := isTense x ∧ e.id = x.id ∧ Within mute anc e.ctx

/-- A text without free modifiers after a tense, as in `ca xi re`. -/
def NoFree (top : Node) : Prop :=
  ∀ anc i cs c, Occ top anc (.nt i .complexTenseModal cs) → c ∈ cs → c.isNT .simpleTenseModal = false

end Jbo.Tenses.Spec
