import Verif.TensesSpec
import Verif.GramEx
/-!
# The context of tenses on every parse tree
-/

namespace Jbo.Tenses
open Jbo.Terms Jbo.Terms.Spec Jbo.Gram Spec

/-- The non-terminals that stand in a text with no place for a tense around them. -/
def open' : List NT := [
  .bridiTail, .bridiTail1, .bridiTail2, .bridiTail3, .chunks, .cmeneSeq, .ek, .fragment, .freeSeq,
  .fullRelativeClause, .gihek, .gik, .guhek, .iJoikJek, .iOptFreeSeq, .indicator, .indicatorSeq, .indicators,
  .innerNumber, .innerStatement, .jek, .jekOptKe, .joik, .joikOptKe, .keOperand, .keOperator, .keSumti,
  .laheSumti6, .lerfuString, .lerfuWord, .linkargs, .links, .mex, .mex1, .mex2, .mex2Seq, .mexInfix, .mexRp,
  .naheBoSumti6, .naiSeq, .nameSumti6, .nihoSeq, .nihoSeqFreeSeq, .noCuSentence, .number, .observativeSentence,
  .operand, .operand1, .operand2, .operator, .operator1, .operator2, .paragraph, .paragraphs, .prenex,
  .quantifier, .relativeClause, .relativeClauseSeq, .relativeClauses, .rpExpression, .sentence, .statement,
  .statement1, .statement2, .subsentence, .sumti, .sumti1, .sumti2, .sumti3, .sumti4, .sumti5, .sumti5a,
  .sumti6, .sumtiTail, .tailTerms, .term, .termFloatingNegate, .termOther, .termPlacedSumti, .termPlainSumti,
  .termRelativeClause, .terms, .terms1, .terms2, .termset, .termsetBody, .termsetStart, .text, .text1, .text1a,
  .text1b]

def tenseSels : List Sel := [.ZAhO, .VA, .FAhA, .BAI, .PU]
def tenseTypes : List NT := [.timeOffset, .spaceIntProp, .intervalProperty]

/-- The loop stops at a node of this type. -/
def stops (t : NT) : Bool := match caseOf t with
  | .found _ => true
  | .done => true
  | _ => false

/-- No tense stands in the open: checked over all rules. -/
theorem open_rules : rules.all (fun r => !(open'.contains r.lhs) || r.rhs.all (fun it => match it with
    | .n u => open'.contains u || stops u
    | .t s => !(tenseSels.contains s)
    | .e s => !(tenseSels.contains s)
    | _ => true)) = true := by decide +kernel

theorem open_types : tenseTypes.all (fun t => !(open'.contains t)) = true := by decide +kernel

/-- Texts stand in texts only at the top. -/
theorem chunks_rules : rules.all (fun r => !(r.rhs.contains (.n .chunks)) || r.lhs == .chunks) = true := by decide +kernel

/-- A node at which the loop does not stop. -/
def Loose (y : Node) : Prop := ∀ i t cs, y = .nt i t cs → stops t = false

theorem open_named {u : NT} (hu : u ∈ open') {it : Item} (h : Named u it) :
    (∀ v, it = .n v → stops v = false → v ∈ open') ∧ (∀ s, it = .t s ∨ it = .e s → s ∉ tenseSels) := by
  obtain ⟨r, hr, rfl, hi⟩ := h
  have h1 := all_mem open_rules hr
  simp only [Bool.or_eq_true, Bool.not_eq_true', List.contains_eq_mem, decide_eq_false_iff_not] at h1
  have h2 := List.all_eq_true.1 (h1.resolve_left (fun h => h hu)) it hi
  refine ⟨?_, ?_⟩
  · rintro v rfl hv
    simpa [hv] using h2
  · rintro s (rfl | rfl) <;> simpa using h2

/-- A node with no place around it is of one of the open types. -/
theorem stand_open {top : Node} (hp : Parse .chunks top) {anc : List Node} {x : Node} (h : Stand top anc x) :
    ∀ i t cs, x = .nt i t cs → t ≠ .augmented → Loose x → (∀ y ∈ anc, Loose y) → t ∈ open' := by
  induction h with
  | top hq =>
    rintro i t cs rfl _ _ _
    obtain ⟨_, _, _, e, _⟩ := parse_inv hp
    cases e
    decide
  | @child anc j u ds v c pu _ hc hn hv ih =>
    rintro i t cs rfl ht hl hall
    obtain ⟨_, _, _, e, _⟩ := parse_inv hv
    cases e
    have hu := ih j u ds rfl (parse_not_aug pu) (hall _ (List.mem_cons_self ..)) (fun y hy => hall y (List.mem_cons_of_mem _ hy))
    exact (open_named hu hn).1 _ rfl (hl i _ cs rfl)
  | word _ _ _ _ hw _ => rintro i t cs rfl ht; exact absurd (word_sub hw .refl rfl) ht
  | put _ _ _ _ _ _ => rintro i t cs e; cases e
  | inner _ _ _ _ _ hb _ _ => rintro i t cs rfl; cases hb
  | bahe _ => rintro i t cs e; cases e
  | indic hi => rintro i t cs rfl ht; exact absurd (indic_sub hi .refl rfl) ht
  | indicWord _ _ => rintro i t cs e; cases e

/-- Around a tense there is a place. -/
theorem tense_placed {top : Node} (hp : Parse .chunks top) {anc : List Node} {x : Node} (ho : Occ top anc x) (hx : isTense x) :
    ¬ ∀ y ∈ anc, Loose y := by
  intro hl
  rcases hx with ⟨i, t, cs, rfl, ht⟩ | ⟨i, s, w, rfl, hs⟩
  · have hna : t ≠ .augmented := by rintro rfl; revert ht; decide
    have hst : stops t = false := by
      simp only [List.mem_cons, List.not_mem_nil, or_false] at ht
      rcases ht with rfl | rfl | rfl <;> rfl
    have := stand_open hp (occ_stand hp ho) i t cs rfl hna (by intro _ _ _ e; cases e; exact hst) hl
    have h2 := List.all_eq_true.1 open_types t ht
    simp only [Bool.not_eq_true', List.contains_eq_mem, decide_eq_false_iff_not] at h2
    exact h2 this
  · have hb : s ≠ .BAhE ∧ s ∉ indicators := by
      simp only [List.mem_cons, List.not_mem_nil, or_false] at hs
      rcases hs with rfl | rfl | rfl | rfl | rfl <;> decide
    obtain ⟨_, j, v, ds, rest, rfl, hv, hn, hst⟩ := occ_cmavo hp ho hb.1 hb.2
    have hu := stand_open hp hst j v ds rfl (parse_not_aug hv) (hl _ (List.mem_cons_self ..)) (fun y hy => hl y (List.mem_cons_of_mem _ hy))
    rcases hn with hn | hn
    · exact (open_named hu hn).2 s (.inl rfl) hs
    · exact (open_named hu hn).2 s (.inr rfl) hs

/-- Above the text there is nothing else. -/
theorem stand_chunks {top : Node} (hp : Parse .chunks top) {anc : List Node} {x : Node} (h : Stand top anc x) :
    ∀ i cs, x = .nt i .chunks cs → ∀ y ∈ anc, Loose y := by
  induction h with
  | top hq => rintro i cs _ y hy; cases hy
  | @child anc j u ds v c pu _ hc hn hv ih =>
    rintro i cs rfl
    obtain ⟨_, _, _, e, _⟩ := parse_inv hv
    cases e
    obtain ⟨r, hr, rfl, hi⟩ := hn
    have h1 := all_mem chunks_rules hr
    simp only [Bool.or_eq_true, Bool.not_eq_true', List.contains_eq_mem, decide_eq_false_iff_not, beq_iff_eq] at h1
    have h2 := h1.resolve_left (fun h => h hi)
    intro y hy
    rcases List.mem_cons.1 hy with rfl | hy
    · intro _ _ _ e
      cases e
      rw [h2]; rfl
    · exact ih j ds (by rw [h2]) y hy
  | word _ _ _ _ hw _ => rintro i cs rfl; exact absurd (word_sub hw .refl rfl) (by decide)
  | put _ _ _ _ _ _ => rintro i cs e; cases e
  | inner _ _ _ _ _ hb _ _ => rintro i cs rfl; cases hb
  | bahe _ => rintro i cs e; cases e
  | indic hi => rintro i cs rfl; exact absurd (indic_sub hi .refl rfl) (by decide)
  | indicWord _ _ => rintro i cs e; cases e

/-! ## The loop -/

theorem case_found {t : NT} {c : Ctx} : caseOf t = .found c ↔ (t, c) ∈ places := by
  constructor
  · intro h
    unfold caseOf at h
    split at h <;> first | (cases h; simp [places]) | cases h
  · intro h
    simp only [places, List.mem_cons, Prod.mk.injEq, List.not_mem_nil, or_false] at h
    rcases h with ⟨rfl, rfl⟩ | ⟨rfl, rfl⟩ | ⟨rfl, rfl⟩ | ⟨rfl, rfl⟩ | ⟨rfl, rfl⟩ | ⟨rfl, rfl⟩ | ⟨rfl, rfl⟩ | ⟨rfl, rfl⟩ | ⟨rfl, rfl⟩ |
      ⟨rfl, rfl⟩ | ⟨rfl, rfl⟩ | ⟨rfl, rfl⟩ | ⟨rfl, rfl⟩ | ⟨rfl, rfl⟩ | ⟨rfl, rfl⟩ | ⟨rfl, rfl⟩ | ⟨rfl, rfl⟩ | ⟨rfl, rfl⟩ | ⟨rfl, rfl⟩ <;> rfl

theorem case_done {t : NT} : caseOf t = .done ↔ t ∈ [NT.mexOperator, .operand3, .free, .complexTenseModal] := by
  constructor
  · intro h
    unfold caseOf at h
    split at h <;> first | decide | cases h
  · intro h
    simp only [List.mem_cons, List.not_mem_nil, or_false] at h
    rcases h with rfl | rfl | rfl | rfl <;> rfl

theorem case_abort {t : NT} : caseOf t = .abort ↔ t = .chunks := by
  constructor
  · intro h
    unfold caseOf at h
    split at h <;> first | rfl | cases h
  · rintro rfl; rfl

theorem placed_case {i : Nat} {t : NT} {cs : List Node} : placed (.nt i t cs) ↔ ∃ c, caseOf t = .found c := by
  constructor
  · rintro ⟨_, _, _, c, e, h⟩; cases e; exact ⟨c, case_found.2 h⟩
  · rintro ⟨c, h⟩; exact ⟨i, t, cs, c, rfl, case_found.1 h⟩

theorem mute_case {i : Nat} {t : NT} {cs : List Node} : muteAll (.nt i t cs) ↔ caseOf t = .done := by
  constructor
  · rintro ⟨_, _, _, e, h⟩; cases e; exact case_done.2 h
  · intro h; exact ⟨i, t, cs, rfl, case_done.1 h⟩

/-- The loop finds the nearest place. -/
theorem climb_eval (x : Node) : ∀ (anc : List Node), (∀ y ∈ anc, ∃ i t cs, y = Node.nt i t cs) →
    (∀ near i cs rest, anc = near ++ .nt i .chunks cs :: rest → ∀ y ∈ rest, Loose y) → ¬ (∀ y ∈ anc, Loose y) →
    ∃ es, climb x anc = .ok es ∧ ∀ e, e ∈ es ↔ e.id = x.id ∧ Within muteAll anc e.ctx := by
  intro anc
  induction anc with
  | nil => intro _ _ h; exact absurd (by intro y hy; cases hy) h
  | cons y anc ih =>
    intro hn hc hl
    obtain ⟨i, t, cs, rfl⟩ := hn _ (List.mem_cons_self ..)
    have rest : ∀ c, ¬ (∃ d, caseOf t = .found d) → caseOf t ≠ .done → (Within muteAll (.nt i t cs :: anc) c ↔ Within muteAll anc c) := by
      intro c h1 h2
      constructor
      · rintro ⟨near, j, u, ds, rest, e, hp, hx⟩
        cases near with
        | nil => cases e; exact absurd ⟨c, case_found.2 hp⟩ h1
        | cons n near => cases e; exact ⟨near, j, u, ds, rest, rfl, hp, fun y hy => hx y (List.mem_cons_of_mem _ hy)⟩
      · rintro ⟨near, j, u, ds, rest, rfl, hp, hx⟩
        refine ⟨.nt i t cs :: near, j, u, ds, rest, rfl, hp, fun y hy => ?_⟩
        rcases List.mem_cons.1 hy with rfl | hy
        · exact ⟨fun h => h1 (placed_case.1 h), fun h => h2 (mute_case.1 h)⟩
        · exact hx y hy
    cases hcase : caseOf t with
    | found c =>
      refine ⟨[⟨x.id, c⟩], by rw [climb, hcase], fun e => ?_⟩
      rw [List.mem_singleton]
      constructor
      · rintro rfl
        exact ⟨rfl, [], i, t, cs, anc, rfl, case_found.1 hcase, nofun⟩
      · rintro ⟨h1, near, j, u, ds, rest, e2, hp, hx⟩
        cases near with
        | nil =>
          cases e2
          have := case_found.2 hp
          rw [hcase] at this
          cases this
          cases e; cases h1; rfl
        | cons n near =>
          cases e2
          exact absurd (placed_case.2 ⟨c, hcase⟩) (hx _ (List.mem_cons_self ..)).1
    | done =>
      refine ⟨[], by rw [climb, hcase], fun e => ⟨nofun, ?_⟩⟩
      rintro ⟨h1, near, j, u, ds, rest, e2, hp, hx⟩
      cases near with
      | nil => cases e2; have := case_found.2 hp; rw [hcase] at this; cases this
      | cons n near => cases e2; exact absurd (mute_case.2 hcase) (hx _ (List.mem_cons_self ..)).2
    | abort =>
      exfalso
      cases case_abort.1 hcase
      refine hl fun y hy => ?_
      rcases List.mem_cons.1 hy with rfl | hy
      · intro _ _ _ e; cases e; rfl
      · exact hc [] i cs anc rfl y hy
    | up =>
      obtain ⟨es, h1, h2⟩ := ih (fun y hy => hn y (List.mem_cons_of_mem _ hy))
        (fun near j ds rest e => hc (.nt i t cs :: near) j ds rest (by rw [e]; rfl))
        (fun h => hl fun y hy => by
          rcases List.mem_cons.1 hy with rfl | hy
          · intro _ _ _ e; cases e; simp [stops, hcase]
          · exact h y hy)
      refine ⟨es, by rw [climb, hcase]; exact h1, fun e => ?_⟩
      rw [h2, rest e.ctx (by rw [hcase]; simp) (by rw [hcase]; simp)]

/-! ## The theorems -/

theorem node_tense {anc : List Node} {x : Node} (h : isTense x) : node anc x = climb x anc := by
  rcases h with ⟨i, t, cs, rfl, ht⟩ | ⟨i, s, w, rfl, hs⟩
  · simp only [List.mem_cons, List.not_mem_nil, or_false] at ht
    rcases ht with rfl | rfl | rfl <;> rfl
  · simp only [List.mem_cons, List.not_mem_nil, or_false] at hs
    rcases hs with rfl | rfl | rfl | rfl | rfl <;> rfl

theorem node_other {anc : List Node} {x : Node} (h : ¬ isTense x) : node anc x = .ok [] := by
  unfold node
  split
  · split <;> first | rfl | exact absurd (.inl ⟨_, _, _, rfl, by decide⟩) h
  · split <;> first | rfl | exact absurd (.inr ⟨_, _, _, rfl, by decide⟩) h
  · rfl

/-- **What the program does.**  On every tree of the grammar the pass ends, never at the call of `abort`, and
every tense gets the context of the nearest place around it. -/
theorem tenses_any (top : Node) (hp : Parse .chunks top) :
    ∃ log, tenseProcessing top = .ok log ∧ ∀ e, e ∈ log ↔ ∃ anc x, Occ top anc x ∧ Told muteAll anc x e := by
  refine pass_logs top fun anc x ho => ⟨occ_augOk hp ho, ?_⟩
  by_cases h : isTense x
  · obtain ⟨es, h1, h2⟩ := climb_eval x anc
      (fun y hy => by
        obtain ⟨near, rest, e⟩ := List.append_of_mem hy
        obtain ⟨_, i, t, cs, e, _⟩ := occ_anc ho near y rest e
        exact ⟨i, t, cs, e⟩)
      (fun near i cs rest e => stand_chunks hp (occ_stand hp (occ_anc ho near _ rest e).1) i cs rfl) (tense_placed hp ho h)
    refine ⟨es, by rw [node_tense h]; exact h1, fun e => ?_⟩
    rw [h2]
    exact ⟨fun h' => ⟨h, h'⟩, fun h' => h'.2⟩
  · exact ⟨[], node_other h, fun e => ⟨nofun, fun h' => absurd h'.1 h⟩⟩

theorem complex_rules : on .complexTenseModal (fun its => match its with
    | .t .FIhO :: _ => true
    | [.n .simpleTenseModal, .n .freeSeq] => true
    | _ => false) = true := by decide +kernel

/-- Without free modifiers after tenses both senses of `mute` are the same. -/
theorem mute_same {top : Node} (hp : Parse .chunks top) (hf : NoFree top) {anc : List Node} {y : Node} (ho : Occ top anc y) :
    mute y ↔ muteAll y := by
  constructor
  · rintro ⟨i, t, cs, rfl, h | ⟨rfl, _⟩⟩
    · exact ⟨i, t, cs, rfl, by simp only [List.mem_cons, List.not_mem_nil, or_false] at h ⊢; rcases h with rfl | rfl | rfl <;> simp⟩
    · exact ⟨i, _, cs, rfl, by decide⟩
  · rintro ⟨i, t, cs, rfl, h⟩
    simp only [List.mem_cons, List.not_mem_nil, or_false] at h
    rcases h with rfl | rfl | rfl | rfl
    · exact ⟨i, _, cs, rfl, .inl (by decide)⟩
    · exact ⟨i, _, cs, rfl, .inl (by decide)⟩
    · exact ⟨i, _, cs, rfl, .inl (by decide)⟩
    · refine ⟨i, _, cs, rfl, .inr ⟨rfl, ?_⟩⟩
      obtain ⟨_, its, _, e, hq, hk⟩ := on_use complex_rules (occ_nt hp ho (by decide)).1
      cases e
      split at hq
      · obtain ⟨c, ds, rfl, hw, _⟩ := firstT hk
        obtain ⟨j, w, _, hw⟩ := word_word hw (by decide)
        exact ⟨c, List.mem_cons_self .., j, w, hw⟩
      · obtain ⟨c, ds, rfl, hc, _⟩ := first hk
        have := hf _ _ _ c ho (List.mem_cons_self ..)
        rw [parse_isNT hc] at this
        simp at this
      · cases hq

theorem within_same {m m' : Node → Prop} {anc : List Node} (h : ∀ y ∈ anc, m y ↔ m' y) (c : Ctx) : Within m anc c ↔ Within m' anc c := by
  constructor
  · rintro ⟨near, i, t, cs, rest, rfl, hp, hx⟩
    exact ⟨near, i, t, cs, rest, rfl, hp, fun y hy => ⟨(hx y hy).1, fun hm => (hx y hy).2 ((h y (by simp [hy])).2 hm)⟩⟩
  · rintro ⟨near, i, t, cs, rest, rfl, hp, hx⟩
    exact ⟨near, i, t, cs, rest, rfl, hp, fun y hy => ⟨(hx y hy).1, fun hm => (hx y hy).2 ((h y (by simp [hy])).1 hm)⟩⟩

/-- **Tenses.**  On every tree of the grammar in which no tense is followed by a free modifier, exactly the tenses
get a context, that of the nearest place around them. -/
theorem tenses_partial (top : Node) (hp : Parse .chunks top) (hf : NoFree top) :
    ∃ log, tenseProcessing top = .ok log ∧ ∀ e, e ∈ log ↔ ∃ anc x, Occ top anc x ∧ Told mute anc x e := by
  obtain ⟨log, h1, h2⟩ := tenses_any top hp
  refine ⟨log, h1, fun e => ?_⟩
  rw [h2]
  have key : ∀ anc x, Occ top anc x → (Within mute anc e.ctx ↔ Within muteAll anc e.ctx) := fun anc x ho =>
    within_same (fun y hy => by
      obtain ⟨near, rest, er⟩ := List.append_of_mem hy
      exact mute_same hp hf (occ_anc ho near y rest er).1) e.ctx
  constructor
  · rintro ⟨anc, x, ho, h1, h2, h3⟩; exact ⟨anc, x, ho, h1, h2, (key anc x ho).2 h3⟩
  · rintro ⟨anc, x, ho, h1, h2, h3⟩; exact ⟨anc, x, ho, h1, h2, (key anc x ho).1 h3⟩

/-! ## Examples -/

/-- *ca* -/
def caTense : List Node := up [.simpleTenseModal, .time, .timeOffsetSeq] [.nt 5 .timeOffset [.cmavo 6 .PU "ca"]]

/-- A sentence *tag mi prami*. -/
def tagged (tag : List Node) : Node :=
  textOf (up [.noCuSentence] (up [.terms, .terms1, .terms2] [.nt 10 .term (up [.termTaggedSumti] (tag ++
    up [.sumti, .sumti1, .sumti2, .sumti3, .sumti4, .sumti5, .sumti5a, .sumti6] [.cmavo 11 .KOhA "mi"]))] ++ tailOf' [.brivla 21] []))

/-- *ca mi prami* -/
def caMi : Node := tagged (up [.tag, .stag] caTense)

/-- *ca xi pa mi prami* -/
def caXi : Node := tagged (up [.tag, .ctag, .complexTenseModal] (caTense ++
  up [.freeSeq, .free, .subscript] (.cmavo 7 .XI "xi" :: up [.number, .innerNumber] [.cmavo 8 .PA "pa"])))

/-- A check for `NoFree`: the type does not occur. -/
theorem noFree_of {top : Node} (h : num [.complexTenseModal] top = 0) : NoFree top := by
  intro anc i cs c ho hc
  have hs : Sub top (.nt i .complexTenseModal cs) := occ_sub ho
  have := num_sub (ts := [.complexTenseModal]) hs
  rw [h, num] at this
  simp at this

example : Parse .chunks caMi ∧ NoFree caMi ∧ tenseProcessing caMi = .ok [⟨5, .term⟩, ⟨6, .term⟩] :=
  ⟨parse_of (by decide +kernel), noFree_of (by decide +kernel), rfl⟩

/-- A check that a node is no place and not mute. -/
def passed : Node → Bool
  | .nt _ .complexTenseModal cs => cs.all fun c => match c with
    | .nt _ t _ => t != .augmented
    | _ => false
  | .nt _ t _ => caseOf t == .up
  | _ => false

theorem passed_use {y : Node} (h : passed y = true) : ¬ placed y ∧ ¬ mute y := by
  unfold passed at h
  split at h
  · rename_i i cs
    refine ⟨fun hp => ?_, ?_⟩
    · obtain ⟨c, hc⟩ := placed_case.1 hp; cases hc
    · rintro ⟨_, _, _, e, h1 | ⟨_, c, hc, j, w, hw⟩⟩
      · cases e; revert h1; decide
      · cases e
        have := List.all_eq_true.1 h c hc
        cases hw with
        | alone => cases this
        | marked _ _ => simp at this
  · rename_i i t cs hne
    have hc : caseOf t = .up := by simpa using h
    refine ⟨fun hp => ?_, ?_⟩
    · obtain ⟨c, h1⟩ := placed_case.1 hp; rw [hc] at h1; cases h1
    · rintro ⟨_, _, _, e, h1 | ⟨h1, _⟩⟩
      · cases e
        have : caseOf t = .done := by
          refine case_done.2 ?_
          simp only [List.mem_cons, List.not_mem_nil, or_false] at h1 ⊢
          rcases h1 with rfl | rfl | rfl <;> simp
        rw [hc] at this; cases this
      · cases e; exact hne h1
  · cases h

def withinB : List Node → Ctx → Bool
  | .nt i t cs :: rest, c => places.contains (t, c) || (passed (.nt i t cs) && withinB rest c)
  | _, _ => false

theorem withinB_use {c : Ctx} : ∀ {anc : List Node}, withinB anc c = true → Within mute anc c := by
  intro anc
  induction anc with
  | nil => intro h; simp [withinB] at h
  | cons y anc ih =>
    intro h
    cases y with
    | nt i t cs =>
      rw [withinB, Bool.or_eq_true, Bool.and_eq_true, List.contains_iff_mem] at h
      rcases h with h | ⟨h1, h2⟩
      · exact ⟨[], i, t, cs, anc, rfl, h, nofun⟩
      · obtain ⟨near, j, u, ds, rest, rfl, hp, hx⟩ := ih h2
        refine ⟨.nt i t cs :: near, j, u, ds, rest, rfl, hp, fun y hy => ?_⟩
        rcases List.mem_cons.1 hy with rfl | hy
        · exact passed_use h1
        · exact hx y hy
    | _ => simp [withinB] at h

/-- **A defect.**  In *ca xi pa mi prami* the tense stands before a sumti as in *ca mi prami*, but gets no context: the
program takes it for a tense after `fi'o`. -/
theorem subscript_loses_context : Parse .chunks caXi ∧
    (∃ anc x, Occ caXi anc x ∧ Told mute anc x ⟨6, .term⟩) ∧ tenseProcessing caXi = .ok [] := by
  refine ⟨parse_of (by decide +kernel), ?_, rfl⟩
  have h := down_occ (top := caXi) [0, 0, 0, 0, 0, 0, 0, 0, 0, 0, 0, 0, 0, 0, 0, 0, 0, 0, 0, 0, 0, 0, 0, 0] .top rfl
  exact ⟨_, _, h, .inr ⟨_, _, _, rfl, by decide⟩, rfl, withinB_use (by decide +kernel)⟩

end Jbo.Tenses
