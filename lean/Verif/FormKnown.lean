import Verif.ConvertScanThm
import Verif.OutputEx
/-!
# Noun or verb: is the choice always made?

`prop_glosstype` makes a record whose member `in_selbri` has no value (`properties.c:141-153`; `new` is `malloc`).
`conv_mark_gloss_types` sets it, `selbri_scan` makes records too and does not, and `translate_convertible` and
`translate_jai` read it (`output.c:589`, `631`).
-/

namespace Jbo.Convert
open Jbo.Terms Jbo.Terms.Spec Jbo.Gram Spec

/-- The record of a node after `do_conversions`, as the output reads it (`output.c:587-600`, `629-644`): `in_selbri`, which may have no value, and
`is_tertau`. -/
def glosstype (log : List Ev) (i : Nat) : Option (Option Bool × Bool) :=
  let forms := log.filterMap fun e => match e with
    | .inSelbri j b => if j = i then some b else none
    | _ => none
  if forms = [] ∧ .tertau i ∉ log then none else some (forms.getLast?, decide (.tertau i ∈ log))

/-- The types that decide. -/
def deciders : List NT := verbNTs ++ nounNTs ++ silentNTs

/-- The non-terminals that stand in a text with no such type around them. -/
def outside : List NT := [
  .bai1, .bridiTail, .bridiTail1, .bridiTail2, .bridiTail3, .chunks, .cmeneSeq, .ctag, .ek, .fragment, .freeSeq, .fullRelativeClause, .gek,
  .gekSentence, .gihek, .gihekStagBo, .gihekStagKe, .gik, .guhek, .iJjStagBo, .iJoikJek, .iOptFreeSeq, .indicator, .indicatorSeq, .indicators,
  .innerNumber, .innerStatement, .intervalProperty, .intervalPropertySeq, .jek, .jekOptKe, .jekOptKebo, .joik, .joikEkKe, .joikEkStagBo,
  .joikJekStagBo, .joikOptKe, .joikOptKebo, .joikStagKe, .keOperand, .keOperator, .lerfuString, .lerfuWord, .linkargs, .links, .mex, .mex1, .mex2,
  .mex2Seq, .mexInfix, .mexRp, .naiSeq, .nihoSeq, .nihoSeqFreeSeq, .noCuSentence, .number, .observativeSentence, .operand, .operand1, .operand2,
  .operator, .operator1, .operator2, .paragraph, .paragraphs, .prenex, .quantifier, .relativeClause, .relativeClauseSeq, .relativeClauses,
  .rpExpression, .seBai, .sentence, .simpleTenseModal, .space, .spaceIntProp, .spaceIntProps, .spaceInterval, .spaceOffset, .spaceOffsetSeq, .stag,
  .statement, .statement1, .statement2, .statement3, .subsentence, .tag, .taggedTermset, .tailTerms, .term, .termFloatingNegate, .termFloatingTense,
  .termOther, .termPlacedSumti, .termPlainSumti, .termRelativeClause, .termTaggedSumti, .terms, .terms1, .terms2, .termset, .termsetBody,
  .termsetStart, .text, .text1, .text1a, .text1b, .text1c, .time, .timeOffset, .timeOffsetSeq, .zehaPuNai]

/-- Checked over all rules. -/
theorem outside_rules : rules.all (fun r => !(outside.contains r.lhs) || r.rhs.all (fun it => match it with
    | .n u => outside.contains u || deciders.contains u
    | _ => true)) = true := by decide +kernel

theorem outside_named {u v : NT} (hu : u ∈ outside) (h : Named u (.n v)) : v ∈ outside ∨ v ∈ deciders := by
  obtain ⟨r, hr, rfl, hi⟩ := h
  have h1 := all_mem outside_rules hr
  simp only [Bool.or_eq_true, Bool.not_eq_true', List.contains_eq_mem, decide_eq_false_iff_not] at h1
  have h2 := List.all_eq_true.1 (h1.resolve_left (fun h => h hu)) _ hi
  simpa using h2

theorem stand_outside {top : Node} (hp : Parse .chunks top) {anc : List Node} {x : Node} (h : Stand top anc x) :
    ∀ i t cs, x = .nt i t cs → t ≠ .augmented → t ∉ deciders → (∀ y ∈ anc, ¬ Of deciders y) → t ∈ outside := by
  induction h with
  | top hq =>
    rintro i t cs rfl _ _ _
    obtain ⟨_, _, _, e, _⟩ := parse_inv hp
    cases e
    decide
  | @child anc j u ds v c pu _ hc hn hv ih =>
    rintro i t cs rfl ht hl hall
    obtain ⟨_, _, _, e, _⟩ := parse_inv hv
    cases e
    have hu := ih j u ds rfl (parse_not_aug pu) (fun h => hall _ (List.mem_cons_self ..) (of_nt.2 h)) (fun y hy => hall y (List.mem_cons_of_mem _ hy))
    exact (outside_named hu hn).resolve_right hl
  | word _ _ _ _ hw _ => rintro i t cs rfl ht; exact absurd (word_sub hw .refl rfl) ht
  | put _ _ _ _ _ _ => rintro i t cs e; cases e
  | inner _ _ _ _ _ hb _ _ => rintro i t cs rfl; cases hb
  | bahe _ => rintro i t cs e; cases e
  | indic hi => rintro i t cs rfl ht; exact absurd (indic_sub hi .refl rfl) ht
  | indicWord _ _ => rintro i t cs e; cases e

/-- Around a tanru there is always a node that decides. -/
theorem tanru_decided {top : Node} (hp : Parse .chunks top) {anc : List Node} {i : Nat} {cs : List Node} (ho : Occ top anc (.nt i .selbri3 cs)) :
    ∃ y ∈ anc, Of deciders y := by
  apply Classical.byContradiction
  intro h
  have := stand_outside hp (occ_stand hp ho) i .selbri3 cs rfl (by decide) (by decide) (fun y hy hd => h ⟨y, hy, hd⟩)
  revert this
  decide

theorem last_tanru {M : List Node → Prop} {anc : List Node} (h : Last M anc) : ∃ near i cs rest, anc = near ++ .nt i .selbri3 cs :: rest := by
  induction h with
  | @whole i cs r => exact ⟨[], i, cs, r, rfl⟩
  | @part i t cs r _ _ _ ih =>
    obtain ⟨near, j, ds, rest, rfl⟩ := ih
    exact ⟨_ :: near, j, ds, rest, rfl⟩

/-- The nearest of the nodes that decide. -/
theorem near_some {anc : List Node} (h : ∃ y ∈ anc, Of deciders y) : Near verbNTs anc ∨ Near nounNTs anc ∨ Near silentNTs anc := by
  induction anc with
  | nil => obtain ⟨y, hy, _⟩ := h; cases hy
  | cons x anc ih =>
    by_cases hx : Of deciders x
    · obtain ⟨i, t, cs, rfl, ht⟩ := hx
      have hx : Of (verbNTs ++ nounNTs ++ silentNTs) (.nt i t cs) := ⟨_, _, _, rfl, ht⟩
      rw [near_here hx, near_here hx, near_here hx, of_nt, of_nt, of_nt]
      simp only [deciders, List.mem_append] at ht
      exact or_assoc.1 ht
    · obtain ⟨y, hy, hd⟩ := h
      have : ∃ y ∈ anc, Of deciders y := by
        rcases List.mem_cons.1 hy with rfl | hy
        · exact absurd hd hx
        · exact ⟨y, hy, hd⟩
      rcases ih this with h | h | h
      · exact .inl ((near_cons hx (by decide)).2 h)
      · exact .inr (.inl ((near_cons hx (by decide)).2 h))
      · exact .inr (.inr ((near_cons hx (by decide)).2 h))

/-- Only one of them is the nearest. -/
theorem near_type {ts us : List NT} {anc : List Node} (h1 : Near ts anc) (h2 : Near us anc) (ht : ∀ t ∈ ts, t ∈ deciders) (hu : ∀ t ∈ us, t ∈ deciders) :
    ∃ t, t ∈ ts ∧ t ∈ us := by
  induction anc with
  | nil => obtain ⟨near, _, _, e, _⟩ := h1; cases near <;> cases e
  | cons x anc ih =>
    by_cases hx : Of (verbNTs ++ nounNTs ++ silentNTs) x
    · rw [near_here hx] at h1 h2
      obtain ⟨i, t, cs, rfl, h⟩ := h1
      exact ⟨t, h, of_nt.1 h2⟩
    · exact ih ((near_cons hx ht).1 h1) ((near_cons hx hu).1 h2)

theorem form_not_silent {anc : List Node} {b : Bool} (h : Form anc b) : ¬ Near silentNTs anc := by
  intro h2
  cases b with
  | true => obtain ⟨t, h3, h4⟩ := near_type h h2 (by decide) (by decide); revert t; decide
  | false => obtain ⟨t, h3, h4⟩ := near_type h h2 (by decide) (by decide); revert t; decide

theorem decided_form {anc : List Node} (h : ∃ y ∈ anc, Of deciders y) (hs : ¬ Near silentNTs anc) : ∃ b, Form anc b := by
  rcases near_some h with h | h | h
  · exact ⟨true, h⟩
  · exact ⟨false, h⟩
  · exact absurd h hs

/-! ## What is told of a word -/

theorem word_not_jai {x : Node} (hx : Places x ∨ ∃ i, x = .zei i) {j : Nat} {w : String} : ¬ Terms.Spec.Word x j .JAI w := by
  rintro h
  rcases hx with (⟨i, rfl⟩ | ⟨i, v, rfl⟩) | ⟨i, rfl⟩ <;> cases h

/-- The word of a record, with the nodes that decide its form. -/
theorem told_decided {top : Node} (hp : Parse .chunks top) {anc : List Node} {x : Node} {e : Ev} (ho : Occ top anc x)
    (ht : TertauTold CodeModifier ZeiAlone (fun c _ => c.id) anc x e) : ∃ y ∈ anc, Of deciders y := by
  have key : ∀ {anc'}, Last CodeModifier anc' → (∃ near, anc' = near ++ anc) ∧ (∀ near y rest, anc' = near ++ y :: rest → Occ top rest y) → anc' = anc ∨ (∃ i cs, anc' = .nt i .jaiTagTu2 cs :: anc) →
      ∃ y ∈ anc, Of deciders y := by
    rintro anc' hl ⟨_, hocc⟩ he
    obtain ⟨near, i, cs, rest, e⟩ := last_tanru hl
    obtain ⟨y, hy, hd⟩ := tanru_decided hp (hocc near _ rest e)
    have hmem : y ∈ rest → y ∈ anc := by
      intro hy
      rcases he with rfl | ⟨j, ds, rfl⟩
      · rw [e]; exact List.mem_append_right _ (List.mem_cons_of_mem _ hy)
      · cases near with
        | nil => cases e
        | cons z near => cases e; exact List.mem_append_right _ (List.mem_cons_of_mem _ hy)
    exact ⟨y, hmem hy, hd⟩
  cases ht with
  | word _ _ hl => exact key hl ⟨⟨[], rfl⟩, fun near y rest e => (occ_anc ho near y rest e).1⟩ (.inl rfl)
  | jai _ hl =>
    refine key hl ⟨⟨[_], rfl⟩, fun near y rest e => ?_⟩ (.inr ⟨_, _, rfl⟩)
    cases near with
    | nil => cases e; exact ho
    | cons z near => cases e; exact (occ_anc ho near y rest rfl).1

/-- The form of the word, if it has one around. -/
theorem told_form {top : Node} (hp : Parse .chunks top) {anc : List Node} {x : Node} {i : Nat} (ho : Occ top anc x)
    (ht : TertauTold CodeModifier ZeiAlone (fun c _ => c.id) anc x (.tertau i)) (hs : ¬ Near silentNTs anc) :
    ∃ b, FormTold (fun c _ => c.id) anc x (.inSelbri i b) := by
  obtain ⟨b, hb⟩ := decided_form (told_decided hp ho ht) hs
  cases ht with
  | word hx _ _ => exact ⟨b, .word hx hb⟩
  | jai hw _ => exact ⟨b, .jai (.inr rfl) hw hb⟩

/-- The same number means the same word. -/
theorem told_same {top : Node} (hp : Parse .chunks top) (hn : (ids top).Nodup) {anc anc' : List Node} {x x' : Node} {i : Nat} {b : Bool}
    (ho : Occ top anc x) (ht : TertauTold CodeModifier ZeiAlone (fun c _ => c.id) anc x (.tertau i)) (ho' : Occ top anc' x')
    (hf : FormTold (fun c _ => c.id) anc' x' (.inSelbri i b)) : Form anc b := by
  generalize e1 : Ev.tertau i = e at ht
  generalize e2 : Ev.inSelbri i b = e' at hf
  cases ht with
  | word hx _ _ =>
    cases e1
    cases hf with
    | word hx' hb =>
      injection e2 with e2 e3
      rw [e3, (occ_unique hp hn ho ho' e2).1]
      exact hb
    | jai ht' hw' hb =>
      injection e2 with e2 e3
      have := (occ_unique hp hn ho (.child ho' (by rcases ht' with rfl | rfl <;> decide) (List.mem_cons_self ..)) e2).2
      rw [← this] at hw'
      exact absurd hw' (word_not_jai hx)
  | jai hw _ =>
    cases e1
    cases hf with
    | word hx' hb =>
      injection e2 with e2 e3
      have := (occ_unique hp hn (.child ho (by decide) (List.mem_cons_self ..)) ho' e2).2
      rw [this] at hw
      exact absurd hw (word_not_jai hx')
    | jai ht' hw' hb =>
      injection e2 with e2 e3
      have := (occ_unique hp hn (.child ho (by decide) (List.mem_cons_self ..)) (.child ho' (by rcases ht' with rfl | rfl <;> decide) (List.mem_cons_self ..)) e2).1
      injection this with _ this
      rw [this, e3]
      exact hb

mutual
theorem tanru_sub : ∀ x, (tanruIds x).Sublist (ids x)
  | .nt i t cs => by
    rw [tanruIds, ids]
    split
    · exact (tanru_sub_all cs).cons_cons _
    · exact (tanru_sub_all cs).cons _
  | .brivla _ => List.nil_sublist _
  | .zei _ => List.nil_sublist _
  | .cmavo _ _ _ => List.nil_sublist _
  | .leaf _ => List.nil_sublist _
theorem tanru_sub_all : ∀ cs, (tanruIdsAll cs).Sublist (idsAll cs)
  | [] => List.nil_sublist _
  | c :: cs => by
    rw [tanruIdsAll, idsAll]
    exact (tanru_sub c).append (tanru_sub_all cs)
end

/-! ## The passes -/

/-- The records that `do_conversions` leaves, on all trees. -/
theorem conversions_told (top : Node) (hp : Parse .chunks top) (hn : (tanruIds top).Nodup) (done : Nat → Bool) (fuel : Nat) (hf : top.depth < fuel) :
    ∃ log, doConversions fuel done top = .ok log ∧
      (∀ i b, .inSelbri i b ∈ log ↔ ∃ anc x, Occ top anc x ∧ FormTold (fun c _ => c.id) anc x (.inSelbri i b)) ∧
      (∀ i, .tertau i ∈ log ↔ ∃ anc x, Occ top anc x ∧ TertauTold CodeModifier ZeiAlone (fun c _ => c.id) anc x (.tertau i)) := by
  obtain ⟨a, ha, ha'⟩ := se_bai_any top hp
  obtain ⟨b, hb, hb'⟩ := places_any top hp done
  obtain ⟨c, hc, hc'⟩ := forms_any top hp
  obtain ⟨d, hd, hd'⟩ := tertau_any top hp hn fuel hf
  refine ⟨a ++ b ++ c ++ d.2, ?_, ?_, ?_⟩
  · unfold doConversions
    rw [ha, hb, hc, hd]
    rfl
  · intro i b'
    simp only [List.mem_append, ha', hb', hc', hd']
    constructor
    · rintro (((⟨anc, x, _, h⟩ | ⟨anc, x, _, h⟩) | h) | ⟨anc, x, _, h⟩)
      · cases h; simp_all
      · cases h
      · exact h
      · cases h
    · exact fun h => .inl (.inr h)
  · intro i
    simp only [List.mem_append, ha', hb', hc', hd']
    constructor
    · rintro (((⟨anc, x, _, h⟩ | ⟨anc, x, _, h⟩) | ⟨anc, x, _, h⟩) | h)
      · cases h; simp_all
      · cases h
      · cases h
      · exact h
    · exact fun h => .inr h

/-- **Where `in_selbri` is read without a value**: at exactly those words in last parts of tanru around which the nearest node that decides is FREE,
OPERAND_3 or MEX_OPERATOR. -/
theorem form_unset (top : Node) (hp : Parse .chunks top) (hn : (ids top).Nodup) (done : Nat → Bool) (fuel : Nat)
    (hf : top.depth < fuel) : ∃ log, doConversions fuel done top = .ok log ∧ ∀ i, (∃ t, glosstype log i = some (none, t)) ↔
      ∃ anc x, Occ top anc x ∧ TertauTold CodeModifier ZeiAlone (fun c _ => c.id) anc x (.tertau i) ∧ Near silentNTs anc := by
  obtain ⟨log, h1, h2, h3⟩ := conversions_told top hp ((tanru_sub top).nodup hn) done fuel hf
  refine ⟨log, h1, fun i => ?_⟩
  have hform : ∀ b, b ∈ (log.filterMap fun e => match e with
    | .inSelbri j b => if j = i then some b else none
    | _ => none) ↔ .inSelbri i b ∈ log := by
    intro b
    simp only [List.mem_filterMap]
    constructor
    · rintro ⟨e, he, hb⟩
      split at hb
      · rename_i j b'
        split at hb
        · rename_i hj; cases hb; rw [← hj]; exact he
        · cases hb
      · cases hb
    · intro h
      exact ⟨_, h, by simp⟩
  have hg : (∃ t, glosstype log i = some (none, t)) ↔ (.tertau i ∈ log ∧ ∀ b, .inSelbri i b ∉ log) := by
    simp only [glosstype]
    generalize (log.filterMap fun e => match e with
      | .inSelbri j b => if j = i then some b else none
      | _ => none) = fs at hform ⊢
    constructor
    · rintro ⟨t, h⟩
      split at h
      · cases h
      · rename_i hne
        simp only [Option.some.injEq, Prod.mk.injEq, List.getLast?_eq_none_iff] at h
        obtain ⟨rfl, _⟩ := h
        refine ⟨Classical.byContradiction fun h => hne ⟨rfl, h⟩, fun b hb => ?_⟩
        cases (hform b).2 hb
    · rintro ⟨ht, hb⟩
      have : fs = [] := List.eq_nil_iff_forall_not_mem.2 fun b h => hb b ((hform b).1 h)
      rw [if_neg (fun h => h.2 ht), this]
      exact ⟨_, rfl⟩
  rw [hg, h3]
  constructor
  · rintro ⟨⟨anc, x, ho, ht⟩, hno⟩
    refine ⟨anc, x, ho, ht, Classical.byContradiction fun hs => ?_⟩
    obtain ⟨b, hb⟩ := told_form hp ho ht hs
    exact hno b ((h2 i b).2 ⟨anc, x, ho, hb⟩)
  · rintro ⟨anc, x, ho, ht, hs⟩
    refine ⟨⟨anc, x, ho, ht⟩, fun b hb => ?_⟩
    obtain ⟨anc', x', ho', hfm⟩ := (h2 i b).1 hb
    exact form_not_silent (told_same hp hn ho ht ho' hfm) hs

/-- **Noun or verb is always known** in texts without selbri after a vocative, `ni'e` and `na'u`.  Full claim: for all texts; see `vocative_unset`. -/
theorem form_known_partial (top : Node) (hp : Parse .chunks top) (hn : (ids top).Nodup) (done : Nat → Bool) (fuel : Nat)
    (hf : top.depth < fuel) (hs : ∀ anc x, Occ top anc x → Places x ∨ (∃ i, x = .zei i) ∨ x.isNT .jaiTagTu2 = true → ¬ Near silentNTs anc) :
    ∃ log, doConversions fuel done top = .ok log ∧ ∀ i f t, glosstype log i = some (f, t) → ∃ b, f = some b := by
  obtain ⟨log, h1, h2⟩ := form_unset top hp hn done fuel hf
  refine ⟨log, h1, fun i f t h => ?_⟩
  cases f with
  | some b => exact ⟨b, rfl⟩
  | none =>
    obtain ⟨anc, x, ho, ht, hN⟩ := (h2 i).1 ⟨t, h⟩
    refine absurd hN (hs anc x ho ?_)
    cases ht with
    | word hx _ _ => exact hx.elim .inl fun h => .inr (.inl h)
    | jai _ _ => exact .inr (.inr (by simp [Node.isNT]))

/-! ## Texts -/

mutual
/-- There is no FREE, OPERAND_3 or MEX_OPERATOR. -/
def loud : Node → Bool
  | .nt _ t cs => !silentNTs.contains t && loudAll cs
  | _ => true
def loudAll : List Node → Bool
  | [] => true
  | c :: cs => loud c && loudAll cs
end

theorem loudAll_mem : ∀ {cs : List Node}, loudAll cs = true → ∀ c ∈ cs, loud c = true
  | c :: cs, h, d, hd => by
    rw [loudAll, Bool.and_eq_true] at h
    rcases List.mem_cons.1 hd with rfl | hd
    · exact h.1
    · exact loudAll_mem h.2 d hd

theorem loud_occ {top : Node} (h : loud top = true) {anc : List Node} {x : Node} (ho : Occ top anc x) : loud x = true := by
  induction ho with
  | top => exact h
  | child _ _ hc ih =>
    rw [loud, Bool.and_eq_true] at ih
    exact loudAll_mem ih.2 _ hc
  | word _ _ _ ih =>
    rw [loud, Bool.and_eq_true] at ih
    exact loudAll_mem ih.2 _ (by simp)
  | before _ _ hb ih =>
    rw [loud, Bool.and_eq_true] at ih
    exact loudAll_mem ih.2 _ (by simp [hb])
  | after _ _ _ hr ih =>
    rw [loud, Bool.and_eq_true] at ih
    exact loudAll_mem ih.2 _ (by simp [hr])

theorem loud_near {top : Node} (h : loud top = true) {anc : List Node} {x : Node} (ho : Occ top anc x) : ¬ Near silentNTs anc := by
  rintro ⟨near, r, rest, e, ⟨i, t, cs, rfl, ht⟩, _⟩
  have := loud_occ h (occ_anc ho near _ rest e).1
  rw [loud, Bool.and_eq_true] at this
  simp [ht] at this

/-- *mi broda brode* -/
def known : Node := (Output.number 0 (miTanru (.nt 1 .selbri3 (.nt 2 .selbri3 (partOf [.brivla 64]) :: partOf [.brivla 65])))).1

set_option maxRecDepth 10000 in
/-- The hypotheses of `form_known_partial` hold for it, and the last word is to be glossed as a verb. -/
example : Parse .chunks known ∧ (ids known).Nodup ∧ known.depth < 60 ∧
    (∀ anc x, Occ known anc x → Places x ∨ (∃ i, x = .zei i) ∨ x.isNT .jaiTagTu2 = true → ¬ Near silentNTs anc) ∧
    (doConversions 60 (fun _ => false) known).toOption.map (fun log => (ids known).filterMap (glosstype log)) =
      some [(some true, false), (some true, true)] :=
  ⟨parse_of (by decide +kernel), by decide +kernel, by decide +kernel, fun _ _ ho _ => loud_near (by decide +kernel) ho, by decide +kernel⟩

/-- *doi broda mi brode* -/
def called : Node := (Output.number 0 (.nt 0 .chunks [.nt 0 .text [
  .nt 0 .freeSeq (up [.free] [.nt 0 .freeVocative [.nt 0 .vocative [.cmavo 0 .DOI "doi"],
    .nt 0 .selbri (up [.selbri1, .selbri2, .selbri3] (partOf [.brivla 0]))]]),
  .nt 0 .text1 (up [.paragraphs, .paragraph, .statement, .innerStatement, .statement1, .statement2, .statement3, .sentence, .noCuSentence]
    (koha 0 "mi" ++ up [.bridiTail, .bridiTail1, .bridiTail2, .bridiTail3] (up [.mainSelbri, .selbri, .selbri1, .selbri2, .selbri3] (partOf [.brivla 0]))))]])).1

set_option maxRecDepth 10000 in
/-- **A defect.**  In *doi broda mi brode* the word *broda* is asked whether it is in a selbri, and nothing has been written there. -/
theorem vocative_unset : Parse .chunks called ∧ (ids called).Nodup ∧ called.depth < 60 ∧
    (doConversions 60 (fun _ => false) called).toOption.map (fun log => (ids called).filterMap (glosstype log)) =
      some [(none, true), (some true, true)] :=
  ⟨parse_of (by decide +kernel), by decide +kernel, by decide +kernel, by decide +kernel⟩

end Jbo.Convert
