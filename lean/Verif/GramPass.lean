import Verif.GramCount
/-!
# The labelling of terms on every parse tree

`terms_processing` (`terms.c:1712-1719`) on a tree of the grammar: it never fails within the limits of its
arrays, and labels the terms of every sentence as the specification says.
-/

namespace Jbo.Gram
open Jbo.Terms Jbo.Terms.Spec

/-! ## The nodes of a parse tree -/

theorem base_sub {it : Item} {c x : Node} (h : Base it c) (hs : Sub c x) : x = c := by
  cases hs with
  | refl => rfl
  | child _ _ => cases h

theorem indic_sub {c x : Node} (h : Indic c) (hs : Sub c x) {i : Nat} {t : NT} {cs : List Node} (e : x = .nt i t cs) : t = .augmented := by
  cases h with
  | word _ _ => cases hs; cases e
  | marked hb _ _ =>
    cases hs with
    | refl => cases e; rfl
    | child hc hs =>
      rcases List.mem_append.1 hc with hc | hc
      · obtain ⟨k, v, rfl, _⟩ := hb _ hc
        cases hs; cases e
      · rw [List.mem_singleton.1 hc] at hs
        cases hs; cases e

theorem word_sub {it : Item} {c x : Node} (h : WordR it c) (hs : Sub c x) {i : Nat} {t : NT} {cs : List Node} (e : x = .nt i t cs) :
    t = .augmented := by
  cases h with
  | alone h =>
    have := base_sub h hs
    subst this; subst e
    cases h
  | marked hb h hr =>
    cases hs with
    | refl => cases e; rfl
    | child hc hs =>
      rcases List.mem_append.1 hc with hc | hc
      · obtain ⟨k, v, rfl, _⟩ := hb _ hc
        cases hs; cases e
      · rcases List.mem_cons.1 hc with rfl | hc
        · have := base_sub h hs
          subst this; subst e
          cases h
        · exact indic_sub (hr _ hc) hs e

/-- A node of a parse tree is a parse tree of its type, but for words. -/
theorem sub_parse {t u : NT} {x : Node} {i : Nat} {cs : List Node} (h : Parse u x) (hs : Sub x (.nt i t cs)) (ht : t ≠ .augmented) :
    Parse t (.nt i t cs) := by
  generalize e : Node.nt i t cs = y at hs
  induction hs generalizing u with
  | refl =>
    subst e
    obtain ⟨j, ds, r, e, _, _, _⟩ := parse_inv h
    cases e
    exact h
  | @child j v ds c x hc hs ih =>
    obtain ⟨k, fs, r, e', hr, _, hk⟩ := parse_inv h
    cases e'
    rcases kid_cases hk hc with ⟨w, _, hp⟩ | ⟨it, _, hw⟩ | ⟨s, k, w, _, _, rfl⟩
    · exact ih hp e
    · exact absurd (word_sub hw hs e.symm) ht
    · cases hs; cases e

/-! ## The limits -/

/-- Terms after every `gi'e … ke`. -/
def KeTailed (top : Node) : Prop := ∀ i cs, Sub top (.nt i .bridiTail cs) → kids cs .bridiTail ≠ [] →
  ∃ j ts r, kids cs .tailTerms = .nt j .tailTerms ts :: r ∧ kids ts .terms ≠ []

/-- The types at which the labelling begins. -/
def starts : List NT := [.statement3, .abstraction, .relativeClause, .metalinguistic, .sumti5b, .sumtiTail1a, .tanruUnit1]

/-- What is asked of a text: each sentence has at most 14 terms and 19 conversions, there is no `jai`, and
`gi'e … ke` has terms after it. -/
structure Modest (top : Node) : Prop where
  terms : ∀ i t cs, t ∈ starts → Sub top (.nt i t cs) → num [.term] (.nt i t cs) ≤ 14
  convs : ∀ i t cs, t ∈ starts → Sub top (.nt i t cs) → num convTypes (.nt i t cs) ≤ 19
  nojai : num jaiTypes top = 0
  tailed : KeTailed top

theorem tailed_of {x : Node} {a : Br} (h : BrR x a) {top : Node} (hs : Sub top x) (ht : KeTailed top) : a.Tailed := by
  induction h with
  | @sub ss s cs h bt bts a h1 h2 h3 h4 _ ih => exact ih (hs.trans ((sen_sub h1).trans ((body_sub h2).1 _ (kids_mem h4).1)))
  | tail _ ih => exact ih (hs.trans (.child (List.mem_singleton.2 rfl) .refl))
  | tail1 _ ih => exact ih (hs.trans (.child (List.mem_singleton.2 rfl) .refl))
  | tail2 _ ih => exact ih (hs.trans (.child (List.mem_singleton.2 rfl) .refl))
  | tailKe _ k k' h _ _ iha ihb =>
    refine ⟨?_, iha (hs.trans (kid_sub k)), ihb (hs.trans (kid_sub k'))⟩
    obtain ⟨j, ts, r, k1, k2⟩ := ht _ _ hs (by rw [k']; simp)
    cases h with
    | none k3 => rw [k1] at k3; cases k3
    | vau k3 k4 => rw [k1] at k3; cases k3; exact absurd k4 k2
    | terms _ _ _ => simp
  | tail1and _ k k' h _ _ iha ihb => exact ⟨iha (hs.trans (kid_sub k)), ihb (hs.trans (kid_sub k'))⟩
  | @tail2and i cs x y ys t a b _ k h _ _ iha ihb =>
    have hy : y ∈ cs := by
      have : y ∈ kids cs .bridiTail2 := by rw [k]; simp
      exact (List.mem_filter.1 this).1
    exact ⟨iha (hs.trans (kid_sub k)), ihb (hs.trans (.child hy .refl))⟩
  | main _ => trivial
  | @gek i g cs ks x y ys t a b hg k h _ _ iha ihb =>
    have hy : y ∈ ks := by
      have : y ∈ kids ks .subsentence := by rw [k]; simp
      exact (List.mem_filter.1 this).1
    exact ⟨iha (hs.trans (.child (List.mem_cons_self ..) ((gek_sub hg).1 _ (kids_mem k).1))),
      ihb (hs.trans (.child (List.mem_cons_self ..) ((gek_sub hg).1 _ hy)))⟩

theorem main_rules : on .mainSelbri (fun its => its == [.n .selbri]) = true := by decide +kernel

theorem main_read {x : Node} (h : Parse .mainSelbri x) : ∃ a, MainR x a := by
  obtain ⟨i, its, cs, rfl, hf, hk⟩ := on_use main_rules h
  rw [beq_iff_eq] at hf
  subst hf
  obtain ⟨c, rfl, hp⟩ := only hk
  obtain ⟨a, ha⟩ := sb_read _ (by decide) (Nat.le_refl _) hp
  obtain ⟨k, ds, r, rfl, _⟩ := parse_inv hp
  exact ⟨a, .mk ha⟩

theorem jai_of_jais {lc : List LC} (h : jais lc = 0) : LC.jai ∉ lc := by
  induction lc with
  | nil => simp
  | cons e l ih =>
    cases e <;> simp only [jais] at h <;> first | omega | (simp only [List.mem_cons, not_or]; exact ⟨by simp, ih h⟩)

/-- A bridi within the limits. -/
theorem within {top x : Node} {a : Br} {u : NT} (hp : Parse u top) (h : BrR x a) (hs : ∀ s ∈ give a [] [], Sub top s.ms) (ht : a.Tailed)
    (hn : num [.term] x ≤ 14) (hc : num convTypes x ≤ 19) (hj : num jaiTypes x = 0) :
    (∃ S : Share → Sb, ∀ s ∈ give a [] [], MainR s.ms (S s)) ∧ ∀ S : Share → Sb, (∀ s ∈ give a [] [], MainR s.ms (S s)) → a.Within S := by
  have hf := give_few h [] []
  have hsub := give_sub h [] []
  constructor
  · have key : ∀ s : Share, ∃ b, s ∈ give a [] [] → MainR s.ms b := by
      intro s
      by_cases hm : s ∈ give a [] []
      · obtain ⟨e1, i, cs, e2⟩ := hsub s hm
        have hp' := sub_parse (i := i) (cs := cs) hp (by rw [← e2]; exact hs s hm) (by decide : NT.mainSelbri ≠ .augmented)
        rw [← e2] at hp'
        obtain ⟨b, hb⟩ := main_read hp'
        exact ⟨b, fun _ => hb⟩
      · exact ⟨.mute, fun h => absurd h hm⟩
    exact ⟨fun s => (key s).choose, fun s hm => (key s).choose_spec hm⟩
  · intro S hS
    have sb : ∀ s ∈ give a [] [], ∃ y, Sub s.ms y ∧ SbR y (S s) := by
      intro s hm
      have := hS s hm
      generalize s.ms = ms at this ⊢
      cases this with
      | mk h => exact ⟨_, .child (List.mem_cons_self ..) .refl, h⟩
    refine ⟨ht, ?_, hS, ?_, ?_, ?_⟩
    · intro s hm
      have := hf s hm
      simp only [List.length_nil] at this
      constructor <;> simp only [maxTerms] <;> omega
    · intro s hm
      obtain ⟨y, h1, h2⟩ := sb s hm
      have := hf s hm
      have := num_sub (ts := [.term]) h1
      simp only [List.length_nil] at *
      exact (jobs_few h2 [] [] []).2.2 (by simp only [maxTerms]; omega)
    · intro s hm
      obtain ⟨y, h1, h2⟩ := sb s hm
      have e1 := (jobs_few h2 [] [] []).2.1
      have e2 := num_sub (ts := convTypes) h1
      have e3 := num_sub (ts := convTypes) (hsub s hm).1
      omega
    · intro j hjm
      obtain ⟨s, hm, hjm⟩ := List.mem_flatMap.1 hjm
      obtain ⟨y, h1, h2⟩ := sb s hm
      obtain ⟨e1, e2⟩ := (jobs_few h2 s.pre s.post []).1 j hjm
      have e3 := hf s hm
      have e4 := num_sub (ts := [.term]) h1
      have e5 := num_sub (ts := jaiTypes) h1
      have e6 := num_sub (ts := jaiTypes) (hsub s hm).1
      simp only [entries, jais, List.length_nil] at *
      have e7 : jais j.lc = 0 := by omega
      exact ⟨clean_of_nojai e7, jai_of_jais e7, by omega, by omega⟩

/-- A selbri that stands by itself, with terms before it at most, within the limits. -/
theorem alone {x : Node} {b : Sb} (h : SbR x b) {pre : List Entry} {lc : List LC} (hpre : ∀ e ∈ pre, e.Ok) (hlc : ∀ e ∈ lc, e.Ok)
    (hn : entries lc + pre.length + num [.term] x ≤ 14) (hc : lc.length + num convTypes x ≤ 20) (hj : jais lc + num jaiTypes x = 0) :
    ∃ P : Job → List (Nat × Target), (∀ j ∈ jobs b pre [] lc, Places j.lc j.pre j.post (P j)) ∧
      ∃ evs, evs.filterMap Ev.seen = (jobs b pre [] lc).flatMap (toldBy P) ∧
        ∀ fuel, x.depth ≤ fuel → procOf x fuel pre [] lc = .ok evs := by
  have hok := jobs_ok h hpre (post := []) (by simp) hlc
  obtain ⟨f1, f2, f3⟩ := jobs_few h pre [] lc
  have hpl : ∀ j ∈ jobs b pre [] lc, j.Plain := by
    intro j hm
    obtain ⟨e1, e2⟩ := f1 j hm
    simp only [List.length_nil] at e1
    have e7 : jais j.lc = 0 := by omega
    exact ⟨clean_of_nojai e7, jai_of_jais e7, by omega, by omega⟩
  have key : ∀ j : Job, ∃ E s, j ∈ jobs b pre [] lc → leafRun j = .ok E ∧ Places j.lc j.pre j.post s ∧
      E.filterMap Ev.seen = s.map (fun p => (p.1, headOf j.leaf, p.2.seen)) := by
    intro j
    by_cases hm : j ∈ jobs b pre [] lc
    · obtain ⟨E, s, h1⟩ := leaf_places (hok j hm) (hpl j hm)
      exact ⟨E, s, fun _ => h1⟩
    · exact ⟨[], [], fun h => absurd h hm⟩
  let E := fun j => (key j).choose
  let P := fun j => (key j).choose_spec.choose
  have hE : ∀ j ∈ jobs b pre [] lc, leafRun j = .ok (E j) ∧ Places j.lc j.pre j.post (P j) ∧
      (E j).filterMap Ev.seen = toldBy P j := fun j hm => (key j).choose_spec.choose_spec hm
  obtain ⟨evs, g1, g2⟩ := selbri_jobs h (pre := pre) (post := []) (lc := lc) (f3 (by simp only [maxTerms]; omega)) (by omega) E
    (fun j hm => (hE j hm).1)
  refine ⟨P, fun j hm => (hE j hm).2.1, evs, ?_, g2⟩
  rw [← seen_keep, g1, flatMap_filterMap]
  exact flatMap_congr' (fun j hm => (hE j hm).2.2)

/-! ## What is to be told at a node -/

/-- The labels at a sentence: `a` is the bridi, `S` the selbri of each of its shares and `P` the places. -/
structure Filled (a : Br) (S : Share → Sb) (P : Job → List (Nat × Target)) : Prop where
  selbri : ∀ s ∈ give a [] [], MainR s.ms (S s)
  places : ∀ j ∈ allJobs S a, Places j.lc j.pre j.post (P j)

/-- The labels that belong to a node where a bridi begins: a sentence, an abstraction, a relative clause, a
`sei` comment. -/
inductive Told : Node → List (Nat × Head × Option Seen) → Prop
  | statement {x a S P} : StmtR x a → Filled a S P → Told x ((allJobs S a).flatMap (toldBy P))
  | group {i cs} : 1 < cs.length → Told (.nt i .statement3 cs) []
  | abstraction {i n ss cs a S P} : BrR ss a → Filled a S P →
      Told (.nt i .abstraction (n :: ss :: cs)) ((allJobs S a).flatMap (toldBy P))
  | relative {i r ds ss xs cs a S P} : kids ds .subsentence = ss :: xs → BrR ss a → Filled a S P →
      Told (.nt i .relativeClause (.nt r .fullRelativeClause ds :: cs)) ((allJobs S a).flatMap (toldBy P))
  | phrase {i r ds cs} : Told (.nt i .relativeClause (.nt r .termRelativeClause ds :: cs)) []
  | sei {i k s ss cs ms h b P} : HeadR cs h → kids cs .metalinguisticMainSelbri = .nt k .metalinguisticMainSelbri (s :: ss) :: ms →
      SbR s b → (∀ j ∈ jobs b h [] [], Places j.lc j.pre j.post (P j)) →
      Told (.nt i .metalinguistic cs) ((jobs b h [] []).flatMap (toldBy P))
  | other {i t cs} : t ∉ [NT.statement3, .abstraction, .relativeClause, .metalinguistic] → Told (.nt i t cs) []

/-- The labels that belong to the selbri of a sumti. -/
inductive ToldSumti : Node → List (Nat × Head × Option Seen) → Prop
  | selbri {i t s ss cs b P} : t ∈ [NT.sumti5b, .sumtiTail1a] → kids cs .selbri = s :: ss → SbR s b →
      (∀ j ∈ jobs b [] [] [], Places j.lc j.pre j.post (P j)) → ToldSumti (.nt i t cs) ((jobs b [] [] []).flatMap (toldBy P))
  | other {i t cs} : t ∉ [NT.sumti5b, .sumtiTail1a] → ToldSumti (.nt i t cs) []

mutual
/-- What is told at the nodes of a tree, a node before its children. -/
inductive Each (Q : Node → List α → Prop) : Node → List α → Prop
  | node {i t cs l m} : Q (.nt i t cs) l → Eachs Q cs m → Each Q (.nt i t cs) (l ++ m)
  | leaf {x} : (∀ i t cs, x ≠ .nt i t cs) → Each Q x []
inductive Eachs (Q : Node → List α → Prop) : List Node → List α → Prop
  | nil : Eachs Q [] []
  | cons {c cs l m} : Each Q c l → Eachs Q cs m → Eachs Q (c :: cs) (l ++ m)
end

theorem statement3_rules : on .statement3 (fun its => its == [.n .sentence] || decide (2 ≤ sure its)) = true := by decide +kernel
theorem relativeClause_rules : on .relativeClause (fun its => its == [.n .termRelativeClause] || its == [.n .fullRelativeClause]) = true := by
  decide +kernel
theorem fullRelative_rules : on .fullRelativeClause (fun its => cnt its .subsentence == 1) = true := by decide +kernel
theorem sei_rules : on .metalinguistic (fun its => decide (cnt its .terms ≤ 1) && cnt its .metalinguisticMainSelbri == 1) = true := by
  decide +kernel
theorem seiMain_rules : on .metalinguisticMainSelbri (fun its => its == [.n .selbri]) = true := by decide +kernel
theorem sumti5b_rules : on .sumti5b (fun its => cnt its .selbri == 1) = true := by decide +kernel
theorem sumtiTail1a_rules : on .sumtiTail1a (fun its => cnt its .selbri == 1) = true := by decide +kernel

theorem bridi_told {top x : Node} {a : Br} {u : NT} (hp : Parse u top) (h : BrR x a) (hs : ∀ s ∈ give a [] [], Sub top s.ms) (ht : a.Tailed)
    (hn : num [.term] x ≤ 14) (hc : num convTypes x ≤ 19) (hj : num jaiTypes x = 0) : ∃ S P, a.Within S ∧ Filled a S P := by
  obtain ⟨⟨S, h1⟩, h2⟩ := within hp h hs ht hn hc hj
  obtain ⟨P, hP⟩ := all_places h (h2 S h1)
  exact ⟨S, P, h2 S h1, h1, fun j hj => (hP j hj).1⟩

theorem head_ok {cs : List Node} {h : List Entry} (hh : HeadR cs h) : ∀ e ∈ h, e.Ok := by
  cases hh with
  | none _ => simp
  | terms _ h => exact terms_ok h

/-- The first pass at a node of a parse tree. -/
theorem sentence_told {top : Node} {u t : NT} {i : Nat} {cs : List Node} (hp : Parse u top) (hm : Modest top) (hs : Sub top (.nt i t cs)) :
    ∃ evs, Told (.nt i t cs) (evs.filterMap Ev.seen) ∧ ∀ fuel, (Node.nt i t cs).depth ≤ fuel → sentenceAt fuel (.nt i t cs) = .ok evs := by
  have hn := hm.terms i t cs
  have hc := hm.convs i t cs
  have hj := num_sub (ts := jaiTypes) hs
  rw [hm.nojai] at hj
  have fit : ∀ {x : Node}, Sub (.nt i t cs) x → t ∈ starts → num [.term] x ≤ 14 ∧ num convTypes x ≤ 19 ∧ num jaiTypes x = 0 := by
    intro x hx ht
    have := num_sub (ts := [.term]) hx
    have := num_sub (ts := convTypes) hx
    have := num_sub (ts := jaiTypes) hx
    have := hn ht hs
    have := hc ht hs
    omega
  -- a bridi under a `subsentence` of the text
  have sub : ∀ {x : Node}, Sub (.nt i t cs) x → t ∈ starts → Parse .subsentence x →
      ∃ a S P, BrR x a ∧ a.Within S ∧ Filled a S P := by
    intro x hx ht px
    obtain ⟨a, ha⟩ := br_read _ (t := .subsentence) (by decide) (Nat.le_refl _) px
    obtain ⟨f1, f2, f3⟩ := fit hx ht
    obtain ⟨S, P, hw, hf⟩ := bridi_told hp ha (fun s hm => (hs.trans hx).trans (give_sub ha [] [] s hm).1)
      (tailed_of ha (hs.trans hx) hm.tailed) f1 f2 f3
    exact ⟨a, S, P, ha, hw, hf⟩
  by_cases e1 : t = .statement3
  · subst e1
    have px := sub_parse hp hs (by decide)
    obtain ⟨i', its, ds, e, hf, hk⟩ := on_use statement3_rules px
    cases e
    simp only [Bool.or_eq_true, beq_iff_eq, decide_eq_true_eq] at hf
    rcases hf with rfl | hf
    · obtain ⟨s, rfl, ps⟩ := only hk
      obtain ⟨its, cs, hb, hk', h1, h2, hd⟩ := body_read ps
      obtain ⟨hh, hhr⟩ := head_read hk' h1
      obtain ⟨bt, k, pb⟩ := kids_one hk' (by decide) h2
      obtain ⟨a, ha⟩ := br_read _ (t := .bridiTail) (by decide) (Nat.le_refl _) pb
      have hb' : BrR (.nt i .subsentence [s]) (.under hh a) := .sub .here hb hhr k ha
      have hst : StmtR (.nt i .statement3 [s]) (.under hh a) := .mk hb hhr k ha
      have hsub : Sub top bt := hs.trans (.child (List.mem_singleton.2 rfl) ((body_sub hb).1 _ (kids_mem k).1))
      obtain ⟨f1, f2, f3⟩ := fit (.child (List.mem_singleton.2 rfl) .refl : Sub (.nt i .statement3 [s]) s) (by decide)
      obtain ⟨S, P, hw, hfl⟩ := bridi_told hp hb' (fun sh hm => hsub.trans (give_sub ha hh [] sh hm).1)
        (tailed_of (a := a) ha hsub hm.tailed) (by simp [num, numList, f1]) (by simp [num, numList, f2, convTypes])
        (by simp [num, numList, f3, jaiTypes])
      obtain ⟨evs, g1, g2⟩ := statement_labels_partial hst hw P hfl.places
      exact ⟨evs, by rw [g1]; exact .statement hst hfl, g2⟩
    · have hl := many hk hf
      refine ⟨[], .group hl, fun fuel _ => ?_⟩
      simp only [sentenceAt, statement3Args, typeCheck_nt, Node.children, ok_bind]
      split
      · simp at hl
      · rfl
  by_cases e2 : t = .abstraction
  · subst e2
    have px := sub_parse hp hs (by decide)
    obtain ⟨i', its, ds, e, hf, hk⟩ := on_use abstraction_rules px
    cases e
    split at hf
    · obtain ⟨n, ds, rfl, _, hk⟩ := first hk
      obtain ⟨ss, ds, rfl, ps, hk⟩ := first hk
      have hx : Sub (.nt i .abstraction (n :: ss :: ds)) ss := .child (by simp) .refl
      obtain ⟨a, S, P, ha, hw, hfl⟩ := sub hx (by decide) ps
      obtain ⟨k, es, r, rfl, _⟩ := parse_inv ps
      obtain ⟨evs, g1, g2⟩ := abstraction_labels_partial (i := i) (n := n) (cs := ds) ha ⟨_, _, rfl⟩ hw P hfl.places
      exact ⟨evs, by rw [g1]; exact .abstraction ha hfl, fun fuel hd => g2 fuel (Nat.le_trans (sub_depth hx) hd)⟩
    · cases hf
  by_cases e3 : t = .relativeClause
  · subst e3
    have px := sub_parse hp hs (by decide)
    obtain ⟨i', its, ds, e, hf, hk⟩ := on_use relativeClause_rules px
    cases e
    simp only [Bool.or_eq_true, beq_iff_eq] at hf
    rcases hf with rfl | rfl
    · obtain ⟨c, rfl, pc⟩ := only hk
      obtain ⟨k, es, r, rfl, _⟩ := parse_inv pc
      exact ⟨[], .phrase, fun fuel _ => rfl⟩
    · obtain ⟨c, rfl, pc⟩ := only hk
      obtain ⟨k, its, es, rfl, hf, hk'⟩ := on_use fullRelative_rules pc
      simp only [cnt, beq_iff_eq] at hf
      obtain ⟨ss, kk, ps⟩ := kids_one hk' (by decide) hf
      have hx : Sub (.nt i .relativeClause [.nt k .fullRelativeClause es]) ss := .child (List.mem_singleton.2 rfl) (kid_sub kk)
      obtain ⟨a, S, P, ha, hw, hfl⟩ := sub hx (by decide) ps
      obtain ⟨evs, g1, g2⟩ := relative_labels_partial (i := i) (r := k) (t := .relativeClause) (cs := []) kk ha hw P hfl.places
      exact ⟨evs, by rw [g1]; exact .relative kk ha hfl, fun fuel hd => g2 fuel (Nat.le_trans (sub_depth hx) hd)⟩
  by_cases e4 : t = .metalinguistic
  · subst e4
    have px := sub_parse hp hs (by decide)
    obtain ⟨i', its, ds, e, hf, hk⟩ := on_use sei_rules px
    cases e
    simp only [Bool.and_eq_true, beq_iff_eq, decide_eq_true_eq] at hf
    obtain ⟨hh, hhr⟩ := head_read hk hf.1
    obtain ⟨mm, km, pm⟩ := kids_one hk (by decide) hf.2
    obtain ⟨k, its, es, rfl, hf', hk'⟩ := on_use seiMain_rules pm
    rw [beq_iff_eq] at hf'
    subst hf'
    obtain ⟨s, rfl, ps⟩ := only hk'
    obtain ⟨b, hb⟩ := sb_read _ (t := .selbri) (by decide) (Nat.le_refl _) ps
    have hx : Sub (.nt i .metalinguistic cs) s := (kid_sub km).trans (.child (List.mem_singleton.2 rfl) .refl)
    obtain ⟨f1, f2, f3⟩ := fit .refl (by decide)
    have l1 := head_few hhr
    have l2 := num_kids2 (ts := [.term]) (show NT.terms ≠ .metalinguisticMainSelbri by decide) cs
    have l3 := num_head (ts := [.term]) km
    have l4 := num_sub (ts := [.term]) (.child (List.mem_singleton.2 rfl) .refl : Sub (.nt k .metalinguisticMainSelbri [s]) s)
    have l5 := num_nt (ts := [.term]) (i := i) (t := .metalinguistic) (cs := cs)
    have l6 := num_sub (ts := convTypes) hx
    have l7 := num_sub (ts := jaiTypes) hx
    obtain ⟨P, hP, evs, g1, g2⟩ := alone hb (pre := hh) (lc := []) (head_ok hhr) (by simp) (by simp only [entries]; omega)
      (by simp only [List.length_nil]; omega) (by simp only [jais]; omega)
    refine ⟨evs, by rw [g1]; exact .sei hhr km hb hP, fun fuel hd => ?_⟩
    have d1 := sub_depth hx
    have g3 := g2 fuel (by omega)
    obtain ⟨k', es, r, rfl, _⟩ := parse_inv ps
    simp only [procOf] at g3
    simp only [sentenceAt, metalinguisticArgs, findNth_some km, ok_bind, asserted, childRef_zero]
    cases hhr with
    | none kt => simp only [findNth_none kt, ok_bind]; exact g3
    | terms kt ht =>
      simp only [findNth_some kt, ok_bind]
      have d2 := kids_depth kt
      rw [depth_nt] at hd
      rw [terms_vector ht (by simp only [maxTerms]; omega) fuel (by omega)]
      exact g3
  have e5 : t ∉ [NT.statement3, .abstraction, .relativeClause, .metalinguistic] := by simp [e1, e2, e3, e4]
  refine ⟨[], .other e5, fun fuel _ => ?_⟩
  simp only [sentenceAt]
  split
  · rename_i h; cases h; exact absurd rfl e1
  · rename_i h; cases h; exact absurd rfl e2
  · rename_i h; cases h; exact absurd rfl e3
  · rename_i h; cases h; exact absurd rfl e4
  · rfl

/-- The second pass at a node. -/
theorem sumti_told {top : Node} {u t : NT} {i : Nat} {cs : List Node} (hp : Parse u top) (hm : Modest top) (hs : Sub top (.nt i t cs)) :
    ∃ evs, ToldSumti (.nt i t cs) (evs.filterMap Ev.seen) ∧ ∀ fuel, (Node.nt i t cs).depth ≤ fuel → sumtiAt fuel (.nt i t cs) = .ok evs := by
  have hn := hm.terms i t cs
  have hc := hm.convs i t cs
  have hj := num_sub (ts := jaiTypes) hs
  rw [hm.nojai] at hj
  by_cases e : t ∈ [NT.sumti5b, .sumtiTail1a]
  · have ht : t ∈ starts ∧ t ≠ .augmented ∧ on t (fun its => cnt its .selbri == 1) = true := by
      simp only [List.mem_cons, List.not_mem_nil, or_false] at e
      rcases e with rfl | rfl
      · exact ⟨by decide, by decide, sumti5b_rules⟩
      · exact ⟨by decide, by decide, sumtiTail1a_rules⟩
    have px := sub_parse hp hs ht.2.1
    obtain ⟨i', its, ds, e', hf, hk⟩ := on_use ht.2.2 px
    cases e'
    simp only [cnt, beq_iff_eq] at hf
    obtain ⟨s, k, ps⟩ := kids_one hk (by decide) hf
    obtain ⟨b, hb⟩ := sb_read _ (t := .selbri) (by decide) (Nat.le_refl _) ps
    have hx : Sub (.nt i t cs) s := kid_sub k
    have l4 := num_sub (ts := [.term]) hx
    have l6 := num_sub (ts := convTypes) hx
    have l7 := num_sub (ts := jaiTypes) hx
    have l8 := hn ht.1 hs
    have l9 := hc ht.1 hs
    obtain ⟨P, hP, evs, g1, g2⟩ := alone hb (pre := []) (lc := []) (by simp) (by simp) (by simp only [entries, List.length_nil]; omega)
      (by simp only [List.length_nil]; omega) (by simp only [jais]; omega)
    refine ⟨evs, by rw [g1]; exact .selbri e k hb hP, fun fuel hd => ?_⟩
    have d1 := sub_depth hx
    have g3 := g2 fuel (by omega)
    obtain ⟨k', es, r, rfl, _⟩ := parse_inv ps
    simp only [procOf] at g3
    simp only [List.mem_cons, List.not_mem_nil, or_false] at e
    rcases e with rfl | rfl
    · simp only [sumtiAt, findNth_some k, ok_bind, asserted]; exact g3
    · simp only [sumtiAt, findNth_some k, ok_bind, asserted]; exact g3
  · refine ⟨[], .other e, fun fuel _ => ?_⟩
    simp only [List.mem_cons, List.not_mem_nil, or_false, not_or] at e
    simp only [sumtiAt]
    split
    · rename_i h; cases h; exact absurd rfl e.1
    · rename_i h; cases h; exact absurd rfl e.2
    · rfl

/-! ## The passes -/

theorem scan_each {f : Nat → Node → M (List Ev)} {Q : Node → List (Nat × Head × Option Seen) → Prop} : ∀ (n : Nat),
    (∀ x : Node, x.depth ≤ n → (∀ i t cs, Sub x (.nt i t cs) → ∃ evs, Q (.nt i t cs) (evs.filterMap Ev.seen) ∧
        ∀ fuel, (Node.nt i t cs).depth ≤ fuel → f fuel (.nt i t cs) = .ok evs) →
      ∃ evs, Each Q x (evs.filterMap Ev.seen) ∧ ∀ fuel, x.depth ≤ fuel → scan (f fuel) x = .ok evs) ∧
    (∀ xs : List Node, depthList xs ≤ n → (∀ x ∈ xs, ∀ i t cs, Sub x (.nt i t cs) → ∃ evs, Q (.nt i t cs) (evs.filterMap Ev.seen) ∧
        ∀ fuel, (Node.nt i t cs).depth ≤ fuel → f fuel (.nt i t cs) = .ok evs) →
      ∃ evs, Eachs Q xs (evs.filterMap Ev.seen) ∧ ∀ fuel, depthList xs ≤ fuel → scanList (f fuel) xs = .ok evs) := by
  have list : ∀ n, (∀ x : Node, x.depth ≤ n → (∀ i t cs, Sub x (.nt i t cs) → ∃ evs, Q (.nt i t cs) (evs.filterMap Ev.seen) ∧
        ∀ fuel, (Node.nt i t cs).depth ≤ fuel → f fuel (.nt i t cs) = .ok evs) →
      ∃ evs, Each Q x (evs.filterMap Ev.seen) ∧ ∀ fuel, x.depth ≤ fuel → scan (f fuel) x = .ok evs) →
    (∀ xs : List Node, depthList xs ≤ n → (∀ x ∈ xs, ∀ i t cs, Sub x (.nt i t cs) → ∃ evs, Q (.nt i t cs) (evs.filterMap Ev.seen) ∧
        ∀ fuel, (Node.nt i t cs).depth ≤ fuel → f fuel (.nt i t cs) = .ok evs) →
      ∃ evs, Eachs Q xs (evs.filterMap Ev.seen) ∧ ∀ fuel, depthList xs ≤ fuel → scanList (f fuel) xs = .ok evs) := by
    intro n h xs
    induction xs with
    | nil => intro _ _; exact ⟨[], .nil, fun _ _ => rfl⟩
    | cons x xs ih =>
      intro hd hx
      rw [depthList] at hd
      obtain ⟨e1, a1, a2⟩ := h x (by omega) (hx x (List.mem_cons_self ..))
      obtain ⟨e2, b1, b2⟩ := ih (by omega) (fun y hy => hx y (List.mem_cons_of_mem _ hy))
      refine ⟨e1 ++ e2, by rw [List.filterMap_append]; exact .cons a1 b1, fun fuel hf => ?_⟩
      rw [depthList] at hf
      rw [scanList, a2 fuel (by omega), b2 fuel (by omega)]
      rfl
  intro n
  induction n with
  | zero =>
    have h0 : ∀ x : Node, x.depth ≤ 0 → (∀ i t cs, Sub x (.nt i t cs) → ∃ evs, Q (.nt i t cs) (evs.filterMap Ev.seen) ∧
        ∀ fuel, (Node.nt i t cs).depth ≤ fuel → f fuel (.nt i t cs) = .ok evs) →
        ∃ evs, Each Q x (evs.filterMap Ev.seen) ∧ ∀ fuel, x.depth ≤ fuel → scan (f fuel) x = .ok evs := by
      intro x hd _
      cases x with
      | nt i t cs => rw [depth_nt] at hd; omega
      | _ => exact ⟨[], .leaf (by simp), fun _ _ => by rw [scan]; simp⟩
    exact ⟨h0, list 0 h0⟩
  | succ n ih =>
    have h1 : ∀ x : Node, x.depth ≤ n + 1 → (∀ i t cs, Sub x (.nt i t cs) → ∃ evs, Q (.nt i t cs) (evs.filterMap Ev.seen) ∧
        ∀ fuel, (Node.nt i t cs).depth ≤ fuel → f fuel (.nt i t cs) = .ok evs) →
        ∃ evs, Each Q x (evs.filterMap Ev.seen) ∧ ∀ fuel, x.depth ≤ fuel → scan (f fuel) x = .ok evs := by
      intro x hd hx
      cases x with
      | nt i t cs =>
        rw [depth_nt] at hd
        obtain ⟨e1, a1, a2⟩ := hx i t cs .refl
        obtain ⟨e2, b1, b2⟩ := ih.2 cs (by omega) (fun y hy j u ds hs => hx j u ds (.child hy hs))
        refine ⟨e1 ++ e2, by rw [List.filterMap_append]; exact .node a1 b1, fun fuel hf => ?_⟩
        have := a2 fuel hf
        rw [depth_nt] at hf
        rw [scan, this, b2 fuel (by omega)]
        rfl
      | _ => exact ⟨[], .leaf (by simp), fun _ _ => by rw [scan]; simp⟩
    exact ⟨h1, list (n + 1) h1⟩

/-- The labels of linked sumti that no sentence has given yet: `be … bei …` after a word that is not the last
of its selbri. -/
inductive ToldLinks : Node → List (Nat × Head × Option Seen) → Prop
  | linked {i j k cs ls r es b P} : SbR (.nt j .tanruUnit2 cs) b → LinkedR (.nt k .linkargs ls) es →
      (∀ w ∈ jobs b [] [] [.links es], Places w.lc w.pre w.post (P w)) →
      ToldLinks (.nt i .tanruUnit1 (.nt j .tanruUnit2 cs :: .nt k .linkargs ls :: r)) ((jobs b [] [] [.links es]).flatMap (toldBy P))
  | nothing {x} : ToldLinks x []

/-- The linked sumti of a unit. -/
theorem unit_links {top : Node} {u : NT} {i : Nat} {cs : List Node} (hp : Parse u top) (hm : Modest top) (hs : Sub top (.nt i .tanruUnit1 cs)) :
    (∀ fuel, (Node.nt i .tanruUnit1 cs).depth ≤ fuel → linksOf fuel (.nt i .tanruUnit1 cs) = .ok none) ∨
    ∃ es evs tu2, (∀ fuel, (Node.nt i .tanruUnit1 cs).depth ≤ fuel → linksOf fuel (.nt i .tanruUnit1 cs) = .ok (some es) ∧
        childRef (.nt i .tanruUnit1 cs) 0 = .ok tu2 ∧ tu2Args fuel tu2 [] [] [.links es] = .ok evs) ∧
      ToldLinks (.nt i .tanruUnit1 cs) (evs.filterMap Ev.seen) := by
  have hn := hm.terms i .tanruUnit1 cs (by decide) hs
  have hc := hm.convs i .tanruUnit1 cs (by decide) hs
  have hj := num_sub (ts := jaiTypes) hs
  rw [hm.nojai] at hj
  have px := sub_parse hp hs (by decide)
  obtain ⟨i', its, ds, e, hf, hk⟩ := on_use tanruUnit1_rules px
  cases e
  simp only [Bool.or_eq_true, beq_iff_eq] at hf
  rcases hf with rfl | rfl
  · obtain ⟨c, rfl, pc⟩ := only hk
    refine .inl fun fuel _ => ?_
    simp only [linksOf, typeCheck_nt, Node.children, ok_bind]
    rfl
  · obtain ⟨c, ds, rfl, pc, hk⟩ := first hk
    obtain ⟨d, rfl, pd⟩ := only hk
    obtain ⟨es, hes⟩ := linked_read _ (.inl rfl) (Nat.le_refl _) pd
    obtain ⟨b, hb⟩ := sb_read _ (t := .tanruUnit2) (by decide) (Nat.le_refl _) pc
    obtain ⟨j, cs, r, rfl, _⟩ := parse_inv pc
    obtain ⟨k, ls, r, rfl, _⟩ := parse_inv pd
    have hx : Sub (.nt i .tanruUnit1 [.nt j .tanruUnit2 cs, .nt k .linkargs ls]) (.nt j .tanruUnit2 cs) := .child (by simp) .refl
    have hl : Sub (.nt i .tanruUnit1 [.nt j .tanruUnit2 cs, .nt k .linkargs ls]) (.nt k .linkargs ls) := .child (by simp) .refl
    have l1 := linked_few hes
    have l2 : num [.term] (.nt j .tanruUnit2 cs) + num [.term] (.nt k .linkargs ls) ≤
        num [.term] (.nt i .tanruUnit1 [.nt j .tanruUnit2 cs, .nt k .linkargs ls]) := by
      simp only [num.eq_1 _ i, numList]; omega
    have l6 := num_sub (ts := convTypes) hx
    have l7 := num_sub (ts := jaiTypes) hx
    obtain ⟨P, hP, evs, g1, g2⟩ := alone hb (pre := []) (lc := [.links es]) (by simp) (by
        intro e he
        rw [List.mem_singleton.1 he]
        exact linked_ok hes) (by simp only [entries, List.length_nil]; omega)
      (by simp only [List.length_cons, List.length_nil]; omega) (by simp only [jais]; omega)
    refine .inr ⟨es, evs, .nt j .tanruUnit2 cs, fun fuel hd => ⟨?_, rfl, ?_⟩, by rw [g1]; exact .linked hb hes hP⟩
    · have d1 := sub_depth hl
      have := links_build hes [] (by simp only [List.length_nil, maxTerms]; omega) fuel (by omega)
      simp only [List.nil_append] at this
      simp only [linksOf, typeCheck_nt, Node.children, ok_bind, childRef_one, this]
      rfl
    · have d1 := sub_depth hx
      have := g2 fuel (by omega)
      simpa only [procOf] using this

theorem phase1_none {top : Node} {u t : NT} {i : Nat} {cs : List Node} (hp : Parse u top) (hm : Modest top) (hs : Sub top (.nt i t cs)) :
    ∃ evs : List Ev, True ∧ ∀ fuel, (Node.nt i t cs).depth ≤ fuel → phase1At fuel (.nt i t cs) = .ok evs := by
  refine ⟨[], trivial, fun fuel hd => ?_⟩
  by_cases e : t = .tanruUnit1
  · subst e
    rcases unit_links hp hm hs with h | ⟨es, evs, tu2, h, _⟩
    · simp only [phase1At, h fuel hd, ok_bind]; rfl
    · simp only [phase1At, (h fuel hd).1, ok_bind]; rfl
  · simp only [phase1At]
    split
    · rename_i h; cases h; exact absurd rfl e
    · rfl

theorem phase2_each {top : Node} {u : NT} (hp : Parse u top) (hm : Modest top) : ∀ (n : Nat),
    (∀ x : Node, x.depth ≤ n → Sub top x → ∀ log, ∃ evs, Each ToldLinks x (evs.filterMap Ev.seen) ∧
      ∀ fuel, x.depth ≤ fuel → phase2 fuel x log = .ok (log ++ evs)) ∧
    (∀ xs : List Node, depthList xs ≤ n → (∀ x ∈ xs, Sub top x) → ∀ log, ∃ evs, Eachs ToldLinks xs (evs.filterMap Ev.seen) ∧
      ∀ fuel, depthList xs ≤ fuel → phase2List fuel xs log = .ok (log ++ evs)) := by
  have list : ∀ n, (∀ x : Node, x.depth ≤ n → Sub top x → ∀ log, ∃ evs, Each ToldLinks x (evs.filterMap Ev.seen) ∧
      ∀ fuel, x.depth ≤ fuel → phase2 fuel x log = .ok (log ++ evs)) →
    (∀ xs : List Node, depthList xs ≤ n → (∀ x ∈ xs, Sub top x) → ∀ log, ∃ evs, Eachs ToldLinks xs (evs.filterMap Ev.seen) ∧
      ∀ fuel, depthList xs ≤ fuel → phase2List fuel xs log = .ok (log ++ evs)) := by
    intro n h xs
    induction xs with
    | nil => intro _ _ log; exact ⟨[], .nil, fun _ _ => by rw [phase2List, List.append_nil]⟩
    | cons x xs ih =>
      intro hd hx log
      rw [depthList] at hd
      obtain ⟨e1, a1, a2⟩ := h x (by omega) (hx x (List.mem_cons_self ..)) log
      obtain ⟨e2, b1, b2⟩ := ih (by omega) (fun y hy => hx y (List.mem_cons_of_mem _ hy)) (log ++ e1)
      refine ⟨e1 ++ e2, by rw [List.filterMap_append]; exact .cons a1 b1, fun fuel hf => ?_⟩
      rw [depthList] at hf
      rw [phase2List, a2 fuel (by omega), ok_bind, b2 fuel (by omega), List.append_assoc]
  intro n
  induction n with
  | zero =>
    refine ⟨?_, list 0 ?_⟩ <;>
    · intro x hd _ log
      cases x with
      | nt i t cs => rw [depth_nt] at hd; omega
      | _ => exact ⟨[], .leaf (by simp), fun _ _ => by rw [phase2, List.append_nil]; simp⟩
  | succ n ih =>
    have h1 : ∀ x : Node, x.depth ≤ n + 1 → Sub top x → ∀ log, ∃ evs, Each ToldLinks x (evs.filterMap Ev.seen) ∧
        ∀ fuel, x.depth ≤ fuel → phase2 fuel x log = .ok (log ++ evs) := by
      intro x hd hx log
      cases x with
      | nt i t cs =>
        rw [depth_nt] at hd
        have here : ∃ e1, ToldLinks (.nt i t cs) (e1.filterMap Ev.seen) ∧ ∀ fuel, (Node.nt i t cs).depth ≤ fuel →
            phase2 fuel (.nt i t cs) log = phase2List fuel cs (log ++ e1) := by
          by_cases e : t = .tanruUnit1
          · subst e
            rcases unit_links hp hm hx with h | ⟨es, evs, tu2, h, h'⟩
            · refine ⟨[], .nothing, fun fuel hf => ?_⟩
              rw [phase2, if_pos rfl, h fuel hf, List.append_nil]; rfl
            · by_cases hdn : isDone log i = true
              · refine ⟨[], .nothing, fun fuel hf => ?_⟩
                rw [phase2, if_pos rfl, (h fuel hf).1, List.append_nil]
                simp only [ok_bind, hdn, if_true]; rfl
              · refine ⟨evs ++ [.done i], by rw [List.filterMap_append, show [Ev.done i].filterMap Ev.seen = [] from rfl, List.append_nil]; exact h', fun fuel hf => ?_⟩
                obtain ⟨g1, g2, g3⟩ := h fuel hf
                rw [phase2, if_pos rfl, g1]
                simp only [ok_bind, if_neg hdn, g2, g3]
                rw [← List.append_assoc]; rfl
          · refine ⟨[], .nothing, fun fuel hf => ?_⟩
            rw [phase2, if_neg e, List.append_nil]; rfl
        obtain ⟨e1, a1, a2⟩ := here
        obtain ⟨e2, b1, b2⟩ := ih.2 cs (by omega) (fun y hy => hx.trans (.child hy .refl)) (log ++ e1)
        refine ⟨e1 ++ e2, by rw [List.filterMap_append]; exact .node a1 b1, fun fuel hf => ?_⟩
        have := a2 fuel hf
        rw [depth_nt] at hf
        rw [this, b2 fuel (by omega), List.append_assoc]
      | _ => exact ⟨[], .leaf (by simp), fun _ _ => by rw [phase2, List.append_nil]; simp⟩
    exact ⟨h1, list (n + 1) h1⟩

/-- **The labelling of a whole text**: on every tree of the grammar within the limits the program labels the
terms of every bridi, then those linked to the selbri of sumti, as the specification says, and then only linked
sumti.  Missing: `jai`, more terms than the limit, `gi'e … ke` without terms; which of the linked
sumti are left for the end. -/
theorem text_labels_partial {top : Node} (hp : Parse .chunks top) (hm : Modest top) :
    ∃ log l1 l2 l3, Each Told top l1 ∧ Each ToldSumti top l2 ∧ Each ToldLinks top l3 ∧
      log.filterMap Ev.seen = l1 ++ l2 ++ l3 ∧ ∀ fuel, top.depth ≤ fuel → termsProcessing fuel top = .ok log := by
  obtain ⟨e0, _, a0⟩ := (scan_each (f := phase1At) (Q := fun _ _ => True) top.depth).1 top (Nat.le_refl _)
    (fun i t cs hs => phase1_none hp hm hs)
  obtain ⟨e1, t1, a1⟩ := (scan_each (f := sentenceAt) (Q := Told) top.depth).1 top (Nat.le_refl _)
    (fun i t cs hs => sentence_told hp hm hs)
  obtain ⟨e2, t2, a2⟩ := (scan_each (f := sumtiAt) (Q := ToldSumti) top.depth).1 top (Nat.le_refl _)
    (fun i t cs hs => sumti_told hp hm hs)
  obtain ⟨e3, t3, a3⟩ := (phase2_each hp hm top.depth).1 top (Nat.le_refl _) .refl (e1 ++ e2)
  refine ⟨e1 ++ e2 ++ e3, _, _, _, t1, t2, t3, by rw [List.filterMap_append, List.filterMap_append], fun fuel hf => ?_⟩
  rw [termsProcessing, a0 fuel hf, ok_bind, a1 fuel hf, ok_bind, a2 fuel hf, ok_bind, a3 fuel hf]

end Jbo.Gram
