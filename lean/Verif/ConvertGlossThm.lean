import Verif.ConvertTu2Thm
/-!
# Verb or noun on every parse tree

Property C77.
-/

namespace Jbo.Convert
open Jbo.Terms Jbo.Gram Spec

/-! ## The pass as a visit of all nodes -/

/-- The state that comes from the ancestors. -/
def stateOf : List Node → GS
  | [] => .none
  | .nt _ t _ :: r => newState (stateOf r) t
  | _ :: r => stateOf r

def glossNode (g : GS) : Node → M (List Ev)
  | .nt i t cs => jaiGloss g (.nt i t cs) t
  | .brivla i => return glossed g (.brivla i)
  | .zei i => return glossed g (.zei i)
  | .cmavo i s w => return if s = .NU then glossed g (.cmavo i s w) else []
  | .leaf _ => return []

def glossAt (anc : List Node) (x : Node) : M (List Ev) := glossNode (stateOf anc) x

theorem bahe_gloss {bs : List Node} (hb : AllBahe bs) (g : GS) {l : List Node} : markGlossAll g (bs ++ l) = markGlossAll g l := by
  induction bs with
  | nil => rfl
  | cons b bs ih =>
    obtain ⟨k, v, rfl, _⟩ := hb b (List.mem_cons_self ..)
    rw [List.cons_append, markGlossAll, ih (fun b h => hb b (List.mem_cons_of_mem _ h)), markGloss]
    simp only [reduceCtorEq, if_false, bind, Except.bind, pure, Except.pure, List.nil_append]
    cases markGlossAll g l <;> rfl

theorem bahe_visit {bs : List Node} (hb : AllBahe bs) (anc : List Node) {l : List Node} : visitAug glossAt anc (bs ++ l) = visitAug glossAt anc l := by
  induction bs with
  | nil => rfl
  | cons b bs ih =>
    obtain ⟨k, v, rfl, _⟩ := hb b (List.mem_cons_self ..)
    rw [List.cons_append, visitAug, ih (fun b h => hb b (List.mem_cons_of_mem _ h))]
    have : visit glossAt [] (.cmavo k .BAhE v) = .ok [] := by rw [visit]; rfl; nofun
    simp only [Node.isSel, beq_self_eq_true, if_true, this, bind, Except.bind, pure, Except.pure, List.nil_append]
    cases visitAug glossAt anc l <;> rfl

theorem indic_nu {s : Terms.Sel} (h : s ∈ indicators) : s ≠ .NU := by rintro rfl; revert h; decide

theorem indic_gloss {r : Node} (h : Indic r) (g : GS) : markGloss g r = .ok [] := by
  cases h with
  | word hs _ => rw [markGloss]; simp [indic_nu hs, pure, Except.pure]
  | marked hb hs _ =>
    rw [markGloss, bahe_gloss hb]
    simp [markGlossAll, markGloss, jaiGloss, indic_nu hs, pure, Except.pure, bind, Except.bind]

theorem indics_gloss {rs : List Node} (h : ∀ r ∈ rs, Indic r) (g : GS) : markGlossAll g rs = .ok [] := by
  induction rs with
  | nil => rfl
  | cons r rs ih =>
    rw [markGlossAll, indic_gloss (h r (List.mem_cons_self ..)), ih (fun s hs => h s (List.mem_cons_of_mem _ hs))]
    rfl

theorem indic_visit {r : Node} (h : Indic r) : visit glossAt [] r = .ok [] := by
  cases h with
  | word hs _ =>
    rw [visit]
    · simp [glossAt, glossNode, indic_nu hs, pure, Except.pure]
    · nofun
  | @marked j bs i s w hb hs _ =>
    have : visit glossAt [] (.cmavo i s w) = .ok [] := by
      rw [visit]
      · simp [glossAt, glossNode, indic_nu hs, pure, Except.pure]
      · nofun
    rw [visit]
    simp only [if_true]
    rw [bahe_visit hb, visitAug]
    simp only [Node.isSel, indic_not_bahe hs, beq_eq_false_iff_ne.2 (indic_not_bahe hs), Bool.false_eq_true, if_false, this, visitAll]
    rfl

theorem indics_visit {rs : List Node} (h : ∀ r ∈ rs, Indic r) : visitAll glossAt [] rs = .ok [] := by
  induction rs with
  | nil => rw [visitAll]
  | cons r rs ih =>
    rw [visitAll, indic_visit (h r (List.mem_cons_self ..)), ih (fun s hs => h s (List.mem_cons_of_mem _ hs))]
    rfl

theorem base_visit {it : Item} {x : Node} (h : Base it x) (anc : List Node) : markGloss (stateOf anc) x = visit glossAt anc x := by
  cases h <;> (rw [markGloss, visit]; rfl; nofun)

theorem word_visit {it : Item} (hn : it ≠ .t .BAhE) {x : Node} (h : WordR it x) (anc : List Node) : markGloss (stateOf anc) x = visit glossAt anc x := by
  cases h with
  | alone hb => exact base_visit hb anc
  | marked hb h hr =>
    rw [markGloss, bahe_gloss hb, visit]
    simp only [if_true]
    rw [bahe_visit hb, markGlossAll, visitAug, base_not_bahe h hn, indics_gloss hr, indics_visit hr]
    rw [show newState (stateOf anc) .augmented = stateOf anc from rfl, base_visit h anc]
    rfl

theorem gloss_visit : ∀ (n : Nat) {t : NT} {x : Node}, x.depth ≤ n → Parse t x → ∀ anc, markGloss (stateOf anc) x = visit glossAt anc x := by
  intro n
  induction n with
  | zero =>
    intro t x hd hp anc
    obtain ⟨_, _, _, rfl, _⟩ := parse_inv hp
    rw [depth_nt] at hd; omega
  | succ n ih =>
    intro t x hd hp anc
    have ha := parse_not_aug hp
    obtain ⟨i, cs, r, rfl, hr, rfl, hk⟩ := parse_inv hp
    rw [markGloss, visit]
    simp only [if_neg ha]
    have all : ∀ (ds : List Node), (∀ d ∈ ds, d ∈ cs) → markGlossAll (newState (stateOf anc) r.lhs) ds = visitAll glossAt (.nt i r.lhs cs :: anc) ds := by
      intro ds
      induction ds with
      | nil => intro _; rw [visitAll]; rfl
      | cons d ds ihd =>
        intro h
        rw [markGlossAll, visitAll, ihd (fun e he => h e (List.mem_cons_of_mem _ he))]
        have hm := h d (List.mem_cons_self ..)
        have e : markGloss (newState (stateOf anc) r.lhs) d = visit glossAt (.nt i r.lhs cs :: anc) d := by
          change markGloss (stateOf (.nt i r.lhs cs :: anc)) d = _
          rcases parse_kid hp hm with ⟨v, _, hv⟩ | ⟨it, _, hn, hw⟩ | ⟨s, j, w, _, _, rfl⟩
          · refine ih ?_ hv _
            have := mem_depth (t := r.lhs) (i := i) hm
            omega
          · exact word_visit hn hw _
          · rw [markGloss, visit]
            · rfl
            · nofun
        rw [e]
    rw [all cs (fun _ h => h)]
    rfl

/-! ## The state and the nearest node that decides -/

theorem near_cons {ts : List NT} {x : Node} {anc : List Node} (hx : ¬ Of (verbNTs ++ nounNTs ++ silentNTs) x)
    (hsub : ∀ t ∈ ts, t ∈ verbNTs ++ nounNTs ++ silentNTs) : Near ts (x :: anc) ↔ Near ts anc := by
  constructor
  · rintro ⟨near, r, rest, e, h1, h2⟩
    cases near with
    | nil =>
      cases e
      obtain ⟨i, t, cs, rfl, ht⟩ := h1
      exact absurd ⟨_, _, _, rfl, hsub t ht⟩ hx
    | cons y near => cases e; exact ⟨near, r, rest, rfl, h1, fun z hz => h2 z (List.mem_cons_of_mem _ hz)⟩
  · rintro ⟨near, r, rest, rfl, h1, h2⟩
    refine ⟨x :: near, r, rest, rfl, h1, fun z hz => ?_⟩
    rcases List.mem_cons.1 hz with rfl | hz
    · exact hx
    · exact h2 z hz

theorem near_here {ts : List NT} {x : Node} {anc : List Node} (hx : Of (verbNTs ++ nounNTs ++ silentNTs) x) : Near ts (x :: anc) ↔ Of ts x := by
  constructor
  · rintro ⟨near, r, rest, e, h1, h2⟩
    cases near with
    | nil => cases e; exact h1
    | cons y near => cases e; exact absurd hx (h2 _ (List.mem_cons_self ..))
  · exact fun h => ⟨[], x, anc, rfl, h, nofun⟩

theorem of_nt {ts : List NT} {i : Nat} {t : NT} {cs : List Node} : Of ts (.nt i t cs) ↔ t ∈ ts := by
  constructor
  · rintro ⟨_, _, _, e, h⟩; cases e; exact h
  · exact fun h => ⟨_, _, _, rfl, h⟩

theorem newState_other {t : NT} (h : t ∉ verbNTs ++ nounNTs ++ silentNTs) (g : GS) : newState g t = g := by
  cases t <;> first | rfl | exact absurd (by decide) h

theorem state_near : ∀ (anc : List Node), (Near verbNTs anc ↔ verbal (stateOf anc) = true) ∧
    (Near nounNTs anc ↔ verbal (stateOf anc) = false ∧ stateOf anc ≠ .none) := by
  intro anc
  induction anc with
  | nil =>
    have no : ∀ ts, ¬ Near ts [] := by
      rintro ts ⟨near, r, rest, e, _⟩; cases near <;> cases e
    exact ⟨⟨fun h => absurd h (no _), nofun⟩, ⟨fun h => absurd h (no _), fun h => absurd rfl h.2⟩⟩
  | cons x anc ih =>
    have sub1 : ∀ t ∈ verbNTs, t ∈ verbNTs ++ nounNTs ++ silentNTs := by intro t ht; simp [ht]
    have sub2 : ∀ t ∈ nounNTs, t ∈ verbNTs ++ nounNTs ++ silentNTs := by intro t ht; simp [ht]
    have skip : ¬ Of (verbNTs ++ nounNTs ++ silentNTs) x → stateOf (x :: anc) = stateOf anc → (Near verbNTs (x :: anc) ↔ verbal (stateOf (x :: anc)) = true) ∧
        (Near nounNTs (x :: anc) ↔ verbal (stateOf (x :: anc)) = false ∧ stateOf (x :: anc) ≠ .none) := by
      intro h e
      rw [near_cons h sub1, near_cons h sub2, e]
      exact ih
    cases x with
    | nt i t cs =>
      by_cases ht : t ∈ verbNTs ++ nounNTs ++ silentNTs
      · rw [near_here (of_nt.2 ht), near_here (of_nt.2 ht), of_nt, of_nt, stateOf]
        generalize stateOf anc = g
        simp only [verbNTs, nounNTs, silentNTs, List.mem_append, List.mem_cons, List.not_mem_nil, or_false] at ht
        rcases ht with ((rfl | rfl | rfl | rfl) | rfl | rfl) | rfl | rfl | rfl <;> simp [newState, verbal, verbNTs, nounNTs]
      · exact skip (fun h => ht (of_nt.1 h)) (newState_other ht _)
    | _ => exact skip (by rintro ⟨_, _, _, e, _⟩; cases e) rfl

theorem glossed_form {anc : List Node} {x : Node} {e : Ev} : e ∈ glossed (stateOf anc) x ↔ ∃ b, Form anc b ∧ e = .inSelbri x.id b := by
  obtain ⟨h1, h2⟩ := state_near anc
  unfold glossed
  constructor
  · intro h
    split at h
    · cases h
    · rename_i hne
      rw [List.mem_singleton] at h
      subst h
      cases hv : verbal (stateOf anc) with
      | true => exact ⟨true, h1.2 hv, rfl⟩
      | false => exact ⟨false, h2.2 ⟨hv, hne⟩, rfl⟩
  · rintro ⟨b, hb, rfl⟩
    cases b with
    | true =>
      have hv := h1.1 hb
      rw [if_neg (by intro e; rw [e] at hv; cases hv), hv]
      simp
    | false =>
      obtain ⟨hv, hne⟩ := h2.1 hb
      rw [if_neg hne, hv]
      simp

theorem jai_first : rules.all (fun r => !(r.lhs == .jaiTu2 || r.lhs == .jaiTagTu2) || match r.rhs with
    | .t .JAI :: _ => true
    | _ => false) = true := by decide +kernel

theorem gloss_at {top : Node} (hp : Parse .chunks top) (anc : List Node) (x : Node) (ho : Occ top anc x) :
    ∃ es, glossAt anc x = .ok es ∧ ∀ e, e ∈ es ↔ FormTold (fun c _ => c.id) anc x e := by
  have word : Places x ∨ (∃ i, x = .zei i) → glossAt anc x = .ok (glossed (stateOf anc) x) →
      ∃ es, glossAt anc x = .ok es ∧ ∀ e, e ∈ es ↔ FormTold (fun c _ => c.id) anc x e := by
    intro hx h
    refine ⟨_, h, fun e => ?_⟩
    rw [glossed_form]
    constructor
    · rintro ⟨b, hb, rfl⟩; exact .word hx hb
    · intro h
      cases h with
      | word _ hb => exact ⟨_, hb, rfl⟩
      | jai ht _ _ =>
        rcases hx with (⟨_, e⟩ | ⟨_, _, e⟩) | ⟨_, e⟩ <;> cases e
  have none : (∀ e, ¬ FormTold (fun c _ => c.id) anc x e) → glossAt anc x = .ok [] →
      ∃ es, glossAt anc x = .ok es ∧ ∀ e, e ∈ es ↔ FormTold (fun c _ => c.id) anc x e :=
    fun h1 h2 => ⟨[], h2, fun e => ⟨nofun, fun h => absurd h (h1 e)⟩⟩
  cases x with
  | brivla i => exact word (.inl (.inl ⟨i, rfl⟩)) rfl
  | zei i => exact word (.inr ⟨i, rfl⟩) rfl
  | cmavo i s w =>
    by_cases hs : s = .NU
    · subst hs; exact word (.inl (.inr ⟨i, w, rfl⟩)) rfl
    · refine none ?_ (by simp [glossAt, glossNode, hs, pure, Except.pure])
      intro e h
      cases h with
      | word hx _ => rcases hx with (⟨_, e⟩ | ⟨_, _, e⟩) | ⟨_, e⟩ <;> cases e; exact hs rfl
  | leaf i => exact none (fun e h => by cases h with | word hx _ => rcases hx with (⟨_, e⟩ | ⟨_, _, e⟩) | ⟨_, e⟩ <;> cases e) rfl
  | nt i t cs =>
    by_cases ht : t = .jaiTu2 ∨ t = .jaiTagTu2
    · have pt := (occ_nt hp ho (by rcases ht with rfl | rfl <;> decide)).1
      obtain ⟨_, _, r, e, hr, rfl, hk⟩ := parse_inv pt
      cases e
      have hf := all_mem jai_first hr
      have : (r.lhs == .jaiTu2 || r.lhs == .jaiTagTu2) = true := by simpa using ht
      rw [this, Bool.not_true, Bool.false_or] at hf
      split at hf
      · rename_i its e
        rw [e] at hk
        obtain ⟨c, ds, rfl, hc, _⟩ := firstT hk
        obtain ⟨j, w, _, hw⟩ := word_word hc (by decide)
        refine ⟨glossed (stateOf anc) c, ?_, fun e => ?_⟩
        · rw [glossAt, glossNode, jaiGloss, if_pos ht.symm]; rfl
        · rw [glossed_form]
          constructor
          · rintro ⟨b, hb, rfl⟩; exact .jai (on := fun c _ => c.id) ht hw hb
          · intro h
            generalize e1 : Node.nt i r.lhs (c :: ds) = y at h
            cases h with
            | word hx _ => subst e1; rcases hx with (⟨_, e⟩ | ⟨_, _, e⟩) | ⟨_, e⟩ <;> cases e
            | jai _ _ hb => cases e1; exact ⟨_, hb, rfl⟩
      · cases hf
    · refine none ?_ ?_
      · intro e h
        cases h with
        | word hx _ => rcases hx with (⟨_, e⟩ | ⟨_, _, e⟩) | ⟨_, e⟩ <;> cases e
        | jai h _ _ => exact ht h
      · rw [glossAt, glossNode, jaiGloss, if_neg (fun h => ht h.symm)]; rfl

/-- What the pass does on every tree of the grammar. -/
theorem forms_any (top : Node) (hp : Parse .chunks top) :
    ∃ log, markGloss .none top = .ok log ∧ ∀ e, e ∈ log ↔ ∃ anc x, Occ top anc x ∧ FormTold (fun c _ => c.id) anc x e := by
  obtain ⟨log, h1, h2⟩ := pass_logs (f := glossAt) (Q := FormTold (fun c _ => c.id)) top fun anc x ho => ⟨occ_augOk hp ho, gloss_at hp anc x ho⟩
  exact ⟨log, by rw [← h1]; exact gloss_visit _ (Nat.le_refl _) hp [], h2⟩

/-- **Verb or noun.**  On every tree of the grammar in which no JAI has an indicator or `ba'e`, brivla, zei-lujvo, abstractors and JAI
are glossed as verbs if the nearest of main selbri, JAI, sumti, tag, free modifier, operand and operator around them is a main
selbri or JAI, as nouns if it is a sumti or a tag. -/
theorem forms_partial (top : Node) (hp : Parse .chunks top) (hn : NoMarkedJai top) :
    ∃ log, markGloss .none top = .ok log ∧ ∀ e, e ∈ log ↔ ∃ anc x, Occ top anc x ∧ FormTold (fun _ j => j) anc x e := by
  obtain ⟨log, h1, h2⟩ := forms_any top hp
  refine ⟨log, h1, fun e => ?_⟩
  rw [h2]
  constructor
  · rintro ⟨anc, x, ho, h⟩
    refine ⟨anc, x, ho, ?_⟩
    cases h with
    | word hx hb => exact .word hx hb
    | jai ht hw hb =>
      have := hn _ _ _ _ _ _ _ ho (List.mem_cons_self ..) hw
      subst this
      exact .jai (on := fun _ j => j) ht hw hb
  · rintro ⟨anc, x, ho, h⟩
    refine ⟨anc, x, ho, ?_⟩
    cases h with
    | word hx hb => exact .word hx hb
    | jai ht hw hb =>
      have := hn _ _ _ _ _ _ _ ho (List.mem_cons_self ..) hw
      subst this
      exact .jai (on := fun c _ => c.id) ht hw hb

/-! ## Examples -/

theorem noMarkedJai_of {top : Node} (h : bare top = true) : NoMarkedJai top := by
  intro anc i t cs b j w ho hb hw
  have := occ_bare h ho
  rw [bare, Bool.and_eq_true] at this
  have := bares_mem this.2 _ hb
  cases hw with
  | alone => rfl
  | marked _ _ => simp [bare] at this

/-- *le* and a selbri, as a term. -/
def leTerm (i : Nat) (u : List Node) : Node :=
  .nt i .term (up [.termPlainSumti, .sumti, .sumti1, .sumti2, .sumti3, .sumti4, .sumti5, .sumti5a, .sumti6]
    (.cmavo (i + 1) .LE "le" :: up [.sumtiTail, .sumtiTail1, .sumtiTail1a] (selbriOf u)))

/-- *le brode cu jai broda*, with what stands for `jai`. -/
def leJai (j : Node) : Node := textOf (up [.noCuSentence] (up [.terms, .terms1, .terms2] [leTerm 10 [.brivla 12]] ++
  tailOf' [.nt 20 .jaiTu2 (j :: up [.tanruUnit2] [.brivla 22])] []))

/-- *le brode cu jai broda*: a noun and two verbs. -/
example : Parse .chunks (leJai (.cmavo 21 .JAI "jai")) ∧ NoMarkedJai (leJai (.cmavo 21 .JAI "jai")) ∧
    markGloss .none (leJai (.cmavo 21 .JAI "jai")) = .ok [.inSelbri 12 false, .inSelbri 21 true, .inSelbri 22 true] :=
  ⟨parse_of (by decide +kernel), noMarkedJai_of (by decide), rfl⟩

/-- **A defect.**  In *le brode cu jai .ui broda* the form is hung on the node around `jai` and its attitudinal, where it is not
looked for. -/
theorem marked_jai_lost :
    let top := leJai (.nt 23 .augmented [.cmavo 21 .JAI "jai", .cmavo 24 .UI "ui"])
    Parse .chunks top ∧ markGloss .none top = .ok [.inSelbri 12 false, .inSelbri 23 true, .inSelbri 22 true] ∧
      ∃ anc x, Occ top anc x ∧ FormTold (fun _ j => j) anc x (.inSelbri 21 true) := by
  intro top
  refine ⟨parse_of (by decide +kernel), rfl, ?_⟩
  have hd : (down [] top [0, 0, 0, 0, 0, 0, 0, 0, 0, 0, 0, 1, 0, 0, 0, 0, 0, 0, 0, 0, 0, 0, 0, 0, 0, 0, 0]).map (fun p => (p.2, stateOf p.1)) =
      some (.nt 20 .jaiTu2 (.nt 23 .augmented [.cmavo 21 .JAI "jai", .cmavo 24 .UI "ui"] :: up [.tanruUnit2] [.brivla 22]), .mainSelbri) := rfl
  obtain ⟨⟨anc, x⟩, h1, h2⟩ := Option.map_eq_some_iff.1 hd
  simp only [Prod.mk.injEq] at h2
  obtain ⟨rfl, h2⟩ := h2
  refine ⟨anc, _, down_occ _ .top h1, .jai (on := fun _ j => j) (.inl rfl) (j := 21) (w := "jai") (.marked (bs := []) nofun (by decide)) ?_⟩
  exact (state_near anc).1.2 (by rw [h2]; rfl)

end Jbo.Convert
