import Verif.CategPass

/-!
# The words between the markers
-/

namespace Jbo.Categ
open Jbo Jbo.CategSpec

/-- Reading the markers `s` and `e`: `none` outside, `some w` inside after the words `w`.  What is closed satisfies
`K`. -/
def GrpTo (s e : Sel) (K : List Tok → Prop) : Option (List Tok) → List Tok → Option (List Tok) → Prop
  | o, [], o' => o = o'
  | o, t :: r, o' =>
    if mkr s t then o = none ∧ GrpTo s e K (some []) r o'
    else if mkr e t then (∃ w, o = some w ∧ K w) ∧ GrpTo s e K none r o'
    else GrpTo s e K (o.map (· ++ words [t])) r o'

/-- All groups between `s` and `e` are closed and satisfy `K`. -/
def Grp (s e : Sel) (K : List Tok → Prop) (L : List Tok) : Prop := GrpTo s e K none L none

theorem grpTo_append {s e : Sel} {K : List Tok → Prop} : ∀ (a b : List Tok) (o o'' : Option (List Tok)),
    GrpTo s e K o (a ++ b) o'' ↔ ∃ o', GrpTo s e K o a o' ∧ GrpTo s e K o' b o''
  | [], b, o, o'' => by simp [GrpTo]
  | t :: a, b, o, o'' => by
    simp only [List.cons_append, GrpTo]
    split
    · rw [grpTo_append a b]
      constructor
      · rintro ⟨h1, o', h2, h3⟩; exact ⟨o', ⟨h1, h2⟩, h3⟩
      · rintro ⟨o', ⟨h1, h2⟩, h3⟩; exact ⟨h1, o', h2, h3⟩
    · split
      · rw [grpTo_append a b]
        constructor
        · rintro ⟨h1, o', h2, h3⟩; exact ⟨o', ⟨h1, h2⟩, h3⟩
        · rintro ⟨o', ⟨h1, h2⟩, h3⟩; exact ⟨h1, o', h2, h3⟩
      · exact grpTo_append a b _ _

theorem words_append (a b : List Tok) : words (a ++ b) = words a ++ words b := List.filter_append ..

theorem words_cons (t : Tok) (b : List Tok) : words (t :: b) = words [t] ++ words b := words_append [t] b

theorem words_marker (m : Sel) (b : List Tok) : words (.marker m :: b) = words b := rfl

theorem words_word {t : Tok} {s : Sel} (h : t.isSel s = true) (b : List Tok) : words (t :: b) = t :: words b := by
  cases t <;> simp_all [Tok.isSel, words, Tok.kind]

theorem words_allSel {ss : List Sel} : ∀ {p : List Tok}, AllSel ss p → words p = p
  | [], _ => rfl
  | t :: p, h => by
    obtain ⟨s, _, hs⟩ := h t (by simp)
    rw [words_word hs, words_allSel (fun u hu => h u (by simp [hu]))]

theorem grpTo_noMk {s e : Sel} {K : List Tok → Prop} : ∀ {l : List Tok} {o o' : Option (List Tok)}, NoMk s e l →
    (GrpTo s e K o l o' ↔ o' = o.map (· ++ words l))
  | [], o, o', _ => by cases o <;> simp [GrpTo, words, eq_comm]
  | t :: l, o, o', h => by
    have h1 := h t (by simp)
    simp only [GrpTo, h1.1, h1.2, Bool.false_eq_true, if_false]
    rw [grpTo_noMk (fun u hu => h u (by simp [hu])), words_cons t l]
    cases o <;> simp

theorem grpTo_insert {s e m : Sel} {K : List Tok → Prop} (h1 : m ≠ s) (h2 : m ≠ e) (o o' : Option (List Tok))
    (a b : List Tok) : GrpTo s e K o (a ++ .marker m :: b) o' ↔ GrpTo s e K o (a ++ b) o' := by
  rw [grpTo_append, grpTo_append]
  have : ∀ o1, GrpTo s e K o1 (.marker m :: b) o' ↔ GrpTo s e K o1 b o' := by
    intro o1
    simp only [GrpTo, mkr_marker, h1, h2, decide_false, Bool.false_eq_true, if_false]
    cases o1 <;> simp [words, Tok.kind]
  simp only [this]

theorem Ins.grp {P : Sel → List Tok → List Tok → Prop} {l l' : List Tok} (h : Ins P l l') {s e : Sel}
    {K : List Tok → Prop} (hk : ∀ m a b, P m a b → m ≠ s ∧ m ≠ e) : Grp s e K l' ↔ Grp s e K l := by
  unfold Grp
  induction h with
  | refl => rfl
  | step _ hp ih => rw [← ih, grpTo_insert (hk _ _ _ hp).1 (hk _ _ _ hp).2]

theorem grpTo_run {s e : Sel} {K : List Tok → Prop} : ∀ {l : List Tok} {o o' : Option (List Tok)}, GrpTo s e K o l o' →
    run s e o.isSome l = some o'.isSome
  | [], o, o', h => by cases h; rfl
  | t :: l, o, o', h => by
    unfold GrpTo at h
    unfold run
    split
    · rename_i hs
      rw [if_pos hs] at h
      obtain ⟨rfl, h⟩ := h
      simpa using grpTo_run h
    · rename_i hs
      rw [if_neg hs] at h
      split
      · rename_i he
        rw [if_pos he] at h
        obtain ⟨⟨w, rfl, _⟩, h⟩ := h
        simpa using grpTo_run h
      · rename_i he
        rw [if_neg he] at h
        have := grpTo_run h
        simpa using this

theorem Grp.bal {s e : Sel} {K : List Tok → Prop} {l : List Tok} (h : Grp s e K l) : Bal s e l := grpTo_run h

/-- The group that an opening marker begins. -/
theorem grp_after {s e : Sel} (hne : s ≠ e) {K : List Tok → Prop} {a b : List Tok}
    (h : Grp s e K (a ++ .marker s :: b)) :
    ∃ mid rest, b = mid ++ .marker e :: rest ∧ NoMk s e mid ∧ K (words mid) := by
  obtain ⟨mid, rest, rfl, hm⟩ := bal_after hne h.bal
  refine ⟨mid, rest, rfl, hm, ?_⟩
  unfold Grp at h
  rw [grpTo_append] at h
  obtain ⟨o, _, h⟩ := h
  unfold GrpTo at h
  rw [mkr_marker, decide_eq_true rfl, if_pos rfl, grpTo_append] at h
  obtain ⟨_, o', h1, h2⟩ := h
  rw [grpTo_noMk hm] at h1
  subst h1
  unfold GrpTo at h2
  rw [mkr_marker, mkr_marker, decide_eq_false (Ne.symm hne), decide_eq_true rfl, if_neg (by simp), if_pos rfl] at h2
  obtain ⟨⟨w, hw, hK⟩, _⟩ := h2
  simp at hw
  exact hw ▸ hK

/-- The group that a closing marker ends. -/
theorem grp_before {s e : Sel} (hne : s ≠ e) {K : List Tok → Prop} {a b : List Tok}
    (h : Grp s e K (a ++ .marker e :: b)) :
    ∃ p mid, a = p ++ .marker s :: mid ∧ NoMk s e mid ∧ K (words mid) := by
  obtain ⟨p, mid, rfl, hm⟩ := bal_before hne h.bal
  refine ⟨p, mid, rfl, hm, ?_⟩
  have h' : Grp s e K (p ++ .marker s :: (mid ++ .marker e :: b)) := by simpa using h
  obtain ⟨mid', rest, h1, h2, h3⟩ := grp_after hne h'
  have : mid = mid' := by
    rcases List.append_eq_append_iff.1 h1 with ⟨x, h4, h5⟩ | ⟨x, h4, h5⟩
    · cases x with
      | nil => simpa using h4.symm
      | cons t x =>
        simp only [List.cons_append, List.cons.injEq] at h5
        have := (h2 t (by rw [h4]; simp)).2
        rw [← h5.1] at this
        simp [mkr] at this
    · cases x with
      | nil => simpa using h4
      | cons t x =>
        simp only [List.cons_append, List.cons.injEq] at h5
        have := (hm t (by rw [h4]; simp)).2
        rw [← h5.1] at this
        simp [mkr] at this
  exact this ▸ h3

/-- The groups a rule makes. -/
theorem walk_grp {rule : Tok → Option Rule} (hr : RuleOk rule) {s e : Sel} (hne : s ≠ e) (hp : PairRule rule s e)
    {K : List Tok → Prop} (hK : ∀ x c ss p q, rule x = some c → c.after = some (ss, e) → Opts c.before.reverse p →
      Opts ss q → K (p ++ x :: q)) :
    ∀ (n : Nat) (l r out : List Tok) (o : Option (List Tok)), GrpTo s e K none l.reverse o →
    (o = none ∧ NoMk s e r ∨ ∃ w, o = some w ∧ ∃ p q, r = p ++ .marker e :: q ∧ NoMk s e p ∧
      (∀ t ∈ p, rule t = none) ∧ NoMk s e q ∧ K (w ++ words p)) →
    walk rule n l r = .ok out → Grp s e K out
  | 0, _, _, _, _, _, _, h => by simp [walk] at h
  | n + 1, l, [], out, o, hl, ho, h => by
    simp only [walk, Except.ok.injEq] at h
    subst h
    rcases ho with ⟨rfl, _⟩ | ⟨_, _, p, q, hpq, _⟩
    · exact hl
    · simp at hpq
  | n + 1, l, x :: r, out, o, hl, ho, h => by
    have hes : ¬ e = s := fun h => hne h.symm
    simp only [walk] at h
    rcases ho with ⟨rfl, hno⟩ | ⟨w, rfl, p, q, hpq, hp1, hp2, hq, hw⟩
    · have hx0 := hno x (by simp)
      have hrest : NoMk s e r := fun t ht => hno t (by simp [ht])
      cases hx : rule x with
      | none =>
        simp only [hx] at h
        refine walk_grp hr hne hp hK n (x :: l) r out none ?_ (Or.inl ⟨rfl, hrest⟩) h
        rw [List.reverse_cons, grpTo_append]
        exact ⟨none, hl, by simp [GrpTo, hx0.1, hx0.2]⟩
      | some c =>
        obtain ⟨h1, ss, h2, h3, y, hy⟩ := hp x c hx
        obtain ⟨b, s', af⟩ := c
        dsimp only at h1 h2
        subst h1; subst h2
        simp only [hx] at h
        obtain ⟨p, q, e1, e2, e3, _⟩ := insOpt_opts s' b l (hr.before _ _ hx)
        obtain ⟨p', q', f1, f2, f3, _⟩ := insOpt_opts e ss r (hr.after _ _ _ _ hx rfl)
        have e4 := opts_allSel e3
        have f4 := opts_allSel f3
        have e5 : AllSel b p.reverse := fun t ht => e4 t (by simpa using ht)
        have hlq : GrpTo s' e K none q.reverse none := by
          rw [e1, List.reverse_append, grpTo_append] at hl
          obtain ⟨o', h4, h5⟩ := hl
          rw [grpTo_noMk (noMk_of_sel e5)] at h5
          cases o' with
          | none => exact h4
          | some w => simp at h5
        refine walk_grp hr hne hp hK n _ _ out (some (p.reverse ++ [x])) ?_ (Or.inr ⟨_, rfl, p', q', f2,
          noMk_of_sel f4, ?_, ?_, ?_⟩) h
        · rw [e2]
          simp only [List.reverse_cons, List.reverse_append, List.append_assoc]
          rw [grpTo_append]
          refine ⟨none, hlq, ?_⟩
          rw [List.cons_append, List.nil_append]
          unfold GrpTo
          rw [mkr_marker, decide_eq_true rfl, if_pos rfl]
          refine ⟨rfl, ?_⟩
          rw [grpTo_append]
          refine ⟨some p.reverse, ?_, ?_⟩
          · rw [grpTo_noMk (noMk_of_sel e5), words_allSel e5]; rfl
          · have hw1 : words [x] = [x] := words_word hy []
            simp [GrpTo, mkr_of_isSel hy, hw1]
        · intro t ht; exact h3 t (f4 t ht)
        · intro t ht; exact hrest t (by rw [f1]; simp [ht])
        · rw [words_allSel f4]
          have := hK x _ ss p.reverse p' hx rfl (opts_reverse e3) f3
          simpa using this
    · have hxn : rule x = none := by
        cases p with
        | nil => simp at hpq; rw [hpq.1]; exact hr.mks e
        | cons t p => simp at hpq; rw [hpq.1]; exact hp2 t (by simp)
      simp only [hxn] at h
      cases p with
      | nil =>
        simp only [List.nil_append, List.cons.injEq] at hpq
        obtain ⟨rfl, rfl⟩ := hpq
        refine walk_grp hr hne hp hK n _ _ out none ?_ (Or.inl ⟨rfl, hq⟩) h
        rw [List.reverse_cons, grpTo_append]
        refine ⟨some w, hl, ?_⟩
        simp only [GrpTo, mkr_marker, hes, decide_false, decide_true, Bool.false_eq_true, if_false, if_true, and_true]
        exact ⟨w, rfl, by simpa [words] using hw⟩
      | cons t p =>
        simp only [List.cons_append, List.cons.injEq] at hpq
        obtain ⟨rfl, rfl⟩ := hpq
        have hx0 := hp1 x (by simp)
        refine walk_grp hr hne hp hK n _ _ out (some (w ++ words [x])) ?_ (Or.inr ⟨_, rfl, p, q, rfl,
          fun u hu => hp1 u (by simp [hu]), fun u hu => hp2 u (by simp [hu]), hq, ?_⟩) h
        · rw [List.reverse_cons, grpTo_append]
          refine ⟨some w, hl, ?_⟩
          simp [GrpTo, hx0.1, hx0.2]
        · rw [words_cons] at hw; simpa using hw

theorem pass_grp {rule : Tok → Option Rule} (hr : RuleOk rule) {s e : Sel} (hne : s ≠ e) (hp : PairRule rule s e)
    {K : List Tok → Prop} (hK : ∀ x c ss p q, rule x = some c → c.after = some (ss, e) → Opts c.before.reverse p →
      Opts ss q → K (p ++ x :: q)) {ts out : List Tok} (hno : NoMk s e ts) (h : pass rule ts = .ok out) :
    Grp s e K out :=
  walk_grp hr hne hp hK _ [] ts out none rfl (Or.inl ⟨rfl, hno⟩) h

theorem jek_grp {ts out : List Tok} (hno : NoMk .PRIVATE_START_JEK .PRIVATE_END_JEK ts) (h : pass jekRule ts = .ok out) :
    Grp .PRIVATE_START_JEK .PRIVATE_END_JEK (EkWords .JA) out := by
  refine pass_grp jekRule_ok (by decide) jek_pair ?_ hno h
  intro x c ss p q hx ha hp hq
  unfold jekRule at hx
  split at hx
  · rename_i hj
    injection hx with hx; subst hx
    cases ha
    exact ⟨p, x, q, rfl, hp, hj, hq⟩
  · cases hx

theorem joik_grp {ts out : List Tok} (hno : NoMk .PRIVATE_START_JOIK .PRIVATE_END_JOIK ts)
    (h : pass joikRule ts = .ok out) : Grp .PRIVATE_START_JOIK .PRIVATE_END_JOIK JoikWords out := by
  refine pass_grp joikRule_ok (by decide) joik_pair ?_ hno h
  intro x c ss p q hx ha hp hq
  unfold joikRule at hx
  split at hx
  · rename_i hj
    injection hx with hx; subst hx
    cases ha
    exact ⟨p, x, q, rfl, Or.inl ⟨hp, hj, hq⟩⟩
  · split at hx
    · rename_i hj
      injection hx with hx; subst hx
      cases ha
      exact ⟨p, x, q, rfl, Or.inr ⟨hp, hj, hq⟩⟩
    · cases hx

/-- All tenses, jeks and joiks are closed, and they are what they should be. -/
structure Known (T : List Stag → Prop) (L : List Tok) : Prop where
  tense : Grp .PRIVATE_START_TENSE .PRIVATE_END_TENSE (In T) L
  jek : Grp .PRIVATE_START_JEK .PRIVATE_END_JEK (EkWords .JA) L
  joik : Grp .PRIVATE_START_JOIK .PRIVATE_END_JOIK JoikWords L

theorem Ins.known {P : Sel → List Tok → List Tok → Prop} {l l'} {T : List Stag → Prop} (h : Ins P l l')
    (hk : ∀ m a b, P m a b → m ∉ ([.PRIVATE_START_TENSE, .PRIVATE_END_TENSE, .PRIVATE_START_JEK, .PRIVATE_END_JEK,
      .PRIVATE_START_JOIK, .PRIVATE_END_JOIK] : List Sel)) (hC : Known T l) : Known T l' := by
  refine ⟨(h.grp ?_).2 hC.tense, (h.grp ?_).2 hC.jek, (h.grp ?_).2 hC.joik⟩ <;>
  · intro m a b hp
    have := hk m a b hp
    simp at this
    simp [this]

end Jbo.Categ
