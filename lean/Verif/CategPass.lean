import Verif.CategLemmas
import Verif.CategSpec

/-!
# The passes only insert markers, and where
-/

namespace Jbo.Categ
open Jbo Jbo.CategSpec

def AllSel (ss : List Sel) (p : List Tok) : Prop := ∀ t ∈ p, ∃ s ∈ ss, t.isSel s = true

theorem opts_allSel {ss : List Sel} {p : List Tok} (h : Opts ss p) : AllSel ss p := by
  induction h with
  | nil => simp [AllSel]
  | skip _ ih => intro t ht; obtain ⟨s, h1, h2⟩ := ih t ht; exact ⟨s, by simp [h1], h2⟩
  | take h _ ih =>
    intro t ht
    replace ht := List.mem_cons.1 ht
    rcases ht with rfl | ht
    · exact ⟨_, by simp, h⟩
    · obtain ⟨s, h1, h2⟩ := ih t ht; exact ⟨s, by simp [h1], h2⟩

theorem opts_nil : ∀ ss : List Sel, Opts ss []
  | [] => .nil
  | _ :: ss => .skip (opts_nil ss)

theorem opts_append {ss ss' : List Sel} {p p' : List Tok} (h : Opts ss p) (h' : Opts ss' p') :
    Opts (ss ++ ss') (p ++ p') := by
  induction h with
  | nil => exact h'
  | skip _ ih => exact .skip ih
  | take h _ ih => exact .take h ih

theorem opts_reverse {ss : List Sel} {p : List Tok} (h : Opts ss p) : Opts ss.reverse p.reverse := by
  induction h with
  | nil => exact .nil
  | @skip s _ _ _ ih =>
    rw [List.reverse_cons]
    have := opts_append ih (.skip .nil : Opts [s] [])
    simpa using this
  | take h _ ih =>
    rw [List.reverse_cons, List.reverse_cons]
    exact opts_append ih (.take h .nil)

/-- Where `insOpt` puts the marker. -/
theorem insOpt_opts (m : Sel) : ∀ (ss : List Sel) (l : List Tok), ss.Nodup → ∃ p q, l = p ++ q ∧
    insOpt m ss l = p ++ .marker m :: q ∧ Opts ss p ∧ ∀ t, q.head? = some t → ¬ Opts ss (p ++ [t])
  | [], l, _ => ⟨[], l, rfl, rfl, .nil, fun t _ h => by cases h⟩
  | s :: ss, [], hn => by
    obtain ⟨p, q, h1, h2, h3, _⟩ := insOpt_opts m ss [] (List.nodup_cons.1 hn).2
    have := List.append_eq_nil_iff.1 h1.symm
    obtain ⟨rfl, rfl⟩ := this
    exact ⟨[], [], rfl, h2, opts_nil _, fun t h => by simp at h⟩
  | s :: ss, t :: l, hn => by
    obtain ⟨hn1, hn2⟩ := List.nodup_cons.1 hn
    unfold insOpt
    split
    · rename_i hs
      obtain ⟨p, q, h1, h2, h3, h4⟩ := insOpt_opts m ss l hn2
      refine ⟨t :: p, q, by simp [h1], by simp [h2], .take hs h3, ?_⟩
      intro u hu h
      cases h with
      | skip h =>
        obtain ⟨s', h5, h6⟩ := opts_allSel h t (by simp)
        exact hn1 (isSel_unique h6 hs ▸ h5)
      | take _ h => exact h4 u hu h
    · rename_i hs
      obtain ⟨p, q, h1, h2, h3, h4⟩ := insOpt_opts m ss (t :: l) hn2
      refine ⟨p, q, h1, h2, .skip h3, ?_⟩
      intro u hu h
      generalize hz : p ++ [u] = z at h
      cases h with
      | skip h => exact h4 u hu (hz ▸ h)
      | take h' _ =>
        cases p with
        | nil =>
          simp only [List.nil_append, List.cons.injEq] at hz h1
          rw [← h1] at hu
          simp at hu
          rw [hz.1.symm, ← hu] at h'
          exact hs h'
        | cons v p =>
          simp only [List.cons_append, List.cons.injEq] at hz h1
          rw [← hz.1, ← h1.1] at h'
          exact hs h'

theorem ins_left {P : Sel → List Tok → List Tok → Prop} {m : Sel} {ss : List Sel} {l w : List Tok} (hn : ss.Nodup)
    (h : ∀ p q, l = p ++ q → Opts ss.reverse p.reverse →
      (∀ t, q.reverse.getLast? = some t → ¬ Opts ss.reverse (t :: p.reverse)) → P m q.reverse (p.reverse ++ w)) :
    Ins P (l.reverse ++ w) ((insOpt m ss l).reverse ++ w) := by
  obtain ⟨p, q, h1, h2, h3, h4⟩ := insOpt_opts m ss l hn
  have := Ins.one (h p q h1 (opts_reverse h3) (fun t ht ho => h4 t (by simpa using ht) (by
    have := opts_reverse ho
    simpa using this)))
  rw [h2, h1]
  simpa using this

theorem ins_right {P : Sel → List Tok → List Tok → Prop} {m : Sel} {ss : List Sel} {l r : List Tok} (hn : ss.Nodup)
    (h : ∀ p q, r = p ++ q → Opts ss p → (∀ t, q.head? = some t → ¬ Opts ss (p ++ [t])) → P m (l ++ p) q) :
    Ins P (l ++ r) (l ++ insOpt m ss r) := by
  obtain ⟨p, q, h1, h2, h3, h4⟩ := insOpt_opts m ss r hn
  have := Ins.one (h p q h1 h3 h4)
  rw [h2, h1]
  simpa using this

/-! ## The simple connectives -/

/-- Where a rule puts its markers. -/
def WalkP (rule : Tok → Option Rule) (m : Sel) (a b : List Tok) : Prop :=
  (∃ x c p w, rule x = some c ∧ m = c.start ∧ Opts c.before.reverse p ∧ b = p ++ x :: w ∧
    ∀ t, a.getLast? = some t → ¬ Opts c.before.reverse (t :: p)) ∨
  (∃ x c ss q p, rule x = some c ∧ c.after = some (ss, m) ∧ Opts ss p ∧ a = q ++ x :: p ∧
    ∀ t, b.head? = some t → ¬ Opts ss (p ++ [t]))

/-- A rule is sensible: markers are left alone, and no word is looked for twice. -/
structure RuleOk (rule : Tok → Option Rule) : Prop where
  mks : ∀ m, rule (.marker m) = none
  before : ∀ x c, rule x = some c → c.before.Nodup
  after : ∀ x c ss e, rule x = some c → c.after = some (ss, e) → ss.Nodup

theorem insOpt_length (m : Sel) (ss : List Sel) (r : List Tok) : (insOpt m ss r).length = r.length + 1 := by
  obtain ⟨p, q, h1, h2, _, _⟩ := insOpt_spec m ss r
  rw [h2, h1]; simp; omega

theorem insOpt_countP {rule : Tok → Option Rule} (h : RuleOk rule) (m : Sel) (ss : List Sel) (r : List Tok) :
    (insOpt m ss r).countP (fun x => (rule x).isSome) = r.countP (fun x => (rule x).isSome) := by
  obtain ⟨p, q, h1, h2, _, _⟩ := insOpt_spec m ss r
  rw [h2, h1]
  simp [List.countP_append, List.countP_cons, h.mks m]

theorem walk_ok {rule : Tok → Option Rule} (hr : RuleOk rule) : ∀ (n : Nat) (l r : List Tok),
    r.length + r.countP (fun x => (rule x).isSome) < n →
    ∃ out, walk rule n l r = .ok out ∧ Ins (WalkP rule) (l.reverse ++ r) out
  | 0, _, _, h => by omega
  | n + 1, l, [], h => ⟨_, rfl, by simpa using Ins.refl _⟩
  | n + 1, l, x :: r, h => by
    simp only [List.length_cons, List.countP_cons] at h
    cases hx : rule x with
    | none =>
      simp only [hx, Option.isSome_none] at h
      obtain ⟨out, h1, h2⟩ := walk_ok hr n (x :: l) r (by simp at h; omega)
      refine ⟨out, by simp only [walk, hx, h1], by simpa using h2⟩
    | some c =>
      simp only [hx, Option.isSome_some, if_true] at h
      obtain ⟨b, s, af⟩ := c
      have hl : Ins (WalkP rule) (l.reverse ++ x :: r) ((insOpt s b l).reverse ++ x :: r) :=
        ins_left (hr.before x _ hx) (fun p q _ hp hp' => Or.inl ⟨x, ⟨b, s, af⟩, p.reverse, r, hx, rfl, hp, rfl, hp'⟩)
      cases af with
      | none =>
        obtain ⟨out, h1, h2⟩ := walk_ok hr n (x :: insOpt s b l) r (by omega)
        exact ⟨out, by simp only [walk, hx, h1], hl.trans (by simpa using h2)⟩
      | some ae =>
        obtain ⟨a, e⟩ := ae
        obtain ⟨out, h1, h2⟩ := walk_ok hr n (x :: insOpt s b l) (insOpt e a r)
          (by rw [insOpt_length, insOpt_countP hr]; omega)
        have h3 : Ins (WalkP rule) ((x :: insOpt s b l).reverse ++ r) ((x :: insOpt s b l).reverse ++ insOpt e a r) :=
          ins_right (hr.after x _ a e hx rfl) (fun p q _ hp hp' => Or.inr ⟨x, ⟨b, s, some (a, e)⟩, a,
            (insOpt s b l).reverse, p, hx, rfl, hp, by simp, hp'⟩)
        refine ⟨out, by simp only [walk, hx, h1], hl.trans ?_⟩
        have h4 := h3.trans h2
        simpa using h4

theorem pass_ok {rule : Tok → Option Rule} (hr : RuleOk rule) (ts : List Tok) :
    ∃ out, pass rule ts = .ok out ∧ Ins (WalkP rule) ts out := by
  have : ts.countP (fun x => (rule x).isSome) ≤ ts.length := List.countP_le_length
  obtain ⟨out, h1, h2⟩ := walk_ok hr (2 * ts.length + 1) [] ts (by omega)
  exact ⟨out, h1, by simpa using h2⟩

theorem jekRule_ok : RuleOk jekRule := by
  refine ⟨fun _ => rfl, ?_, ?_⟩
  · intro x c h
    unfold jekRule at h
    split at h
    · injection h with h; subst h; decide
    · cases h
  · intro x c ss e h
    unfold jekRule at h
    split at h
    · injection h with h; subst h
      intro h; cases h <;> decide
    · cases h
theorem gihekRule_ok : RuleOk gihekRule := by
  refine ⟨fun _ => rfl, ?_, ?_⟩
  · intro x c h
    unfold gihekRule at h
    split at h
    · injection h with h; subst h; decide
    · cases h
  · intro x c ss e h
    unfold gihekRule at h
    split at h
    · injection h with h; subst h
      intro h; cases h <;> decide
    · cases h
theorem ekRule_ok : RuleOk ekRule := by
  refine ⟨fun _ => rfl, ?_, ?_⟩
  · intro x c h
    unfold ekRule at h
    split at h
    · injection h with h; subst h; decide
    · cases h
  · intro x c ss e h
    unfold ekRule at h
    split at h
    · injection h with h; subst h
      intro h; cases h <;> decide
    · cases h
theorem guhekRule_ok : RuleOk guhekRule := by
  refine ⟨fun _ => rfl, ?_, ?_⟩
  · intro x c h
    unfold guhekRule at h
    split at h
    · injection h with h; subst h; decide
    · cases h
  · intro x c ss e h
    unfold guhekRule at h
    split at h
    · injection h with h; subst h
      intro h; cases h <;> decide
    · cases h
theorem joikRule_ok : RuleOk joikRule := by
  refine ⟨fun _ => rfl, ?_, ?_⟩
  · intro x c h
    unfold joikRule at h
    split at h
    · injection h with h; subst h; decide
    · split at h
      · injection h with h; subst h; decide
      · cases h
  · intro x c ss e h
    unfold joikRule at h
    split at h
    · injection h with h; subst h
      intro h; cases h <;> decide
    · split at h
      · injection h with h; subst h
        intro h; cases h <;> decide
      · cases h

/-- The marker pair of a rule. -/
def PairRule (rule : Tok → Option Rule) (s e : Sel) : Prop :=
  ∀ x c, rule x = some c → c.start = s ∧ ∃ ss, c.after = some (ss, e) ∧
    (∀ t, (∃ y ∈ ss, t.isSel y = true) → rule t = none) ∧ ∃ y, x.isSel y = true

theorem walk_bal {rule : Tok → Option Rule} (hr : RuleOk rule) {s e : Sel} (hne : s ≠ e) (hp : PairRule rule s e) :
    ∀ (n : Nat) (l r out : List Tok) (o : Bool), run s e false l.reverse = some o →
    (o = false ∧ NoMk s e r ∨ o = true ∧ ∃ p q, r = p ++ .marker e :: q ∧ NoMk s e p ∧
      (∀ t ∈ p, rule t = none) ∧ NoMk s e q) →
    walk rule n l r = .ok out → Bal s e out
  | 0, _, _, _, _, _, _, h => by simp [walk] at h
  | n + 1, l, [], out, o, hl, ho, h => by
    simp only [walk, Except.ok.injEq] at h
    subst h
    rcases ho with ⟨rfl, _⟩ | ⟨_, p, q, hpq, _⟩
    · exact hl
    · simp at hpq
  | n + 1, l, x :: r, out, o, hl, ho, h => by
    have hes : ¬ e = s := fun h => hne h.symm
    simp only [walk] at h
    rcases ho with ⟨rfl, hno⟩ | ⟨rfl, p, q, hpq, hp1, hp2, hq⟩
    · have hx0 := hno x (by simp)
      have hrest : NoMk s e r := fun t ht => hno t (by simp [ht])
      cases hx : rule x with
      | none =>
        simp only [hx] at h
        refine walk_bal hr hne hp n (x :: l) r out false ?_ (Or.inl ⟨rfl, hrest⟩) h
        rw [List.reverse_cons, run_append, hl]
        simp [run, hx0.1, hx0.2]
      | some c =>
        obtain ⟨h1, ss, h2, h3, y, hy⟩ := hp x c hx
        obtain ⟨b, s', af⟩ := c
        dsimp only at h1 h2
        subst h1; subst h2
        simp only [hx] at h
        obtain ⟨p, q, e1, e2, e3, _⟩ := insOpt_spec s' b l
        obtain ⟨p', q', f1, f2, f3, _⟩ := insOpt_spec e ss r
        have hlq : run s' e false q.reverse = some false := by
          rw [e1, List.reverse_append, run_append] at hl
          cases hq : run s' e false q.reverse with
          | none => simp [hq] at hl
          | some o =>
            rw [hq] at hl
            simp only [Option.bind_some] at hl
            rw [run_noMk (fun t ht => noMk_of_sel e3 t (by simpa using ht))] at hl
            exact hl
        refine walk_bal hr hne hp n _ _ out true ?_ (Or.inr ⟨rfl, p', q', f2, noMk_of_sel f3, ?_, ?_⟩) h
        · rw [e2]
          simp only [List.reverse_cons, List.reverse_append, List.append_assoc]
          rw [run_append, hlq]
          simp only [Option.bind_some, List.cons_append, List.nil_append, run, mkr_marker, decide_true, if_true]
          simp only [Bool.false_eq_true, if_false]
          rw [run_append, run_noMk (fun t ht => noMk_of_sel e3 t (by simpa using ht))]
          simp [run, mkr_of_isSel hy]
        · intro t ht; exact h3 t (f3 t ht)
        · intro t ht; exact hrest t (by rw [f1]; simp [ht])
    · have hxn : rule x = none := by
        cases p with
        | nil => simp at hpq; rw [hpq.1]; exact hr.mks e
        | cons t p => simp at hpq; rw [hpq.1]; exact hp2 t (by simp)
      simp only [hxn] at h
      cases p with
      | nil =>
        simp only [List.nil_append, List.cons.injEq] at hpq
        obtain ⟨rfl, rfl⟩ := hpq
        refine walk_bal hr hne hp n _ _ out false ?_ (Or.inl ⟨rfl, hq⟩) h
        rw [List.reverse_cons, run_append, hl]
        simp [run, mkr_marker, hes]
      | cons t p =>
        simp only [List.cons_append, List.cons.injEq] at hpq
        obtain ⟨rfl, rfl⟩ := hpq
        have hx0 := hp1 x (by simp)
        refine walk_bal hr hne hp n _ _ out true ?_ (Or.inr ⟨rfl, p, q, rfl, fun u hu => hp1 u (by simp [hu]),
          fun u hu => hp2 u (by simp [hu]), hq⟩) h
        rw [List.reverse_cons, run_append, hl]
        simp [run, hx0.1, hx0.2]

theorem pass_bal {rule : Tok → Option Rule} (hr : RuleOk rule) {s e : Sel} (hne : s ≠ e) (hp : PairRule rule s e)
    {ts out : List Tok} (hno : NoMk s e ts) (h : pass rule ts = .ok out) : Bal s e out :=
  walk_bal hr hne hp _ [] ts out false rfl (Or.inl ⟨rfl, hno⟩) h

theorem jek_pair : PairRule jekRule .PRIVATE_START_JEK .PRIVATE_END_JEK := by
  intro x c h
  unfold jekRule at h
  split at h
  · rename_i hx
    injection h with h
    subst h
    refine ⟨rfl, _, rfl, ?_, .JA, hx⟩
    rintro t ⟨y, hy, ht⟩
    simp at hy; subst hy
    unfold jekRule
    rw [if_neg]
    intro hc
    cases isSel_unique ht hc
  · cases h

theorem joik_pair : PairRule joikRule .PRIVATE_START_JOIK .PRIVATE_END_JOIK := by
  have key : ∀ t : Tok, t.isSel .NAI = true ∨ t.isSel .GAhO = true → joikRule t = none := by
    intro t ht
    unfold joikRule
    rw [if_neg, if_neg]
    · intro hc
      rcases ht with ht | ht <;> cases isSel_unique ht hc
    · intro hc
      rcases ht with ht | ht <;> cases isSel_unique ht hc
  intro x c h
  unfold joikRule at h
  split at h
  · rename_i hx
    injection h with h
    subst h
    refine ⟨rfl, _, rfl, ?_, .JOI, hx⟩
    rintro t ⟨y, hy, ht⟩
    simp at hy; subst hy
    exact key t (Or.inl ht)
  · split at h
    · rename_i hx
      injection h with h
      subst h
      refine ⟨rfl, _, rfl, ?_, .BIhI, hx⟩
      rintro t ⟨y, hy, ht⟩
      simp at hy
      rcases hy with rfl | rfl
      · exact key t (Or.inl ht)
      · exact key t (Or.inr ht)
    · cases h

/-! ## Passes that look at the neighbours -/

theorem markBefore_ins {P : Sel → List Tok → List Tok → Prop} (m : Sel) (p : List Tok → Tok → List Tok → Bool)
    (hP : ∀ l x r, p l x r = true → P m l.reverse (x :: r)) : ∀ (r l : List Tok),
    Ins P (l.reverse ++ r) (markBefore m p l r)
  | [], l => by simpa [markBefore] using Ins.refl _
  | x :: r, l => by
    unfold markBefore
    split
    · rename_i h
      have h1 := Ins.one (hP l x r h)
      have h2 := markBefore_ins m p hP r (x :: .marker m :: l)
      exact h1.trans (by simpa using h2)
    · have h2 := markBefore_ins m p hP r (x :: l)
      simpa using h2

theorem number_ins {P : Sel → List Tok → List Tok → Prop} (s m : Sel)
    (hP : ∀ p q x r, (∀ t ∈ p, isNum t = true) → p ≠ [] → x.isSel s = true → P m q (p ++ x :: r)) :
    ∀ (r l : List Tok), Ins P (l.reverse ++ r) (number s m l r)
  | [], l => by simpa [number] using Ins.refl _
  | x :: r, l => by
    unfold number
    split
    · rename_i hx
      dsimp only
      split
      · rename_i hc
        have hn : ∀ l : List Tok, ∀ t ∈ l.take (numRun l), isNum t = true := by
          intro l
          induction l with
          | nil => simp
          | cons u l ih =>
            unfold numRun
            split
            · rename_i hu
              intro t ht
              rw [List.take_succ_cons] at ht
              replace ht := List.mem_cons.1 ht
              rcases ht with rfl | ht
              · exact hu
              · exact ih t ht
            · simp
        have hne : l.take (numRun l) ≠ [] := by
          cases l with
          | nil => simp [numRun] at hc
          | cons t l => rw [Ne, List.take_eq_nil_iff]; simp; omega
        have h1 := Ins.one (hP (l.take (numRun l)).reverse (l.drop (numRun l)).reverse x r
          (fun t ht => hn l t (by simpa using ht)) (by simpa using hne) hx)
        have h2 := number_ins s m hP r (x :: (l.take (numRun l) ++ .marker m :: l.drop (numRun l)))
        have h3 : l.reverse = (l.drop (numRun l)).reverse ++ (l.take (numRun l)).reverse := by
          rw [← List.reverse_append, List.take_append_drop]
        rw [h3]
        rw [← List.append_assoc] at h1
        exact h1.trans (by simpa using h2)
      · have h2 := number_ins s m hP r (x :: l)
        simpa using h2
    · have h2 := number_ins s m hP r (x :: l)
      simpa using h2

end Jbo.Categ
