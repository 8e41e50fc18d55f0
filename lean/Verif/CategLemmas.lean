import Verif.Categ

/-!
# Insertion of markers and matching pairs of markers
-/

namespace Jbo.Categ
open Jbo

theorem isSel_unique {t : Tok} {s s' : Sel} (h : t.isSel s = true) (h' : t.isSel s' = true) : s = s' := by
  cases t <;> simp_all [Tok.isSel]

theorem isSel_marker (m s : Sel) : (Tok.marker m).isSel s = false := rfl

theorem mkr_marker (m m' : Sel) : mkr m (.marker m') = decide (m' = m) := by
  simp only [mkr]
  by_cases h : m' = m
  · subst h; simp
  · simp [h]

theorem mkr_true {m : Sel} {t : Tok} : mkr m t = true ↔ t = .marker m := by simp [mkr]

theorem mkr_of_isSel {t : Tok} {s : Sel} (h : t.isSel s = true) (m : Sel) : mkr m t = false := by
  cases t <;> simp_all [Tok.isSel, mkr]

/-- `l'` comes from `l` by inserting markers, each at a place that satisfies `P` at that time. -/
inductive Ins (P : Sel → List Tok → List Tok → Prop) : List Tok → List Tok → Prop
  | refl (l : List Tok) : Ins P l l
  | step {l a b : List Tok} {m : Sel} : Ins P l (a ++ b) → P m a b → Ins P l (a ++ .marker m :: b)

theorem Ins.trans {P l l' l''} (h : Ins P l l') (h' : Ins P l' l'') : Ins P l l'' := by
  induction h' with
  | refl => exact h
  | step _ hp ih => exact .step ih hp

theorem Ins.one {P : Sel → List Tok → List Tok → Prop} {a b : List Tok} {m : Sel} (h : P m a b) :
    Ins P (a ++ b) (a ++ .marker m :: b) := .step (.refl _) h

theorem Ins.mono {P Q : Sel → List Tok → List Tok → Prop} {l l'} (h : Ins P l l')
    (hpq : ∀ m a b, P m a b → Q m a b) : Ins Q l l' := by
  induction h with
  | refl => exact .refl _
  | step _ hp ih => exact .step ih (hpq _ _ _ hp)

/-- Removing what is inserted gives the same list. -/
theorem Ins.filter {P : Sel → List Tok → List Tok → Prop} {l l'} (h : Ins P l l') (keep : Tok → Bool)
    (hk : ∀ m a b, P m a b → keep (.marker m) = false) : l'.filter keep = l.filter keep := by
  induction h with
  | refl => rfl
  | step _ hp ih =>
    rw [← ih, List.filter_append, List.filter_append, List.filter_cons_of_neg (by simp [hk _ _ _ hp])]

/-- Where `insOpt` puts the marker. -/
theorem insOpt_spec (m : Sel) : ∀ (ss : List Sel) (l : List Tok), ∃ p q, l = p ++ q ∧
    insOpt m ss l = p ++ .marker m :: q ∧ (∀ t ∈ p, ∃ s ∈ ss, t.isSel s = true) ∧ p.length ≤ ss.length
  | [], l => ⟨[], l, rfl, rfl, by simp, by simp⟩
  | s :: ss, [] => by
    obtain ⟨p, q, h1, h2, h3, h4⟩ := insOpt_spec m ss []
    exact ⟨p, q, h1, h2, fun t ht => let ⟨s', h5, h6⟩ := h3 t ht; ⟨s', by simp [h5], h6⟩, by simp; omega⟩
  | s :: ss, t :: l => by
    unfold insOpt
    split
    · rename_i hs
      obtain ⟨p, q, h1, h2, h3, h4⟩ := insOpt_spec m ss l
      refine ⟨t :: p, q, by simp [h1], by simp [h2], ?_, by simp; omega⟩
      intro u hu
      replace hu := List.mem_cons.1 hu
      rcases hu with rfl | hu
      · exact ⟨s, by simp, hs⟩
      · obtain ⟨s', h5, h6⟩ := h3 u hu
        exact ⟨s', by simp [h5], h6⟩
    · obtain ⟨p, q, h1, h2, h3, h4⟩ := insOpt_spec m ss (t :: l)
      exact ⟨p, q, h1, h2, fun t ht => let ⟨s', h5, h6⟩ := h3 t ht; ⟨s', by simp [h5], h6⟩, by simp; omega⟩

/-! ## Matching pairs -/

/-- Reading the markers `s` and `e`, which have to alternate; the Boolean says whether one is open. -/
def run (s e : Sel) : Bool → List Tok → Option Bool
  | o, [] => some o
  | o, t :: r =>
    if mkr s t then (if o then none else run s e true r)
    else if mkr e t then (if o then run s e false r else none)
    else run s e o r

/-- The markers alternate and none is left open. -/
def Bal (s e : Sel) (l : List Tok) : Prop := run s e false l = some false

theorem run_append (s e : Sel) : ∀ (o : Bool) (a b : List Tok),
    run s e o (a ++ b) = (run s e o a).bind (fun o => run s e o b)
  | o, [], b => rfl
  | o, t :: a, b => by
    simp only [List.cons_append, run]
    split
    · split
      · rfl
      · exact run_append s e _ a b
    · split
      · split
        · exact run_append s e _ a b
        · rfl
      · exact run_append s e _ a b

/-- Neither of the two markers. -/
def NoMk (s e : Sel) (l : List Tok) : Prop := ∀ t ∈ l, mkr s t = false ∧ mkr e t = false

theorem run_noMk {s e : Sel} : ∀ {o : Bool} {l : List Tok}, NoMk s e l → run s e o l = some o
  | o, [], _ => rfl
  | o, t :: l, h => by
    have h1 := h t (by simp)
    simp only [run, h1.1, h1.2, Bool.false_eq_true, if_false]
    exact run_noMk (fun u hu => h u (by simp [hu]))

theorem run_insert {s e m : Sel} (h1 : m ≠ s) (h2 : m ≠ e) (o : Bool) (a b : List Tok) :
    run s e o (a ++ .marker m :: b) = run s e o (a ++ b) := by
  rw [run_append, run_append]
  congr 1
  funext o'
  simp [run, mkr_marker, h1, h2]

theorem Ins.bal {P : Sel → List Tok → List Tok → Prop} {l l'} (h : Ins P l l') {s e : Sel}
    (hk : ∀ m a b, P m a b → m ≠ s ∧ m ≠ e) : Bal s e l' ↔ Bal s e l := by
  unfold Bal
  induction h with
  | refl => rfl
  | step _ hp ih => rw [← ih, run_insert (hk _ _ _ hp).1 (hk _ _ _ hp).2]

theorem noMk_append {s e : Sel} {a b : List Tok} : NoMk s e (a ++ b) ↔ NoMk s e a ∧ NoMk s e b := by
  simp only [NoMk, List.mem_append]
  constructor
  · intro h; exact ⟨fun t ht => h t (Or.inl ht), fun t ht => h t (Or.inr ht)⟩
  · rintro ⟨h1, h2⟩ t (ht | ht)
    · exact h1 t ht
    · exact h2 t ht

theorem noMk_of_sel {s e : Sel} {p : List Tok} {ss : List Sel} (h : ∀ t ∈ p, ∃ s ∈ ss, t.isSel s = true) :
    NoMk s e p := by
  intro t ht
  obtain ⟨s', _, hs⟩ := h t ht
  exact ⟨mkr_of_isSel hs _, mkr_of_isSel hs _⟩

/-- After an opening marker the closing one follows, with neither between. -/
theorem run_open {s e : Sel} (hne : s ≠ e) : ∀ {b : List Tok}, run s e true b = some false →
    ∃ mid rest, b = mid ++ .marker e :: rest ∧ NoMk s e mid ∧ run s e false rest = some false
  | [], h => by simp [run] at h
  | t :: b, h => by
    simp only [run] at h
    by_cases h1 : mkr s t = true
    · simp [h1] at h
    · by_cases h2 : mkr e t = true
      · simp only [h1, h2] at h
        have := mkr_true.1 h2
        subst this
        exact ⟨[], b, rfl, by simp [NoMk], by simpa using h⟩
      · simp only [h1, h2] at h
        obtain ⟨mid, rest, hb, hm, hr⟩ := run_open hne (by simpa using h)
        refine ⟨t :: mid, rest, by simp [hb], ?_, hr⟩
        intro u hu
        replace hu := List.mem_cons.1 hu
        rcases hu with rfl | hu
        · exact ⟨by simpa using h1, by simpa using h2⟩
        · exact hm u hu

theorem bal_after {s e : Sel} (hne : s ≠ e) {a b : List Tok} (h : Bal s e (a ++ .marker s :: b)) :
    ∃ mid rest, b = mid ++ .marker e :: rest ∧ NoMk s e mid := by
  unfold Bal at h
  rw [run_append] at h
  cases ho : run s e false a with
  | none => simp [ho] at h
  | some o =>
    simp only [ho, Option.bind_some, run, mkr_marker, decide_true, if_true] at h
    cases o with
    | true => simp at h
    | false =>
      obtain ⟨mid, rest, hb, hm, _⟩ := run_open hne (by simpa using h)
      exact ⟨mid, rest, hb, hm⟩

/-- Where the open state comes from. -/
theorem run_opened {s e : Sel} (hne : s ≠ e) : ∀ (n : Nat) (a : List Tok), a.length ≤ n →
    run s e false a = some true → ∃ p mid, a = p ++ .marker s :: mid ∧ NoMk s e mid
  | 0, a, hn, h => by
    have : a = [] := List.length_eq_zero_iff.1 (by omega)
    subst this; simp [run] at h
  | n + 1, a, hn, h => by
    rcases List.eq_nil_or_concat a with rfl | ⟨a', t, rfl⟩
    · simp [run] at h
    · rw [List.concat_eq_append] at *
      rw [run_append] at h
      cases ho : run s e false a' with
      | none => simp [ho] at h
      | some o =>
        simp only [ho, Option.bind_some, run] at h
        by_cases h1 : mkr s t = true
        · have := mkr_true.1 h1
          subst this
          exact ⟨a', [], rfl, by simp [NoMk]⟩
        · by_cases h2 : mkr e t = true
          · cases o <;> simp [h1, h2] at h
          · simp [h1, h2] at h
            subst h
            simp at hn
            obtain ⟨p, mid, ha, hm⟩ := run_opened hne n a' (by omega) ho
            refine ⟨p, mid ++ [t], by simp [ha], ?_⟩
            rw [noMk_append]
            refine ⟨hm, ?_⟩
            intro u hu
            have hu := List.mem_singleton.1 hu
            subst hu
            exact ⟨by simpa using h1, by simpa using h2⟩

theorem bal_before {s e : Sel} (hne : s ≠ e) {a b : List Tok} (h : Bal s e (a ++ .marker e :: b)) :
    ∃ p mid, a = p ++ .marker s :: mid ∧ NoMk s e mid := by
  unfold Bal at h
  rw [run_append] at h
  cases ho : run s e false a with
  | none => simp [ho] at h
  | some o =>
    have hes : ¬ e = s := fun h => hne h.symm
    simp only [ho, Option.bind_some, run, mkr_marker, hes, decide_false, decide_true] at h
    cases o with
    | false => simp at h
    | true => exact run_opened hne _ a (Nat.le_refl _) ho

theorem findMk_mid {m : Sel} : ∀ {mid rest : List Tok}, (∀ t ∈ mid, mkr m t = false) →
    findMk m (mid ++ .marker m :: rest) = some (mid.length + 1)
  | [], rest, _ => by simp [findMk, mkr_marker]
  | t :: mid, rest, h => by
    have h1 := h t (by simp)
    simp only [List.cons_append, findMk, h1]
    rw [findMk_mid (fun u hu => h u (by simp [hu]))]
    simp

theorem findMk_some {m : Sel} : ∀ {l : List Tok} {k : Nat}, findMk m l = some k →
    ∃ mid rest, l = mid ++ .marker m :: rest ∧ (∀ t ∈ mid, mkr m t = false) ∧ k = mid.length + 1
  | [], k, h => by simp [findMk] at h
  | t :: l, k, h => by
    unfold findMk at h
    by_cases ht : mkr m t = true
    · simp [ht] at h
      have := mkr_true.1 ht
      subst this
      exact ⟨[], l, rfl, by simp, by simp [h]⟩
    · simp only [ht, Bool.false_eq_true, if_false] at h
      cases hf : findMk m l with
      | none => simp [hf] at h
      | some j =>
        simp [hf] at h
        obtain ⟨mid, rest, h1, h2, h3⟩ := findMk_some hf
        refine ⟨t :: mid, rest, by simp [h1], ?_, by simp; omega⟩
        intro u hu
        replace hu := List.mem_cons.1 hu
        rcases hu with rfl | hu
        · simpa using ht
        · exact h2 u hu

end Jbo.Categ
