import Verif.DfaCloThm

/-!
# Result expressions and the verdict on a set of tags
-/

namespace Jbo.Dfasyn

section
variable (x : Evaluator) (tags : Name → Bool) (any : Bool)

theorem eval_and (k : Nat) (a b : Expr) : eval x tags any k (.and a b) =
    match eval x tags any k a with
    | none => none
    | some true => eval x tags any k b
    | some false => some false := by cases k <;> rfl

theorem eval_or (k : Nat) (a b : Expr) : eval x tags any k (.or a b) =
    match eval x tags any k a with
    | none => none
    | some true => some true
    | some false => eval x tags any k b := by cases k <;> rfl

theorem eval_xor (k : Nat) (a b : Expr) : eval x tags any k (.xor a b) =
    match eval x tags any k a, eval x tags any k b with
    | some u, some v => some (u ^^ v)
    | _, _ => none := by cases k <;> rfl

theorem eval_cond (k : Nat) (a b c : Expr) : eval x tags any k (.cond a b c) =
    match eval x tags any k a with
    | none => none
    | some true => eval x tags any k b
    | some false => eval x tags any k c := by cases k <;> rfl

theorem eval_not (k : Nat) (a : Expr) : eval x tags any k (.not a) =
    match eval x tags any k a with
    | none => none
    | some u => some (!u) := by cases k <;> rfl

theorem eval_wild (k : Nat) : eval x tags any k .wild = some any := by cases k <;> rfl

theorem eval_tag (k : Nat) (n : Name) (h : x.lookup n = none) :
    eval x tags any k (.sym n) = some (tags n) := by
  cases k <;> simp [eval, evalWith, h]

theorem eval_def0 (n : Name) (e : Expr) (h : x.lookup n = some e) :
    eval x tags any 0 (.sym n) = none := by
  simp [eval, evalWith, h]

theorem eval_def (k : Nat) (n : Name) (e : Expr) (h : x.lookup n = some e) :
    eval x tags any (k + 1) (.sym n) = eval x tags any k e := by
  simp [eval, evalWith, h]

theorem eval_mono (k : Nat) : ∀ (e : Expr) (b : Bool), eval x tags any k e = some b →
    eval x tags any (k + 1) e = some b := by
  induction k with
  | zero =>
    intro e
    induction e with
    | and a b iha ihb =>
      intro v h
      rw [eval_and] at h ⊢
      cases ha : eval x tags any 0 a with
      | none => rw [ha] at h; simp at h
      | some u =>
        rw [ha] at h; rw [iha u ha]
        cases u
        · exact h
        · exact ihb v h
    | or a b iha ihb =>
      intro v h
      rw [eval_or] at h ⊢
      cases ha : eval x tags any 0 a with
      | none => rw [ha] at h; simp at h
      | some u =>
        rw [ha] at h; rw [iha u ha]
        cases u
        · exact ihb v h
        · exact h
    | xor a b iha ihb =>
      intro v h
      rw [eval_xor] at h ⊢
      cases ha : eval x tags any 0 a with
      | none => rw [ha] at h; simp at h
      | some u =>
        cases hb : eval x tags any 0 b with
        | none => rw [ha, hb] at h; simp at h
        | some w => rw [iha u ha, ihb w hb]; rw [ha, hb] at h; exact h
    | cond a b c iha ihb ihc =>
      intro v h
      rw [eval_cond] at h ⊢
      cases ha : eval x tags any 0 a with
      | none => rw [ha] at h; simp at h
      | some u =>
        rw [ha] at h; rw [iha u ha]
        cases u
        · exact ihc v h
        · exact ihb v h
    | not a iha =>
      intro v h
      rw [eval_not] at h ⊢
      cases ha : eval x tags any 0 a with
      | none => rw [ha] at h; simp at h
      | some u => rw [ha] at h; rw [iha u ha]; exact h
    | wild => intro v h; rw [eval_wild] at h ⊢; exact h
    | sym n =>
      intro v h
      cases hl : x.lookup n with
      | none => rw [eval_tag _ _ _ _ _ hl] at h ⊢; exact h
      | some e => rw [eval_def0 _ _ _ _ _ hl] at h; simp at h
  | succ k ihk =>
    intro e
    induction e with
    | and a b iha ihb =>
      intro v h
      rw [eval_and] at h ⊢
      cases ha : eval x tags any (k + 1) a with
      | none => rw [ha] at h; simp at h
      | some u =>
        rw [ha] at h; rw [iha u ha]
        cases u
        · exact h
        · exact ihb v h
    | or a b iha ihb =>
      intro v h
      rw [eval_or] at h ⊢
      cases ha : eval x tags any (k + 1) a with
      | none => rw [ha] at h; simp at h
      | some u =>
        rw [ha] at h; rw [iha u ha]
        cases u
        · exact ihb v h
        · exact h
    | xor a b iha ihb =>
      intro v h
      rw [eval_xor] at h ⊢
      cases ha : eval x tags any (k + 1) a with
      | none => rw [ha] at h; simp at h
      | some u =>
        cases hb : eval x tags any (k + 1) b with
        | none => rw [ha, hb] at h; simp at h
        | some w => rw [iha u ha, ihb w hb]; rw [ha, hb] at h; exact h
    | cond a b c iha ihb ihc =>
      intro v h
      rw [eval_cond] at h ⊢
      cases ha : eval x tags any (k + 1) a with
      | none => rw [ha] at h; simp at h
      | some u =>
        rw [ha] at h; rw [iha u ha]
        cases u
        · exact ihc v h
        · exact ihb v h
    | not a iha =>
      intro v h
      rw [eval_not] at h ⊢
      cases ha : eval x tags any (k + 1) a with
      | none => rw [ha] at h; simp at h
      | some u => rw [ha] at h; rw [iha u ha]; exact h
    | wild => intro v h; rw [eval_wild] at h ⊢; exact h
    | sym n =>
      intro v h
      cases hl : x.lookup n with
      | none => rw [eval_tag _ _ _ _ _ hl] at h ⊢; exact h
      | some e => rw [eval_def _ _ _ _ _ _ hl] at h ⊢; exact ihk e v h

theorem eval_mono_le {k m : Nat} (hkm : k ≤ m) (e : Expr) (b : Bool)
    (h : eval x tags any k e = some b) : eval x tags any m e = some b := by
  induction hkm with
  | refl => exact h
  | step _ ih => exact eval_mono x tags any _ e b ih

/-- An expression that needs exactly one more level contains a symbol that does. -/
theorem eval_gap (k : Nat) : ∀ (e : Expr) (b : Bool), eval x tags any k e = none →
    eval x tags any (k + 1) e = some b →
    ∃ n, (x.lookup n).isSome = true ∧ eval x tags any k (.sym n) = none ∧
      ∃ b', eval x tags any (k + 1) (.sym n) = some b' := by
  intro e
  induction e with
  | and a b iha ihb =>
    intro v h h'
    rw [eval_and] at h h'
    cases ha : eval x tags any k a with
    | none =>
      cases ha' : eval x tags any (k + 1) a with
      | none => rw [ha'] at h'; simp at h'
      | some u => exact iha u ha ha'
    | some u =>
      rw [ha] at h; rw [eval_mono _ _ _ _ _ _ ha] at h'
      cases u
      · simp at h
      · exact ihb v h h'
  | or a b iha ihb =>
    intro v h h'
    rw [eval_or] at h h'
    cases ha : eval x tags any k a with
    | none =>
      cases ha' : eval x tags any (k + 1) a with
      | none => rw [ha'] at h'; simp at h'
      | some u => exact iha u ha ha'
    | some u =>
      rw [ha] at h; rw [eval_mono _ _ _ _ _ _ ha] at h'
      cases u
      · exact ihb v h h'
      · simp at h
  | xor a b iha ihb =>
    intro v h h'
    rw [eval_xor] at h h'
    cases ha' : eval x tags any (k + 1) a with
    | none => rw [ha'] at h'; simp at h'
    | some u =>
      cases hb' : eval x tags any (k + 1) b with
      | none => rw [ha', hb'] at h'; simp at h'
      | some w =>
        cases ha : eval x tags any k a with
        | none => exact iha u ha ha'
        | some u' =>
          cases hb : eval x tags any k b with
          | none => exact ihb w hb hb'
          | some w' => rw [ha, hb] at h; simp at h
  | cond a b c iha ihb ihc =>
    intro v h h'
    rw [eval_cond] at h h'
    cases ha : eval x tags any k a with
    | none =>
      cases ha' : eval x tags any (k + 1) a with
      | none => rw [ha'] at h'; simp at h'
      | some u => exact iha u ha ha'
    | some u =>
      rw [ha] at h; rw [eval_mono _ _ _ _ _ _ ha] at h'
      cases u
      · exact ihc v h h'
      · exact ihb v h h'
  | not a iha =>
    intro v h h'
    rw [eval_not] at h h'
    cases ha : eval x tags any k a with
    | none =>
      cases ha' : eval x tags any (k + 1) a with
      | none => rw [ha'] at h'; simp at h'
      | some u => exact iha u ha ha'
    | some u => rw [ha] at h; simp at h
  | wild => intro v h; rw [eval_wild] at h; simp at h
  | sym n =>
    intro v h h'
    cases hl : x.lookup n with
    | none => rw [eval_tag _ _ _ _ _ hl] at h; simp at h
    | some e => exact ⟨n, by rw [hl]; rfl, h, v, h'⟩

/-- How many definitions have no value within `k` levels. -/
def unresolved (k : Nat) : Nat := x.defs.countP (fun d => (eval x tags any k (.sym d.1)).isNone)

theorem countP_gain' {α : Type} (p q : α → Bool) (l : List α) (hpq : ∀ k, p k = true → q k = true)
    (hx : ∃ k ∈ l, q k = true ∧ p k = false) : l.countP p + 1 ≤ l.countP q := by
  induction l with
  | nil => obtain ⟨k, hk, _⟩ := hx; simp at hk
  | cons a l ih =>
    rw [List.countP_cons, List.countP_cons]
    obtain ⟨k, hk, h1, h2⟩ := hx
    rcases List.mem_cons.1 hk with rfl | hk'
    · have := List.countP_mono_left (p := p) (q := q) (l := l) (fun x _ => hpq x)
      simp [h1, h2]; omega
    · have := ih ⟨k, hk', h1, h2⟩
      by_cases hp : p a = true
      · simp [hp, hpq a hp]; omega
      · rw [if_neg hp]; omega

theorem lookup_mem (n : Name) (h : (x.lookup n).isSome = true) : ∃ d ∈ x.defs, d.1 = n := by
  unfold Evaluator.lookup at h
  cases hf : x.defs.find? (fun d => d.1 == n) with
  | none => rw [hf] at h; simp at h
  | some d =>
    exact ⟨d, List.mem_of_find?_eq_some hf, by have := List.find?_some hf; simpa using this⟩

theorem gap_bound (k : Nat) : ∀ n b, (x.lookup n).isSome = true →
    eval x tags any k (.sym n) = none → eval x tags any (k + 1) (.sym n) = some b →
    unresolved x tags any (k + 1) + (k + 1) ≤ x.defs.length := by
  induction k with
  | zero =>
    intro n b hn h h'
    obtain ⟨d, hd, rfl⟩ := lookup_mem x n hn
    have := countP_gain' (fun d => (eval x tags any 1 (.sym d.1)).isNone)
      (fun d => (eval x tags any 0 (.sym d.1)).isNone) x.defs
      (fun d hd => by
        cases he : eval x tags any 0 (.sym d.1) with
        | none => rfl
        | some v => simp [eval_mono _ _ _ _ _ _ he] at hd)
      ⟨d, hd, by simp [h], by simp at h'; simp [h']⟩
    have h2 := List.countP_le_length (p := fun d : Name × Expr => (eval x tags any 0 (.sym d.1)).isNone)
      (l := x.defs)
    unfold unresolved
    simp only [Nat.zero_add]
    omega
  | succ k ih =>
    intro n b hn h h'
    obtain ⟨d, hd, rfl⟩ := lookup_mem x n hn
    cases hl : x.lookup d.1 with
    | none => rw [hl] at hn; simp at hn
    | some e =>
      have h2 := h
      have h2' := h'
      rw [eval_def _ _ _ _ _ _ hl] at h2 h2'
      obtain ⟨m, hm, hm1, b', hm2⟩ := eval_gap x tags any k e b h2 h2'
      have := ih m b' hm hm1 hm2
      have := countP_gain' (fun d => (eval x tags any (k + 1 + 1) (.sym d.1)).isNone)
        (fun d => (eval x tags any (k + 1) (.sym d.1)).isNone) x.defs
        (fun d hd => by
          cases he : eval x tags any (k + 1) (.sym d.1) with
          | none => rfl
          | some v => simp [eval_mono _ _ _ _ _ _ he] at hd)
        ⟨d, hd, by simp [h], by simp [h']⟩
      unfold unresolved at *
      omega

/-- Nesting deeper than the number of definitions never yields a value: the bound in the model is
exactly endless recursion of the C code. -/
theorem eval_enough (k : Nat) (e : Expr) (b : Bool) (h : eval x tags any k e = some b) :
    eval x tags any x.defs.length e = some b := by
  induction k with
  | zero => exact eval_mono_le _ _ _ (Nat.zero_le _) _ _ h
  | succ k ih =>
    by_cases hk : k + 1 ≤ x.defs.length
    · exact eval_mono_le _ _ _ hk _ _ h
    · cases hp : eval x tags any k e with
      | some b' =>
        have := eval_mono _ _ _ _ _ _ hp
        rw [h] at this
        rw [← this] at hp
        exact ih hp
      | none =>
        obtain ⟨n, h1, h2, b', h3⟩ := eval_gap x tags any k e b hp h
        have := gap_bound x tags any k n b' h1 h2 h3
        omega

theorem eval_sound (k : Nat) : ∀ (e : Expr) (b : Bool), eval x tags any k e = some b →
    Holds x (fun n => tags n = true) any e b := by
  induction k with
  | zero =>
    intro e
    induction e with
    | and a b iha ihb =>
      intro v h
      rw [eval_and] at h
      split at h
      · simp at h
      · rename_i ha; have := Holds.and (iha _ ha) (ihb _ h); simpa using this
      · rename_i ha; cases h; exact .andF (iha _ ha)
    | or a b iha ihb =>
      intro v h
      rw [eval_or] at h
      split at h
      · simp at h
      · rename_i ha; cases h; exact .orT (iha _ ha)
      · rename_i ha; have := Holds.or (iha _ ha) (ihb _ h); simpa using this
    | xor a b iha ihb =>
      intro v h
      rw [eval_xor] at h
      split at h
      · rename_i ha hb; cases h; exact .xor (iha _ ha) (ihb _ hb)
      · simp at h
    | cond a b c iha ihb ihc =>
      intro v h
      rw [eval_cond] at h
      split at h
      · simp at h
      · rename_i ha; exact .condT (iha _ ha) (ihb _ h)
      · rename_i ha; exact .condF (iha _ ha) (ihc _ h)
    | not a iha =>
      intro v h
      rw [eval_not] at h
      split at h
      · simp at h
      · rename_i ha; cases h; exact .not (iha _ ha)
    | wild => intro v h; rw [eval_wild] at h; cases h; exact .wild
    | sym n =>
      intro v h
      cases hl : x.lookup n with
      | none =>
        rw [eval_tag _ _ _ _ _ hl] at h
        cases ht : tags n with
        | true => rw [ht] at h; cases h; exact .tag hl ht
        | false => rw [ht] at h; cases h; exact .noTag hl (by simp [ht])
      | some e => rw [eval_def0 _ _ _ _ _ hl] at h; simp at h
  | succ k ihk =>
    intro e
    induction e with
    | and a b iha ihb =>
      intro v h
      rw [eval_and] at h
      split at h
      · simp at h
      · rename_i ha; have := Holds.and (iha _ ha) (ihb _ h); simpa using this
      · rename_i ha; cases h; exact .andF (iha _ ha)
    | or a b iha ihb =>
      intro v h
      rw [eval_or] at h
      split at h
      · simp at h
      · rename_i ha; cases h; exact .orT (iha _ ha)
      · rename_i ha; have := Holds.or (iha _ ha) (ihb _ h); simpa using this
    | xor a b iha ihb =>
      intro v h
      rw [eval_xor] at h
      split at h
      · rename_i ha hb; cases h; exact .xor (iha _ ha) (ihb _ hb)
      · simp at h
    | cond a b c iha ihb ihc =>
      intro v h
      rw [eval_cond] at h
      split at h
      · simp at h
      · rename_i ha; exact .condT (iha _ ha) (ihb _ h)
      · rename_i ha; exact .condF (iha _ ha) (ihc _ h)
    | not a iha =>
      intro v h
      rw [eval_not] at h
      split at h
      · simp at h
      · rename_i ha; cases h; exact .not (iha _ ha)
    | wild => intro v h; rw [eval_wild] at h; cases h; exact .wild
    | sym n =>
      intro v h
      cases hl : x.lookup n with
      | none =>
        rw [eval_tag _ _ _ _ _ hl] at h
        cases ht : tags n with
        | true => rw [ht] at h; cases h; exact .tag hl ht
        | false => rw [ht] at h; cases h; exact .noTag hl (by simp [ht])
      | some e => rw [eval_def _ _ _ _ _ _ hl] at h; exact .defined hl (ihk e v h)

theorem eval_complete {e : Expr} {b : Bool} (h : Holds x (fun n => tags n = true) any e b) :
    ∃ k, eval x tags any k e = some b := by
  induction h with
  | @and a b u v _ _ iha ihb =>
    obtain ⟨k1, h1⟩ := iha
    obtain ⟨k2, h2⟩ := ihb
    refine ⟨max k1 k2, ?_⟩
    rw [eval_and, eval_mono_le _ _ _ (Nat.le_max_left k1 k2) _ _ h1,
      eval_mono_le _ _ _ (Nat.le_max_right k1 k2) _ _ h2]
    cases u <;> rfl
  | andF _ iha => obtain ⟨k, h⟩ := iha; exact ⟨k, by rw [eval_and, h]⟩
  | @or a b u v _ _ iha ihb =>
    obtain ⟨k1, h1⟩ := iha
    obtain ⟨k2, h2⟩ := ihb
    refine ⟨max k1 k2, ?_⟩
    rw [eval_or, eval_mono_le _ _ _ (Nat.le_max_left k1 k2) _ _ h1,
      eval_mono_le _ _ _ (Nat.le_max_right k1 k2) _ _ h2]
    cases u <;> rfl
  | orT _ iha => obtain ⟨k, h⟩ := iha; exact ⟨k, by rw [eval_or, h]⟩
  | @xor a b u v _ _ iha ihb =>
    obtain ⟨k1, h1⟩ := iha
    obtain ⟨k2, h2⟩ := ihb
    refine ⟨max k1 k2, ?_⟩
    rw [eval_xor, eval_mono_le _ _ _ (Nat.le_max_left k1 k2) _ _ h1,
      eval_mono_le _ _ _ (Nat.le_max_right k1 k2) _ _ h2]
  | condT _ _ iha ihb =>
    obtain ⟨k1, h1⟩ := iha
    obtain ⟨k2, h2⟩ := ihb
    refine ⟨max k1 k2, ?_⟩
    rw [eval_cond, eval_mono_le _ _ _ (Nat.le_max_left k1 k2) _ _ h1,
      eval_mono_le _ _ _ (Nat.le_max_right k1 k2) _ _ h2]
  | condF _ _ iha ihb =>
    obtain ⟨k1, h1⟩ := iha
    obtain ⟨k2, h2⟩ := ihb
    refine ⟨max k1 k2, ?_⟩
    rw [eval_cond, eval_mono_le _ _ _ (Nat.le_max_left k1 k2) _ _ h1,
      eval_mono_le _ _ _ (Nat.le_max_right k1 k2) _ _ h2]
  | not _ iha => obtain ⟨k, h⟩ := iha; exact ⟨k, by rw [eval_not, h]⟩
  | wild => exact ⟨0, eval_wild _ _ _ _⟩
  | tag hl ht => exact ⟨0, by rw [eval_tag _ _ _ _ _ hl, ht]⟩
  | noTag hl ht => exact ⟨0, by rw [eval_tag _ _ _ _ _ hl]; simpa using ht⟩
  | defined hl _ ih => obtain ⟨k, h⟩ := ih; exact ⟨k + 1, by rw [eval_def _ _ _ _ _ _ hl, h]⟩

/-- **C30 (expressions)**: the value computed by `eval` is the truth value of the expression. -/
theorem eval_iff (e : Expr) (b : Bool) :
    eval x tags any x.defs.length e = some b ↔ Holds x (fun n => tags n = true) any e b :=
  ⟨eval_sound x tags any _ e b, fun h => by
    obtain ⟨k, hk⟩ := eval_complete x tags any h
    exact eval_enough x tags any k e b hk⟩

/-- An expression has at most one truth value. -/
theorem holds_unique {e : Expr} {u v : Bool} (hu : Holds x (fun n => tags n = true) any e u)
    (hv : Holds x (fun n => tags n = true) any e v) : u = v := by
  have h1 := (eval_iff x tags any e u).2 hu
  rw [(eval_iff x tags any e v).2 hv] at h1
  exact (Option.some.inj h1).symm

end

theorem evalLoop_true (x : Evaluator) (tags : Name → Bool) (r : Result) : ∀ (rs : List Result)
    (v : Verdict), evalLoop x tags true (some r) rs = .ok v ↔
      ((∀ r' ∈ rs, Holds x (fun n => tags n = true) true r'.e false) ∧ v = .unique r) ∨
      (∃ mid s after, rs = mid ++ s :: after ∧
        (∀ r' ∈ mid, Holds x (fun n => tags n = true) true r'.e false) ∧
        Holds x (fun n => tags n = true) true s.e true ∧ v = .ambiguous) := by
  intro rs
  induction rs with
  | nil =>
    intro v
    simp only [evalLoop, Except.ok.injEq, List.not_mem_nil, false_imp_iff, implies_true, true_and]
    constructor
    · intro h; exact Or.inl h.symm
    · rintro (h | ⟨mid, s, after, h, _⟩)
      · exact h.symm
      · simp at h
  | cons s rs ih =>
    intro v
    rw [evalLoop]
    cases he : eval x tags true x.defs.length s.e with
    | none =>
      simp only [reduceCtorEq, false_iff]
      have hn : ∀ b, ¬ Holds x (fun n => tags n = true) true s.e b := by
        intro b hb; rw [(eval_iff _ _ _ _ _).2 hb] at he; simp at he
      rintro (⟨h, _⟩ | ⟨mid, t, after, h1, h2, h3, _⟩)
      · exact hn _ (h s List.mem_cons_self)
      · cases mid with
        | nil => simp at h1; rw [← h1.1] at h3; exact hn _ h3
        | cons m mid =>
          simp at h1
          exact hn _ (by rw [h1.1]; exact h2 m List.mem_cons_self)
    | some b =>
      have hb := (eval_iff _ _ _ _ _).1 he
      cases b with
      | true =>
        simp only [if_true, Except.ok.injEq]
        constructor
        · intro h; exact Or.inr ⟨[], s, rs, rfl, by simp, hb, h.symm⟩
        · rintro (⟨h, _⟩ | ⟨mid, t, after, h1, h2, h3, h4⟩)
          · exact absurd (holds_unique _ _ _ hb (h s List.mem_cons_self)) (by simp)
          · exact h4.symm
      | false =>
        simp only
        rw [ih v]
        constructor
        · rintro (⟨h, hv⟩ | ⟨mid, t, after, h1, h2, h3, h4⟩)
          · refine Or.inl ⟨fun r' hr' => ?_, hv⟩
            rcases List.mem_cons.1 hr' with rfl | h'
            · exact hb
            · exact h r' h'
          · refine Or.inr ⟨s :: mid, t, after, by rw [h1]; rfl, fun r' hr' => ?_, h3, h4⟩
            rcases List.mem_cons.1 hr' with rfl | h'
            · exact hb
            · exact h2 r' h'
        · rintro (⟨h, hv⟩ | ⟨mid, t, after, h1, h2, h3, h4⟩)
          · exact Or.inl ⟨fun r' hr' => h r' (List.mem_cons_of_mem _ hr'), hv⟩
          · cases mid with
            | nil =>
              simp at h1
              rw [← h1.1] at h3
              exact absurd (holds_unique _ _ _ hb h3) (by simp)
            | cons m mid =>
              simp at h1
              exact Or.inr ⟨mid, t, after, h1.2, fun r' hr' => h2 r' (List.mem_cons_of_mem _ hr'),
                h3, h4⟩

theorem evalLoop_false (x : Evaluator) (tags : Name → Bool) : ∀ (rs : List Result) (v : Verdict),
    evalLoop x tags false none rs = .ok v ↔ Calls x (fun n => tags n = true) rs v := by
  intro rs
  induction rs with
  | nil =>
    intro v
    simp only [evalLoop, Except.ok.injEq]
    constructor
    · rintro rfl; exact .none (by simp)
    · intro h
      generalize hl : ([] : List Result) = l at h
      cases h with
      | none => rfl
      | unique => simp at hl
      | ambiguous => simp at hl
  | cons s rs ih =>
    intro v
    rw [evalLoop]
    cases he : eval x tags false x.defs.length s.e with
    | none =>
      simp only [reduceCtorEq, false_iff]
      have hn : ∀ b, ¬ Holds x (fun n => tags n = true) false s.e b := by
        intro b hb; rw [(eval_iff _ _ _ _ _).2 hb] at he; simp at he
      intro h
      generalize hl : s :: rs = l at h
      cases h with
      | none h => exact hn _ (h s (by rw [← hl]; exact List.mem_cons_self))
      | @unique before after r h1 h2 h3 =>
        cases before with
        | nil => simp at hl; rw [← hl.1] at h2; exact hn _ h2
        | cons m mid => simp at hl; exact hn _ (by rw [hl.1]; exact h1 m List.mem_cons_self)
      | @ambiguous before mid after r t h1 h2 h3 h4 =>
        cases before with
        | nil => simp at hl; rw [← hl.1] at h2; exact hn _ h2
        | cons m mid => simp at hl; exact hn _ (by rw [hl.1]; exact h1 m List.mem_cons_self)
    | some b =>
      have hb := (eval_iff _ _ _ _ _).1 he
      cases b with
      | true =>
        simp only [Bool.false_eq_true, if_false]
        rw [evalLoop_true]
        constructor
        · rintro (⟨h, rfl⟩ | ⟨mid, t, after, rfl, h2, h3, rfl⟩)
          · exact Calls.unique (before := []) (by simp) hb h
          · exact Calls.ambiguous (before := []) (by simp) hb h2 h3
        · intro h
          generalize hl : s :: rs = l at h
          cases h with
          | none h =>
            exact absurd (holds_unique _ _ _ hb (h s (by rw [← hl]; exact List.mem_cons_self)))
              (by simp)
          | @unique before after r h1 h2 h3 =>
            cases before with
            | nil => simp at hl; obtain ⟨rfl, rfl⟩ := hl; exact Or.inl ⟨h3, rfl⟩
            | cons m mid =>
              simp at hl
              obtain ⟨rfl, _⟩ := hl
              exact absurd (holds_unique _ _ _ hb (h1 s List.mem_cons_self)) (by simp)
          | @ambiguous before mid after r t h1 h2 h3 h4 =>
            cases before with
            | nil =>
              simp at hl
              obtain ⟨rfl, rfl⟩ := hl
              exact Or.inr ⟨mid, t, after, rfl, h3, h4, rfl⟩
            | cons m mid =>
              simp at hl
              obtain ⟨rfl, _⟩ := hl
              exact absurd (holds_unique _ _ _ hb (h1 s List.mem_cons_self)) (by simp)
      | false =>
        simp only
        rw [ih v]
        have hcons : ∀ l : List Result, (∀ r' ∈ l, Holds x (fun n => tags n = true) false r'.e false) →
            ∀ r' ∈ s :: l, Holds x (fun n => tags n = true) false r'.e false := by
          intro l h r' hr'
          rcases List.mem_cons.1 hr' with rfl | h'
          · exact hb
          · exact h r' h'
        constructor
        · intro h
          cases h with
          | none h => exact .none (hcons _ h)
          | @unique before after r h1 h2 h3 =>
            exact Calls.unique (before := s :: before) (hcons _ h1) h2 h3
          | @ambiguous before mid after r t h1 h2 h3 h4 =>
            exact Calls.ambiguous (before := s :: before) (hcons _ h1) h2 h3 h4
        · intro h
          generalize hl : s :: rs = l at h
          cases h with
          | none h =>
            rw [← hl] at h
            exact .none (fun r' hr' => h r' (List.mem_cons_of_mem _ hr'))
          | @unique before after r h1 h2 h3 =>
            cases before with
            | nil =>
              simp at hl
              obtain ⟨rfl, _⟩ := hl
              exact absurd (holds_unique _ _ _ hb h2) (by simp)
            | cons m mid =>
              simp at hl
              obtain ⟨_, rfl⟩ := hl
              exact .unique (fun r' hr' => h1 r' (List.mem_cons_of_mem _ hr')) h2 h3
          | @ambiguous before mid after r t h1 h2 h3 h4 =>
            cases before with
            | nil =>
              simp at hl
              obtain ⟨rfl, _⟩ := hl
              exact absurd (holds_unique _ _ _ hb h2) (by simp)
            | cons m before =>
              simp at hl
              obtain ⟨_, rfl⟩ := hl
              exact .ambiguous (fun r' hr' => h1 r' (List.mem_cons_of_mem _ hr')) h2 h3 h4

/-- **C30**: the verdict of `evaluate_result` is the one the results call for. -/
theorem evaluateResult_iff (x : Evaluator) (tags : Name → Bool) (v : Verdict) :
    evaluateResult x tags = .ok v ↔ Calls x (fun n => tags n = true) x.results v :=
  evalLoop_false x tags x.results v

/-- **C30 (without `*`)**: if the truth of the results does not depend on earlier results, the
verdict only depends on how many of them are true. -/
theorem evaluateResult_count (x : Evaluator) (tags : Name → Bool) (truth : Result → Bool)
    (h : ∀ r ∈ x.results, ∀ any, Holds x (fun n => tags n = true) any r.e (truth r)) :
    ∃ v, evaluateResult x tags = .ok v ∧
      (v = .none ↔ x.results.filter truth = []) ∧
      (∀ r, v = .unique r ↔ x.results.filter truth = [r]) ∧
      (v = .ambiguous ↔ 2 ≤ (x.results.filter truth).length) := by
  have hT : ∀ rs : List Result, (∀ r ∈ rs, ∀ any, Holds x (fun n => tags n = true) any r.e (truth r)) →
      ∀ r, evalLoop x tags true (some r) rs =
        .ok (if rs.filter truth = [] then .unique r else .ambiguous) := by
    intro rs
    induction rs with
    | nil => intro _ r; simp [evalLoop]
    | cons s rs ih =>
      intro h r
      have hs := (eval_iff _ _ _ _ _).2 (h s List.mem_cons_self true)
      rw [evalLoop, hs]
      cases ht : truth s with
      | true => simp [ht]
      | false =>
        simp only
        rw [ih (fun r' hr' => h r' (List.mem_cons_of_mem _ hr')) r]
        simp [List.filter_cons, ht]
  have hF : ∀ rs : List Result, (∀ r ∈ rs, ∀ any, Holds x (fun n => tags n = true) any r.e (truth r)) →
      evalLoop x tags false none rs =
        .ok (match rs.filter truth with | [] => .none | [r] => .unique r | _ => .ambiguous) := by
    intro rs
    induction rs with
    | nil => intro _; simp [evalLoop]
    | cons s rs ih =>
      intro h
      have hs := (eval_iff _ _ _ _ _).2 (h s List.mem_cons_self false)
      rw [evalLoop, hs]
      cases ht : truth s with
      | true =>
        simp only [Bool.false_eq_true, if_false, List.filter_cons, ht, if_true]
        rw [hT rs (fun r' hr' => h r' (List.mem_cons_of_mem _ hr')) s]
        cases hf : rs.filter truth with
        | nil => simp
        | cons a l => simp
      | false =>
        simp only
        rw [ih (fun r' hr' => h r' (List.mem_cons_of_mem _ hr'))]
        simp [List.filter_cons, ht]
  refine ⟨_, hF x.results h, ?_⟩
  cases hf : x.results.filter truth with
  | nil => simp
  | cons a l =>
    cases l with
    | nil => simp
    | cons b l => simp

/-- Results `A` for tag a, `B` for tag b but not a, and `*`-protected `C` (if nothing else). -/
def demoEval : Evaluator :=
  ⟨[("nb".toList, .and (.sym "b".toList) (.not (.sym "a".toList)))],
   [⟨"A".toList, .sym "a".toList, true⟩, ⟨"B".toList, .sym "nb".toList, false⟩,
    ⟨"C".toList, .not .wild, false⟩]⟩

example : evaluateResult demoEval (fun n => n = "b".toList) =
    .ok (.unique ⟨"B".toList, .sym "nb".toList, false⟩) := by decide +kernel
example : evaluateResult demoEval (fun _ => false) =
    .ok (.unique ⟨"C".toList, .not .wild, false⟩) := by decide +kernel

/-- Two results true at the same time are ambiguous. -/
example : evaluateResult ⟨[], [⟨"A".toList, .sym "a".toList, true⟩, ⟨"B".toList, .sym "b".toList, false⟩]⟩
    (fun _ => true) = .ok .ambiguous := by decide +kernel

/-- `evaluateResult_count` applies to results that are single tags. -/
example : ∃ v, evaluateResult
    ⟨[], [⟨"A".toList, .sym "a".toList, true⟩, ⟨"B".toList, .sym "b".toList, false⟩]⟩
    (fun n => n = "b".toList) = .ok v ∧ v = .unique ⟨"B".toList, .sym "b".toList, false⟩ := by
  obtain ⟨v, h1, _, h3, _⟩ := evaluateResult_count
    ⟨[], [⟨"A".toList, .sym "a".toList, true⟩, ⟨"B".toList, .sym "b".toList, false⟩]⟩
    (fun n => n = "b".toList) (fun r => r.result = "B".toList)
    (by
      intro r hr any
      simp only [List.mem_cons, List.not_mem_nil, or_false] at hr
      rcases hr with rfl | rfl
      · exact .noTag rfl (by decide +kernel)
      · exact .tag rfl (by decide +kernel))
  exact ⟨v, h1, (h3 _).2 (by decide +kernel)⟩

/-- `*` looks back only: the order of the results matters. -/
theorem wild_order :
    let a : Result := ⟨"A".toList, .sym "a".toList, false⟩
    let c : Result := ⟨"C".toList, .not .wild, false⟩
    evaluateResult ⟨[], [a, c]⟩ (fun _ => true) = .ok (.unique a) ∧
    evaluateResult ⟨[], [c, a]⟩ (fun _ => true) = .ok .ambiguous := by decide +kernel

/-- A cyclic definition makes the C code recurse forever. -/
theorem cyclic_symbol_recursion : evaluateResult
    ⟨[("a".toList, .not (.sym "b".toList)), ("b".toList, .sym "a".toList)],
     [⟨"A".toList, .sym "a".toList, false⟩]⟩ (fun _ => true) = .error .recursion := by decide +kernel

/-- ... and exactly those expressions without a truth value do. -/
theorem recursion_iff (x : Evaluator) (tags : Name → Bool) (any : Bool) (e : Expr) :
    eval x tags any x.defs.length e = none ↔ ∀ b, ¬ Holds x (fun n => tags n = true) any e b := by
  constructor
  · intro h b hb; rw [(eval_iff _ _ _ _ _).2 hb] at h; simp at h
  · intro h
    cases he : eval x tags any x.defs.length e with
    | none => rfl
    | some b => exact absurd ((eval_iff _ _ _ _ _).1 he) (h b)

end Jbo.Dfasyn
