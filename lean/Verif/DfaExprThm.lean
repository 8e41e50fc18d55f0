import Verif.DfaExprSpec
/-!
# Expressions are read as they are meant
-/

namespace Jbo.DfaExpr
open Jbo.Dfasyn (Expr Name)

theorem run_append : ∀ (a b : List T) (st : St), run st (a ++ b) = (run st a).bind (fun st => run st b)
  | [], _, _ => rfl
  | t :: a, b, st => by
    simp only [List.cons_append, run]
    cases step st t with
    | none => rfl
    | some st => exact run_append a b st

/-- The token whose precedence the rules of a layer have. -/
def ruleOf : Nat → T
  | 0 => .colon
  | 1 => .pipe
  | 2 => .xor
  | 3 => .and
  | 4 => .not
  | _ => .lparen

/-- An expression of layer `k` is complete before this token. -/
def Ends (k : Nat) (la : Option T) : Prop := reduces (ruleOf k) la = true

theorem reduces_up (k : Nat) (la : Option T) (h : Ends k la) : Ends (k + 1) la := by
  unfold Ends at *
  match k with
  | 0 | 1 | 2 | 3 | 4 => revert h; rcases la with _ | t <;> first | exact fun _ => rfl | (cases t <;> simp [reduces, ruleOf, infix?, prec])
  | k + 5 => exact h

/-- The joining tokens inside an expression of layer `k`. -/
def ops : Nat → List T
  | 0 => [.and, .xor, .pipe, .query]
  | 1 => [.and, .xor, .pipe]
  | 2 => [.and, .xor]
  | 3 => [.and]
  | _ => []

theorem ops_up (k : Nat) : ∀ t ∈ ops (k + 1), t ∈ ops k := by
  match k with
  | 0 | 1 | 2 | 3 | 4 => simp [ops]
  | k + 5 => simp [ops]

/-- What is below on the stack waits for an expression of layer `k`. -/
def Waits (k : Nat) (s : List Frame) : Prop := ∀ t ∈ ops k, ∀ x, settle (some t) x s = (x, s)

theorem reads_run {k : Nat} {ts : List T} {e : Expr} (h : Reads k ts e) : ∀ s, Waits k s →
    ∃ e' s', run (.need s) ts = some (.have e' s') ∧ ∀ la, Ends k la → settle la e' s' = settle la e s := by
  induction h with
  | sym n => intro s _; exact ⟨_, s, rfl, fun _ _ => rfl⟩
  | wild => intro s _; exact ⟨_, s, rfl, fun _ _ => rfl⟩
  | paren ts e _ ih =>
    intro s _
    obtain ⟨e', s', hr, hs⟩ := ih (.lparen :: s) (fun t _ x => rfl)
    refine ⟨e, s, ?_, fun _ _ => rfl⟩
    have h1 := hs (some .rparen) rfl
    simp only [settle] at h1
    simp only [List.cons_append, run, step, run_append, hr, Option.bind_some, h1]
  | not ts e _ ih =>
    intro s _
    obtain ⟨e', s', hr, hs⟩ := ih (.not :: s) (by simp [Waits, ops])
    refine ⟨e', s', by simp only [run, step, hr], fun la hl => ?_⟩
    rw [hs la hl, settle]; exact if_pos hl
  | and a b x y _ _ iha ihb =>
    intro s hw
    obtain ⟨e1, s1, hr1, hs1⟩ := iha s hw
    have h1 := (hs1 (some .and) rfl).trans (hw .and (by simp [ops]) x)
    obtain ⟨e2, s2, hr2, hs2⟩ := ihb (.and x :: s) (by simp [Waits, ops])
    refine ⟨e2, s2, by simp only [run_append, hr1, Option.bind_some, run, step, h1, hr2], fun la hl => ?_⟩
    rw [hs2 la (reduces_up _ _ hl), settle]; exact if_pos hl
  | xor a b x y _ _ iha ihb =>
    intro s hw
    obtain ⟨e1, s1, hr1, hs1⟩ := iha s hw
    have h1 := (hs1 (some .xor) rfl).trans (hw .xor (by simp [ops]) x)
    obtain ⟨e2, s2, hr2, hs2⟩ := ihb (.xor x :: s) (by simp [Waits, ops, settle, reduces, infix?, prec])
    refine ⟨e2, s2, by simp only [run_append, hr1, Option.bind_some, run, step, h1, hr2], fun la hl => ?_⟩
    rw [hs2 la (reduces_up _ _ hl), settle]; exact if_pos hl
  | or a b x y _ _ iha ihb =>
    intro s hw
    obtain ⟨e1, s1, hr1, hs1⟩ := iha s hw
    have h1 := (hs1 (some .pipe) rfl).trans (hw .pipe (by simp [ops]) x)
    obtain ⟨e2, s2, hr2, hs2⟩ := ihb (.pipe x :: s) (by simp [Waits, ops, settle, reduces, infix?, prec])
    refine ⟨e2, s2, by simp only [run_append, hr1, Option.bind_some, run, step, h1, hr2], fun la hl => ?_⟩
    rw [hs2 la (reduces_up _ _ hl), settle]; exact if_pos hl
  | cond a b c x y z _ _ _ iha ihb ihc =>
    intro s hw
    obtain ⟨e1, s1, hr1, hs1⟩ := iha s (fun t ht => hw t (ops_up 0 t ht))
    have h1 := (hs1 (some .query) rfl).trans (hw .query (by simp [ops]) x)
    obtain ⟨e2, s2, hr2, hs2⟩ := ihb (.query x :: s) (fun t _ x => rfl)
    have h2 := hs2 (some .colon) rfl
    simp only [settle] at h2
    obtain ⟨e3, s3, hr3, hs3⟩ := ihc (.colon x y :: s) (by simp [Waits, ops, settle, reduces, infix?, prec])
    refine ⟨e3, s3, by simp only [List.append_assoc, List.cons_append, run_append, hr1, Option.bind_some, run, step, h1, hr2, h2, hr3],
      fun la hl => ?_⟩
    rw [hs3 la hl, settle]; exact if_pos hl
  | up k ts e _ ih =>
    intro s hw
    obtain ⟨e', s', hr, hs⟩ := ih s (fun t ht => hw t (ops_up k t ht))
    exact ⟨e', s', hr, fun la hl => hs la (reduces_up _ _ hl)⟩

/-! ## What is read has been written -/

theorem reads_down {j k : Nat} (h : j ≤ k) {ts : List T} {e : Expr} (hr : Reads k ts e) : Reads j ts e := by
  induction h with
  | refl => exact hr
  | step _ ih => exact ih (.up _ _ _ hr)

/-- The layer of the expression that has to come. -/
def hole : List Frame → Nat
  | .not :: _ => 4
  | .and _ :: _ => 4
  | .xor _ :: _ => 3
  | .pipe _ :: _ => 2
  | _ => 0

/-- The tokens that the stack stands for. -/
inductive Stack : List Frame → List T → Prop
  | nil : Stack [] []
  | not (s : List Frame) (p : List T) : Stack s p → Stack (.not :: s) (p ++ [.not])
  | and (s : List Frame) (p a : List T) (x : Expr) : Stack s p → Reads 3 a x → hole s ≤ 3 → Stack (.and x :: s) (p ++ (a ++ [.and]))
  | xor (s : List Frame) (p a : List T) (x : Expr) : Stack s p → Reads 2 a x → hole s ≤ 2 → Stack (.xor x :: s) (p ++ (a ++ [.xor]))
  | pipe (s : List Frame) (p a : List T) (x : Expr) : Stack s p → Reads 1 a x → hole s ≤ 1 → Stack (.pipe x :: s) (p ++ (a ++ [.pipe]))
  | query (s : List Frame) (p a : List T) (x : Expr) : Stack s p → Reads 1 a x → hole s ≤ 0 → Stack (.query x :: s) (p ++ (a ++ [.query]))
  | colon (s : List Frame) (p a b : List T) (x y : Expr) : Stack s p → Reads 1 a x → Reads 0 b y → hole s ≤ 0 →
      Stack (.colon x y :: s) (p ++ (a ++ .query :: b ++ [.colon]))
  | lparen (s : List Frame) (p : List T) : Stack s p → Stack (.lparen :: s) (p ++ [.lparen])

theorem hole_le (s : List Frame) : hole s ≤ 4 := by
  unfold hole; split <;> omega

/-- No rule on top is complete. -/
def Stuck (la : Option T) : List Frame → Prop
  | .not :: _ => reduces .not la = false
  | .and _ :: _ => reduces .and la = false
  | .xor _ :: _ => reduces .xor la = false
  | .pipe _ :: _ => reduces .pipe la = false
  | .colon _ _ :: _ => reduces .colon la = false
  | _ => True

theorem settle_reads (la : Option T) {s : List Frame} {p : List T} (hs : Stack s p) : ∀ (k : Nat) (ts : List T) (e : Expr), Reads k ts e →
    Ends k la → hole s ≤ k → ∃ k' p' ts', Stack (settle la e s).2 p' ∧ Reads k' ts' (settle la e s).1 ∧ Ends k' la ∧
      hole (settle la e s).2 ≤ k' ∧ Stuck la (settle la e s).2 ∧ p ++ ts = p' ++ ts' := by
  induction hs with
  | nil => intro k ts e hr hl hk; exact ⟨k, [], ts, .nil, hr, hl, hk, trivial, rfl⟩
  | query s p a x h1 h2 h3 _ => intro k ts e hr hl hk; exact ⟨k, _, ts, .query s p a x h1 h2 h3, hr, hl, hk, trivial, rfl⟩
  | lparen s p h1 _ => intro k ts e hr hl hk; exact ⟨k, _, ts, .lparen s p h1, hr, hl, hk, trivial, rfl⟩
  | not s p h1 ih =>
    intro k ts e hr hl hk
    simp only [settle]
    by_cases hc : reduces .not la = true
    · rw [if_pos hc]
      have := ih 4 (.not :: ts) (.not e) (.not _ _ (reads_down hk hr)) hc (hole_le s)
      simpa using this
    · rw [if_neg hc]; exact ⟨k, _, ts, .not s p h1, hr, hl, hk, by simpa [Stuck] using hc, rfl⟩
  | and s p a x h1 h2 h3 ih =>
    intro k ts e hr hl hk
    simp only [settle]
    by_cases hc : reduces .and la = true
    · rw [if_pos hc]
      have := ih 3 (a ++ .and :: ts) _ (.and _ _ _ _ h2 (reads_down hk hr)) hc h3
      simpa using this
    · rw [if_neg hc]; exact ⟨k, _, ts, .and s p a x h1 h2 h3, hr, hl, hk, by simpa [Stuck] using hc, rfl⟩
  | xor s p a x h1 h2 h3 ih =>
    intro k ts e hr hl hk
    simp only [settle]
    by_cases hc : reduces .xor la = true
    · rw [if_pos hc]
      have := ih 2 (a ++ .xor :: ts) _ (.xor _ _ _ _ h2 (reads_down hk hr)) hc h3
      simpa using this
    · rw [if_neg hc]; exact ⟨k, _, ts, .xor s p a x h1 h2 h3, hr, hl, hk, by simpa [Stuck] using hc, rfl⟩
  | pipe s p a x h1 h2 h3 ih =>
    intro k ts e hr hl hk
    simp only [settle]
    by_cases hc : reduces .pipe la = true
    · rw [if_pos hc]
      have := ih 1 (a ++ .pipe :: ts) _ (.or _ _ _ _ h2 (reads_down hk hr)) hc h3
      simpa using this
    · rw [if_neg hc]; exact ⟨k, _, ts, .pipe s p a x h1 h2 h3, hr, hl, hk, by simpa [Stuck] using hc, rfl⟩
  | colon s p a b x y h1 h2 h3 h4 ih =>
    intro k ts e hr hl hk
    simp only [settle]
    by_cases hc : reduces .colon la = true
    · rw [if_pos hc]
      have := ih 0 (a ++ .query :: b ++ .colon :: ts) _ (.cond _ _ _ _ _ _ h2 h3 (reads_down hk hr)) hc h4
      simpa using this
    · rw [if_neg hc]; exact ⟨k, _, ts, .colon s p a b x y h1 h2 h3 h4, hr, hl, hk, by simpa [Stuck] using hc, rfl⟩

/-- The tokens that a state of the parser stands for. -/
inductive Read : St → List T → Prop
  | need (s : List Frame) (p : List T) : Stack s p → Read (.need s) p
  | have (s : List Frame) (p ts : List T) (e : Expr) : Stack s p → Reads 5 ts e → Read (.have e s) (p ++ ts)

/-- A token that joins ends the layers above its own. -/
theorem ends_least {k : Nat} {t : T} (h : Ends k (some t)) : (t = .and → 3 ≤ k) ∧ (t = .xor → 2 ≤ k) ∧ (t = .pipe → 1 ≤ k) ∧ (t = .query → 1 ≤ k) := by
  match k with
  | 0 | 1 | 2 => revert h; cases t <;> simp [Ends, reduces, ruleOf, infix?, prec]
  | k + 3 => omega

theorem stuck_hole {t : T} {s : List Frame} (h : Stuck (some t) s) : (t = .and → hole s ≤ 3) ∧ (t = .xor → hole s ≤ 2) ∧ (t = .pipe → hole s ≤ 1) ∧ (t = .query → hole s ≤ 0) := by
  rcases s with _ | ⟨f, s⟩
  · simp [hole]
  · refine ⟨?_, ?_, ?_, ?_⟩ <;> rintro rfl <;> revert h <;> cases f <;> simp [Stuck, reduces, infix?, prec, hole]

theorem step_read {st st' : St} {t : T} {p : List T} (hr : Read st p) (h : step st t = some st') : Read st' (p ++ [t]) := by
  cases hr with
  | need s p hs =>
    cases t <;> simp only [step, Option.some.injEq, reduceCtorEq] at h <;> subst h
    · exact .need _ _ (.not s p hs)
    · exact .need _ _ (.lparen s p hs)
    · exact .have _ _ _ _ hs (.sym _)
    · exact .have _ _ _ _ hs .wild
  | «have» s p ts e hs he =>
    have h5 : Ends 5 (some t) := by cases t <;> rfl
    obtain ⟨k, p', ts', hs', hr', hl', _, hst, heq⟩ := settle_reads (some t) hs 5 ts e he h5 (Nat.le_succ_of_le (hole_le s))
    obtain ⟨l1, l2, l3, l4⟩ := ends_least hl'
    obtain ⟨m1, m2, m3, m4⟩ := stuck_hole hst
    rw [heq]
    generalize hg : settle (some t) e s = g at *
    obtain ⟨e', s'⟩ := g
    cases t <;> simp only [step, hg, Option.some.injEq, reduceCtorEq] at h
    · subst h; rw [List.append_assoc]; exact .need _ _ (.and _ _ _ _ hs' (reads_down (l1 rfl) hr') (m1 rfl))
    · subst h; rw [List.append_assoc]; exact .need _ _ (.xor _ _ _ _ hs' (reads_down (l2 rfl) hr') (m2 rfl))
    · subst h; rw [List.append_assoc]; exact .need _ _ (.pipe _ _ _ _ hs' (reads_down (l3 rfl) hr') (m3 rfl))
    · subst h; rw [List.append_assoc]; exact .need _ _ (.query _ _ _ _ hs' (reads_down (l4 rfl) hr') (m4 rfl))
    · split at h
      all_goals simp_all
      rename_i hq
      obtain ⟨rfl, rfl⟩ := hq
      subst h
      cases hs' with
      | query _ p'' a x h1 h2 h3 =>
        have := Stack.colon _ _ _ _ _ _ h1 h2 (reads_down (Nat.zero_le _) hr') h3
        have := Read.need _ _ this
        simpa using this
    · split at h
      all_goals simp_all
      rename_i hq
      obtain ⟨rfl, rfl⟩ := hq
      subst h
      cases hs' with
      | lparen _ p'' h1 =>
        have := Read.have _ _ _ _ h1 (.paren _ _ (reads_down (Nat.zero_le _) hr'))
        simpa using this

theorem run_read : ∀ (ts : List T) {st st' : St} {p : List T}, Read st p → run st ts = some st' → Read st' (p ++ ts)
  | [], st, st', p, hr, h => by
    simp only [run, Option.some.injEq] at h
    subst h; simpa using hr
  | t :: ts, st, st', p, hr, h => by
    simp only [run] at h
    cases hs : step st t with
    | none => rw [hs] at h; cases h
    | some s1 =>
      rw [hs] at h
      have := run_read ts (step_read hr hs) h
      simpa using this

/-- C114: an expression is read as the layers say, and what the layers do not allow is refused. -/
theorem parse_reads (ts : List T) (e : Expr) : parse ts = some e ↔ Reads 0 ts e := by
  constructor
  · intro h
    unfold parse at h
    split at h
    · rename_i e1 s1 hr
      split at h
      · rename_i e2 hs
        cases h
        cases run_read ts (.need [] [] .nil) hr with
        | «have» _ p u _ h1 h2 =>
          rename_i heq
          obtain ⟨k, p', ts', hs', hr', _, _, _, heq'⟩ := settle_reads none h1 5 u e1 h2 rfl (Nat.le_succ_of_le (hole_le s1))
          rw [hs] at hs' hr'
          cases hs'
          have := reads_down (Nat.zero_le _) hr'
          simp_all
      · cases h
    · cases h
  · intro h
    obtain ⟨e', s', hr, hs⟩ := reads_run h [] (fun t _ x => rfl)
    have h1 := hs none rfl
    simp only [settle] at h1
    simp only [parse, hr, h1]

/-- C114: so no text has two meanings. -/
theorem one_meaning (ts : List T) (e e' : Expr) (h : Reads 0 ts e) (h' : Reads 0 ts e') : e = e' := by
  have := (parse_reads ts e).2 h
  rw [(parse_reads ts e').2 h'] at this
  exact (Option.some.inj this).symm

/-- `a | ~ b & c ? d : ( e ^ f ) ? * : g`. -/
example : parse [.str ['a'], .pipe, .not, .str ['b'], .and, .str ['c'], .query, .str ['d'], .colon, .lparen, .str ['e'], .xor, .str ['f'], .rparen,
    .query, .star, .colon, .str ['g']] =
    some (.cond (.or (.sym ['a']) (.and (.not (.sym ['b'])) (.sym ['c']))) (.sym ['d'])
      (.cond (.xor (.sym ['e']) (.sym ['f'])) .wild (.sym ['g']))) := by decide +kernel

example : Reads 0 [.str ['a'], .and, .str ['b'], .and, .str ['c']] (.and (.and (.sym ['a']) (.sym ['b'])) (.sym ['c'])) :=
  (parse_reads _ _).1 (by decide +kernel)

example : parse [.str ['a'], .str ['b']] = none := by decide +kernel
example : parse [.lparen, .str ['a'], .query, .str ['b'], .rparen] = none := by decide +kernel

end Jbo.DfaExpr
