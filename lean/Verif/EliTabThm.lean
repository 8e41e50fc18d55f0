import Verif.EliTabSpec
/-!
# The table says what the report says
-/

namespace Jbo.EliTab

/-! ## Bits -/

theorem foldl_bits (lo : Nat) (toks : List Nat) : ∀ (f : Nat → Nat) (b j : Nat), j < 32 →
    ((toks.foldl (fun bits t => fun b =>
      if b = (t - lo) / 32 then bits b ||| 1 <<< ((t - lo) % 32) else bits b) f) b).testBit j =
      ((f b).testBit j || toks.any (fun t => (t - lo) / 32 == b && (t - lo) % 32 == j)) := by
  induction toks with
  | nil => intro f b j _; simp
  | cons t ts ih =>
    intro f b j hj
    rw [List.foldl_cons, ih _ b j hj, List.any_cons, ← Bool.or_assoc]
    congr 1
    by_cases hb : b = (t - lo) / 32
    · subst hb
      simp only [if_true, Nat.testBit_or, Nat.one_shiftLeft, Nat.testBit_two_pow, beq_self_eq_true, Bool.true_and]
      by_cases h : (t - lo) % 32 = j <;> simp [h]
    · have : ((t - lo) / 32 == b) = false := by simp; exact fun e => hb e.symm
      simp [hb, this]

theorem bitsOf_bit (lo : Nat) (toks : List Nat) (b j : Nat) (hj : j < 32) :
    (bitsOf lo toks b).testBit j = toks.any (fun t => (t - lo) / 32 == b && (t - lo) % 32 == j) := by
  rw [bitsOf, foldl_bits lo toks _ b j hj]; simp

theorem flat_len {α : Type} (f : Nat → Nat → α) (B n : Nat) :
    ((List.range n).flatMap (fun q => (List.range B).map (f q))).length = n * B := by
  induction n with
  | zero => simp
  | succ n ih => rw [List.range_succ, List.flatMap_append, List.length_append, ih, Nat.add_mul]; simp

theorem flat_get {α : Type} (f : Nat → Nat → α) (B : Nat) (hB : 0 < B) : ∀ (n s b : Nat), s < n → b < B →
    ((List.range n).flatMap (fun q => (List.range B).map (f q)))[s * B + b]? = some (f s b) := by
  intro n
  induction n with
  | zero => intro s b h; omega
  | succ n ih =>
    intro s b hs hb
    have hlen := flat_len f B n
    rw [List.range_succ, List.flatMap_append]
    by_cases h : s < n
    · rw [List.getElem?_append_left]
      · exact ih s b h hb
      · rw [hlen]
        have : (s + 1) * B ≤ n * B := Nat.mul_le_mul_right B h
        rw [Nat.add_mul] at this; omega
    · have : s = n := by omega
      subst this
      rw [List.getElem?_append_right (by rw [hlen]; omega), hlen]
      have : s * B + b - s * B = b := by omega
      rw [this]
      simp [hb]

/-! ## The codes -/

theorem range_fold (ts : List Term) : ∀ r : Nat × Nat, r.1 ≤ r.2 →
    let r' := ts.foldl (fun r u => (if r.1 > u.code then u.code else r.1,
      if r.2 < u.code then u.code else r.2)) r
    r'.1 ≤ r.1 ∧ r.2 ≤ r'.2 ∧ r'.1 ≤ r'.2 ∧ ∀ u ∈ ts, r'.1 ≤ u.code ∧ u.code ≤ r'.2 := by
  induction ts with
  | nil => intro r h; simp [h]
  | cons t ts ih =>
    intro r h
    rw [List.foldl_cons]
    obtain ⟨h1, h2, h3, h4⟩ := ih (if r.1 > t.code then t.code else r.1, if r.2 < t.code then t.code else r.2)
      (by show (if r.1 > t.code then t.code else r.1) ≤ (if r.2 < t.code then t.code else r.2); split <;> split <;> omega)
    have a1 : (if r.1 > t.code then t.code else r.1) ≤ r.1 ∧ (if r.1 > t.code then t.code else r.1) ≤ t.code := by
      split <;> omega
    have a2 : r.2 ≤ (if r.2 < t.code then t.code else r.2) ∧ t.code ≤ (if r.2 < t.code then t.code else r.2) := by
      split <;> omega
    refine ⟨Nat.le_trans h1 a1.1, Nat.le_trans a2.1 h2, h3, ?_⟩
    intro u hu
    rcases List.mem_cons.1 hu with rfl | hu
    · exact ⟨Nat.le_trans h1 a1.2, Nat.le_trans a2.2 h2⟩
    · exact h4 u hu

theorem codeRange_bounds {ts : List Term} {lo hi : Nat} (h : codeRange ts = some (lo, hi)) :
    lo ≤ hi ∧ ∀ u ∈ ts, lo ≤ u.code ∧ u.code ≤ hi := by
  cases ts with
  | nil => simp [codeRange] at h
  | cons t ts =>
    simp only [codeRange, Option.some.injEq] at h
    have := range_fold ts (t.code, t.code) (Nat.le_refl _)
    simp only [h] at this
    obtain ⟨h1, h2, h3, h4⟩ := this
    refine ⟨h3, ?_⟩
    intro u hu
    rcases List.mem_cons.1 hu with rfl | hu
    · exact ⟨h1, h2⟩
    · exact h4 u hu

theorem codeOf_mem {ts : List Term} {x : String} {c : Nat} (h : codeOf ts x = some c) :
    ∃ u ∈ ts, u.name = x ∧ u.code = c := by
  induction ts with
  | nil => simp [codeOf] at h
  | cons t ts ih =>
    rw [codeOf] at h
    split at h
    · rename_i d hd
      simp only [Option.some.injEq] at h; subst h
      obtain ⟨u, hu, e⟩ := ih hd
      exact ⟨u, List.mem_cons_of_mem _ hu, e⟩
    · split at h
      · rename_i hn; simp only [Option.some.injEq] at h
        exact ⟨t, List.mem_cons_self, hn, h⟩
      · cases h

/-! ## The states -/

/-- The tokens listed for `q` when the lines so far are under state `p`. -/
theorem toks_fold (ts : List Term) (ls : List StateLine) : ∀ (s : TokSt) (q c : Nat),
    c ∈ (ls.foldl (tokLine ts) s).toks q ↔ c ∈ s.toks q ∨
      (∃ x, codeOf ts x = some c ∧ (Lists ls q x ∨
        (s.state = q ∧ ∃ mid post to, ls = mid ++ .shift x to :: post ∧ ∀ n, .state n ∉ mid))) := by
  induction ls with
  | nil =>
    intro s q c
    constructor
    · exact Or.inl
    · rintro (h | ⟨x, _, ⟨pre, mid, post, to, e, _⟩ | ⟨_, mid, post, to, e, _⟩⟩)
      · exact h
      · simp at e
      · simp at e
  | cons l ls ih =>
    intro s q c
    rw [List.foldl_cons, ih]
    cases l with
    | state n =>
      simp only [tokLine]
      constructor
      · rintro (h | ⟨x, hc, ⟨pre, mid, post, to, e, hm⟩ | ⟨hs, mid, post, to, e, hm⟩⟩)
        · exact Or.inl h
        · exact Or.inr ⟨x, hc, Or.inl ⟨.state n :: pre, mid, post, to, by rw [e]; rfl, hm⟩⟩
        · exact Or.inr ⟨x, hc, Or.inl ⟨[], mid, post, to, by rw [e, hs]; rfl, hm⟩⟩
      · rintro (h | ⟨x, hc, ⟨pre, mid, post, to, e, hm⟩ | ⟨hs, mid, post, to, e, hm⟩⟩)
        · exact Or.inl h
        · cases pre with
          | nil =>
            simp only [List.nil_append, List.cons_append, List.cons.injEq, StateLine.state.injEq] at e
            exact Or.inr ⟨x, hc, Or.inr ⟨e.1, mid, post, to, e.2, hm⟩⟩
          | cons p pre =>
            simp only [List.cons_append, List.cons.injEq] at e
            exact Or.inr ⟨x, hc, Or.inl ⟨pre, mid, post, to, e.2, hm⟩⟩
        · cases mid with
          | nil => simp at e
          | cons p mid =>
            simp only [List.cons_append, List.cons.injEq] at e
            exact absurd (by rw [e.1]; exact List.mem_cons_self) (hm n)
    | shift y to0 =>
      have hstep : c ∈ (tokLine ts s (.shift y to0)).toks q ↔
          c ∈ s.toks q ∨ (s.state = q ∧ codeOf ts y = some c) := by
        simp only [tokLine]
        split
        · rename_i d hd
          by_cases hq : q = s.state
          · simp only [hq, if_true, List.mem_append, List.mem_singleton, true_and, hd, Option.some.injEq]
            constructor
            · rintro (h | h)
              · exact Or.inl h
              · exact Or.inr h.symm
            · rintro (h | h)
              · exact Or.inl h
              · exact Or.inr h.symm
          · simp only [hq, if_false]
            constructor
            · exact Or.inl
            · rintro (h | h)
              · exact h
              · exact absurd h.1.symm hq
        · rename_i hd; simp [hd]
      have hst : (tokLine ts s (.shift y to0)).state = s.state := by
        simp only [tokLine]; split <;> rfl
      rw [hstep, hst]
      constructor
      · rintro ((h | ⟨hs, hc⟩) | ⟨x, hc, ⟨pre, mid, post, to, e, hm⟩ | ⟨hs, mid, post, to, e, hm⟩⟩)
        · exact Or.inl h
        · exact Or.inr ⟨y, hc, Or.inr ⟨hs, [], ls, to0, rfl, by simp⟩⟩
        · exact Or.inr ⟨x, hc, Or.inl ⟨.shift y to0 :: pre, mid, post, to, by rw [e]; rfl, hm⟩⟩
        · refine Or.inr ⟨x, hc, Or.inr ⟨hs, .shift y to0 :: mid, post, to, by rw [e]; rfl, ?_⟩⟩
          intro n hn
          rcases List.mem_cons.1 hn with h | h
          · cases h
          · exact hm n h
      · rintro (h | ⟨x, hc, ⟨pre, mid, post, to, e, hm⟩ | ⟨hs, mid, post, to, e, hm⟩⟩)
        · exact Or.inl (Or.inl h)
        · cases pre with
          | nil => simp at e
          | cons p pre =>
            simp only [List.cons_append, List.cons.injEq] at e
            exact Or.inr ⟨x, hc, Or.inl ⟨pre, mid, post, to, e.2, hm⟩⟩
        · cases mid with
          | nil =>
            simp only [List.nil_append, List.cons.injEq, StateLine.shift.injEq] at e
            exact Or.inl (Or.inr ⟨hs, by rw [e.1.1]; exact hc⟩)
          | cons p mid =>
            simp only [List.cons_append, List.cons.injEq] at e
            exact Or.inr ⟨x, hc, Or.inr ⟨hs, mid, post, to, e.2, fun n hn => hm n (List.mem_cons_of_mem _ hn)⟩⟩

theorem state_fold (ts : List Term) (ls : List StateLine) : ∀ s : TokSt,
    (ls.foldl (tokLine ts) s).state =
      ((ls.filterMap stateNo).getLast?).getD s.state := by
  induction ls with
  | nil => intro s; rfl
  | cons l ls ih =>
    intro s
    rw [List.foldl_cons, ih]
    cases l with
    | state n =>
      simp only [tokLine, List.filterMap_cons, stateNo, List.getLast?_cons, Option.getD_some]
    | shift x to =>
      have : (tokLine ts s (.shift x to)).state = s.state := by
        simp only [tokLine]; split <;> rfl
      simp only [List.filterMap_cons, stateNo, this]

theorem toks_listed {ts : List Term} {ls : List StateLine} {m : Nat} (hs : InOrder m ls) (q c : Nat) :
    c ∈ (readStates ts ls).toks q ↔ ∃ x, codeOf ts x = some c ∧ Lists ls q x := by
  rw [readStates, toks_fold]
  constructor
  · rintro (h | ⟨x, hc, h | ⟨_, mid, post, to, e, hm⟩⟩)
    · simp at h
    · exact ⟨x, hc, h⟩
    · have h0 := hs.2
      cases mid with
      | nil => rw [e] at h0; simp at h0
      | cons p mid =>
        rw [e] at h0
        simp only [List.cons_append, List.head?_cons, Option.some.injEq] at h0
        exact absurd (by rw [h0]; exact List.mem_cons_self) (hm 0)
  · rintro ⟨x, hc, h⟩
    exact Or.inr ⟨x, hc, Or.inl h⟩

theorem last_state {ts : List Term} {ls : List StateLine} {m : Nat} (hs : InOrder m ls) :
    (readStates ts ls).state = m := by
  rw [readStates, state_fold, hs.1, List.range_succ]
  simp

theorem toks_bounds {ts : List Term} {ls : List StateLine} {lo hi : Nat} (hr : codeRange ts = some (lo, hi))
    {m : Nat} (hs : InOrder m ls) {q c : Nat} (h : c ∈ (readStates ts ls).toks q) : lo ≤ c ∧ c ≤ hi := by
  obtain ⟨x, hc, _⟩ := (toks_listed hs q c).1 h
  obtain ⟨u, hu, _, e⟩ := codeOf_mem hc
  rw [← e]
  exact (codeRange_bounds hr).2 u hu

/-- **The table**: for every report of bison, for every state in it and every code between the lowest and
the highest, the test of `elide.c` stays inside the table and says yes just when the report lists a shift
of a token with this code in this state. -/
theorem can_shift_exact {ts : List Term} {ls : List StateLine} {m lo hi : Nat} {t : Table}
    (hb : build ts ls = some t) (hr : codeRange ts = some (lo, hi)) (hs : InOrder m ls)
    {q c : Nat} (hq : q ≤ m) (h1 : lo ≤ c) (h2 : c ≤ hi) :
    ∃ b, canShiftInState t q c = .ok b ∧ (b = true ↔ ∃ x, codeOf ts x = some c ∧ Lists ls q x) := by
  simp only [build, hr, Option.some.injEq] at hb
  subst hb
  have hblk : (c - lo) / 32 < 1 + (hi - lo + 1) / 32 := by omega
  have e1 : ((c : Int) - (lo : Int)) = ((c - lo : Nat) : Int) := by omega
  have e2 : ((c - lo : Nat) : Int) / 32 + (q : Int) * ((1 + (hi - lo + 1) / 32 : Nat) : Int)
      = ((q * (1 + (hi - lo + 1) / 32) + (c - lo) / 32 : Nat) : Int) := by
    push_cast; omega
  have e3 : (((c - lo : Nat) : Int) % 32).toNat = (c - lo) % 32 := by omega
  have hget := flat_get (fun q => bitsOf lo ((readStates ts ls).toks q)) (1 + (hi - lo + 1) / 32) (by omega)
    ((readStates ts ls).state + 1) q ((c - lo) / 32) (by rw [last_state hs]; omega) hblk
  simp only [canShiftInState]
  rw [e1, e2, e3, if_neg (by omega), Int.toNat_natCast, hget]
  refine ⟨_, rfl, ?_⟩
  rw [bitsOf_bit _ _ _ _ (Nat.mod_lt _ (by decide)), ← toks_listed hs, List.any_eq_true]
  constructor
  · rintro ⟨u, hu, h⟩
    simp only [Bool.and_eq_true, beq_iff_eq] at h
    have hbd := toks_bounds hr hs hu
    have : u = c := by omega
    exact this ▸ hu
  · intro h
    exact ⟨c, h, by simp⟩

/-- **Codes below the table**: the end of the input has the code 0, which is not listed.  The test then
reads the bits of an earlier state, or memory before the table. -/
theorem below_table (t : Table) (q k : Nat) (ho : t.offset = 32 * k) :
    canShiftInState t q 0 = if q * t.blocks < k then .error .bounds
      else match t.elitab[q * t.blocks - k]? with
        | none => .error .bounds
        | some w => .ok (w.testBit 0) := by
  have e1 : (((0 : Nat) : Int) - (t.offset : Int)) / 32 = -(k : Int) := by rw [ho]; omega
  have e2 : ((((0 : Nat) : Int) - (t.offset : Int)) % 32).toNat = 0 := by rw [ho]; omega
  simp only [canShiftInState]
  rw [e1, e2]
  have e3 : (q : Int) * (t.blocks : Int) = ((q * t.blocks : Nat) : Int) := by push_cast; rfl
  rw [e3]
  by_cases h : q * t.blocks < k
  · rw [if_pos (by omega), if_pos h]
  · rw [if_neg (by omega), if_neg h]
    have : (-(k : Int) + ((q * t.blocks : Nat) : Int)).toNat = q * t.blocks - k := by omega
    rw [this]
    cases t.elitab[q * t.blocks - k]? <;> rfl

/-! ## The rules for subscripts -/

theorem fold_alts (n k : Nat) (s : SubSt) (hm : s.matching = true) :
    ((List.range k).map (fun i => RuleLine.alt (n + 1 + i))).foldl subLine s =
      { s with hi := if k = 0 then s.hi else some (n + k) } := by
  induction k with
  | zero => rfl
  | succ k ih =>
    rw [List.range_succ, List.map_append, List.foldl_append, ih]
    simp only [List.map_cons, List.map_nil, List.foldl_cons, List.foldl_nil, subLine, hm, if_true]
    have : n + 1 + k = n + (k + 1) := by omega
    simp [this]

theorem fold_alts_off (n k : Nat) (s : SubSt) (hm : s.matching = false) :
    ((List.range k).map (fun i => RuleLine.alt (n + 1 + i))).foldl subLine s = s := by
  induction k with
  | zero => rfl
  | succ k ih =>
    rw [List.range_succ, List.map_append, List.foldl_append, ih]
    simp [subLine, hm]

theorem fold_group (g : Group) (n : Nat) (s : SubSt) :
    (g.lines n ++ [RuleLine.blank]).foldl subLine s =
      if g.lhs = "subscript" then ⟨some n, if g.more = 0 then s.hi else some (n + g.more), false⟩
      else { s with matching := false } := by
  rw [List.foldl_append, Group.lines, List.foldl_cons]
  by_cases h : g.lhs = "subscript"
  · simp only [subLine, h, if_true, List.foldl_cons, List.foldl_nil]
    rw [fold_alts n g.more _ rfl]
  · simp only [subLine, h, if_false, List.foldl_cons, List.foldl_nil]
    rw [fold_alts_off n g.more _ rfl]

theorem fold_groups_other (gs : List Group) : ∀ (n : Nat) (s : SubSt), s.matching = false →
    (∀ g ∈ gs, g.lhs ≠ "subscript") → (reportRules n gs).foldl subLine s = s := by
  induction gs with
  | nil => intro n s _ _; rfl
  | cons g gs ih =>
    intro n s hm h
    have e : reportRules n (g :: gs) = (g.lines n ++ [RuleLine.blank]) ++ reportRules (n + 1 + g.more) gs := by
      simp [reportRules]
    rw [e, List.foldl_append, fold_group, if_neg (h g List.mem_cons_self)]
    have : ({ s with matching := false } : SubSt) = s := by cases s; simp_all
    rw [this]
    exact ih _ s hm (fun g hg => h g (List.mem_cons_of_mem _ hg))

theorem lhs_other (gs : List Group) : ∀ (n r : Nat), (∀ g ∈ gs, g.lhs ≠ "subscript") →
    lhsOf n gs r ≠ some "subscript" := by
  induction gs with
  | nil => intro n r _; simp [lhsOf]
  | cons g gs ih =>
    intro n r h
    rw [lhsOf]
    split
    · simp
    · split
      · simp only [ne_eq, Option.some.injEq]; exact h g List.mem_cons_self
      · exact ih _ r (fun g hg => h g (List.mem_cons_of_mem _ hg))

theorem lhs_below (gs : List Group) (n r : Nat) (h : r < n) : lhsOf n gs r = none := by
  cases gs with
  | nil => rfl
  | cons g gs => rw [lhsOf, if_pos h]

theorem sub_groups (a b : List Group) (k : Nat) (ha : ∀ g ∈ a, g.lhs ≠ "subscript")
    (hb : ∀ g ∈ b, g.lhs ≠ "subscript") : ∀ (n : Nat) (s : SubSt), s.matching = false →
    ∃ p, n ≤ p ∧ (reportRules n (a ++ ⟨"subscript", k⟩ :: b)).foldl subLine s =
        ⟨some p, if k = 0 then s.hi else some (p + k), false⟩ ∧
      ∀ r, lhsOf n (a ++ ⟨"subscript", k⟩ :: b) r = some "subscript" ↔ p ≤ r ∧ r ≤ p + k := by
  induction a with
  | nil =>
    intro n s hm
    refine ⟨n, Nat.le_refl _, ?_, ?_⟩
    · have e : reportRules n ([] ++ ⟨"subscript", k⟩ :: b) =
          ((⟨"subscript", k⟩ : Group).lines n ++ [RuleLine.blank]) ++ reportRules (n + 1 + k) b := by
        simp [reportRules]
      rw [e, List.foldl_append, fold_group, if_pos rfl]
      exact fold_groups_other b _ _ rfl hb
    · intro r
      rw [List.nil_append, lhsOf]
      split
      · constructor
        · intro h; cases h
        · omega
      · split
        · constructor
          · intro _; simp only at *; omega
          · intro _; rfl
        · constructor
          · intro h; exact absurd h (lhs_other b _ r hb)
          · simp only at *; omega
  | cons g a ih =>
    intro n s hm
    have hg := ha g List.mem_cons_self
    obtain ⟨p, h1, h2, h3⟩ := ih (fun g hg => ha g (List.mem_cons_of_mem _ hg)) (n + 1 + g.more) s hm
    refine ⟨p, by omega, ?_, ?_⟩
    · have e : reportRules n (g :: a ++ ⟨"subscript", k⟩ :: b) =
          (g.lines n ++ [RuleLine.blank]) ++ reportRules (n + 1 + g.more) (a ++ ⟨"subscript", k⟩ :: b) := by
        simp [reportRules]
      rw [e, List.foldl_append, fold_group, if_neg hg]
      have : ({ s with matching := false } : SubSt) = s := by cases s; simp_all
      rw [this]
      exact h2
    · intro r
      rw [List.cons_append, lhsOf]
      split
      · constructor
        · intro h; cases h
        · omega
      · split
        · constructor
          · intro h; simp only [Option.some.injEq] at h; exact absurd h hg
          · omega
        · exact h3 r

/-- **The range of the rules for subscripts**: in every report in which `subscript` is one group with at
least two alternatives, the test of `elide.c:582` picks out just the rules whose left side is `subscript`. -/
theorem subscript_exact (n : Nat) (a b : List Group) (k : Nat) (ha : ∀ g ∈ a, g.lhs ≠ "subscript")
    (hb : ∀ g ∈ b, g.lhs ≠ "subscript") (hk : 0 < k) :
    ∃ r, subRange (reportRules n (a ++ ⟨"subscript", k⟩ :: b)) = some r ∧
      ∀ yyn, isSubscript r yyn = true ↔ lhsOf n (a ++ ⟨"subscript", k⟩ :: b) yyn = some "subscript" := by
  obtain ⟨p, _, h2, h3⟩ := sub_groups a b k ha hb n ⟨none, none, false⟩ rfl
  refine ⟨(p, p + k), ?_, ?_⟩
  · rw [subRange, h2, if_neg (by omega)]
  · intro yyn
    rw [h3]
    simp [isSubscript]

/-- With a single alternative the script does not find the end of the range. -/
theorem single_subscript (n : Nat) (a b : List Group) (ha : ∀ g ∈ a, g.lhs ≠ "subscript")
    (hb : ∀ g ∈ b, g.lhs ≠ "subscript") : subRange (reportRules n (a ++ ⟨"subscript", 0⟩ :: b)) = none := by
  obtain ⟨p, _, h2, _⟩ := sub_groups a b 0 ha hb n ⟨none, none, false⟩ rfl
  rw [subRange, h2, if_pos rfl]

/-! ## The monitor with this table -/

/-- The grammar that `elide.c` sees through its tables; a read outside the table counts as no. -/
def withTable (G : Elide.Grammar) (t : Table) (r : Nat × Nat) : Elide.Grammar :=
  { G with
    canShift := fun q c => match canShiftInState t q c with
      | .ok b => b
      | .error _ => false
    subscript := isSubscript r }

/-- **The parameters of the monitor**: for the tables made from a report, what the monitor is told about
shifts and about rules is what the report says. -/
theorem grammar_of_report (G : Elide.Grammar) {ts : List Term} {ls : List StateLine} {m lo hi : Nat} {t : Table}
    {n k : Nat} {a b : List Group} {r : Nat × Nat}
    (hb : build ts ls = some t) (hr : codeRange ts = some (lo, hi)) (hs : InOrder m ls)
    (hrr : subRange (reportRules n (a ++ ⟨"subscript", k⟩ :: b)) = some r)
    (h1 : ∀ g ∈ a, g.lhs ≠ "subscript") (h2 : ∀ g ∈ b, g.lhs ≠ "subscript") (hk : 0 < k) :
    (∀ q ≤ m, ∀ x c, codeOf ts x = some c → ((withTable G t r).canShift q c = true ↔
      ∃ y, codeOf ts y = some c ∧ Lists ls q y)) ∧
    ∀ yyn, (withTable G t r).subscript yyn = true ↔
      lhsOf n (a ++ ⟨"subscript", k⟩ :: b) yyn = some "subscript" := by
  constructor
  · intro q hq x c hx
    obtain ⟨u, hu, _, e⟩ := codeOf_mem hx
    have hbd := (codeRange_bounds hr).2 u hu
    rw [e] at hbd
    obtain ⟨v, hv, hiff⟩ := can_shift_exact hb hr hs hq hbd.1 hbd.2
    simp only [withTable, hv]
    exact hiff
  · intro yyn
    obtain ⟨r', e, h⟩ := subscript_exact n a b k h1 h2 hk
    rw [hrr] at e
    simp only [Option.some.injEq] at e
    subst e
    exact h yyn

/-! ## Cases -/

def termsEx : List Term := [⟨"error", 256⟩, ⟨"BOI", 258⟩, ⟨"XI", 300⟩, ⟨"KU", 290⟩]
def statesEx : List StateLine :=
  [.state 0, .shift "XI" 1, .state 1, .shift "BOI" 2, .shift "KU" 3, .state 2, .state 3, .shift "XI" 1]
def tableEx : Table := ⟨256, 2, [0, 4096, 4, 4, 0, 0, 0, 4096]⟩

example : build termsEx statesEx = some tableEx := by decide +kernel
example : codeRange termsEx = some (256, 300) := by decide +kernel
example : InOrder 3 statesEx := by unfold InOrder; decide +kernel
example : canShiftInState tableEx 1 290 = .ok true := by rfl
example : canShiftInState tableEx 1 300 = .ok false := by rfl
example : Lists statesEx 1 "KU" := ⟨[.state 0, .shift "XI" 1], [.shift "BOI" 2], _, 3, rfl, by simp⟩
/-- The end of the input in the first states is looked up before the table; later the answer is that of
another state. -/
example : canShiftInState ⟨256, 6, List.replicate 30 1⟩ 1 0 = .error .bounds ∧
    canShiftInState ⟨256, 6, List.replicate 30 1⟩ 2 0 = .ok true := ⟨rfl, rfl⟩

def groupsEx : List Group := [⟨"all", 0⟩, ⟨"subscript", 2⟩, ⟨"number", 1⟩]
example : subRange (reportRules 1 groupsEx) = some (2, 4) := by decide +kernel
example : lhsOf 1 groupsEx 4 = some "subscript" ∧ lhsOf 1 groupsEx 5 = some "number" := by decide +kernel

end Jbo.EliTab
