import Verif.ElideSame
import Verif.ElideSim
/-!
# The reports are right
-/

namespace Jbo.Elide

theorem run_outs {G : Grammar} (es : List Ev) : ∀ {s : St} {v : View}, Sim G s v → Valid G v es → Fits G v es →
    ∃ s' os, run G s es = .ok (s', os) ∧ Outs G v es os ∧ Sim G s' (v.after G es) := by
  induction es with
  | nil => intro s v h _ _; exact ⟨s, [], rfl, rfl, h⟩
  | cons e es ih =>
    intro s v h hv hf
    obtain ⟨hv1, hv2⟩ := hv
    obtain ⟨hf1, hf2⟩ := hf
    rw [run]
    cases e with
    | lex =>
      obtain ⟨s1, l1, l2⟩ := sim_lex h (by simpa [View.allows] using hv1)
      obtain ⟨s2, os, o1, o2, o3⟩ := ih l2 hv2 hf2
      simp only [step, l1, o1]
      exact ⟨s2, _, rfl, ⟨os, rfl, o2⟩, o3⟩
    | advance =>
      obtain ⟨s2, os, o1, o2, o3⟩ := ih (sim_advance h) hv2 hf2
      simp only [step, o1]
      exact ⟨s2, _, rfl, by simpa [Outs] using o2, o3⟩
    | reduce st rule =>
      obtain ⟨s1, l1, l2⟩ := sim_reduce h hf1
      obtain ⟨s2, os, o1, o2, o3⟩ := ih l2 hv2 hf2
      simp only [step, l1, o1]
      exact ⟨s2, _, rfl, by simpa [Outs] using o2, o3⟩
    | shift st =>
      by_cases hr : v.read = v.group.length
      · obtain ⟨s1, r, l1, l2, l3⟩ := sim_shift_last (st := st) h (by simpa [View.allows] using hv1) hr
        obtain ⟨s2, os, o1, o2, o3⟩ := ih l2 hv2 hf2
        simp only [step, l1, o1]
        refine ⟨s2, _, rfl, ?_, o3⟩
        simp only [Outs]
        rw [if_pos hr]
        exact ⟨r, os, rfl, l3, o2⟩
      · have hle := h.le
        obtain ⟨s1, l1, l2⟩ := sim_shift_some (st := st) h (by simpa [View.allows] using hv1) (by omega)
        obtain ⟨s2, os, o1, o2, o3⟩ := ih l2 hv2 hf2
        simp only [step, l1, o1]
        refine ⟨s2, _, rfl, ?_, o3⟩
        simp only [Outs]
        rw [if_neg hr]
        exact o2

/-- **Memory and reports**: for every text and every sequence of events that a parser can produce, the
monitor reads and writes only memory that it has, unless a subscript is reduced just when the buffer is
full; and what it prints after each buffer is right. -/
theorem monitor_reports {G : Grammar} {ws : List Tok} {es : List Ev} (hv : Valid G (View.start ws) es)
    (hf : Fits G (View.start ws) es) : ∃ s os, run G (St.start ws) es = .ok (s, os) ∧ Outs G (View.start ws) es os := by
  obtain ⟨s, os, h1, h2, _⟩ := run_outs es (sim_start G ws) hv hf
  exact ⟨s, os, h1, h2⟩

/-! ## Which words may be left out -/

/-- A word may be left out if it is one of the terminators, without indicators, and without a free modifier
after it unless it is one that a free modifier does not need. -/
theorem elidable_iff (t : Option Node) : (isElidable t).1 = true ↔ ∃ s free, t = some (.cmavo s free false) ∧ s ≠ .other ∧
    (free = false ∨ s ∈ [Sel.dohu, .sehu, .toi, .boi, .veho]) := by
  constructor
  · intro h
    cases t with
    | none => cases h
    | some n => cases n with
      | cmavo s free ind => cases s <;> cases free <;> cases ind <;> first | exact ⟨_, _, rfl, by decide, by decide⟩ | cases h
      | marker b => cases h
      | other => cases h
  · rintro ⟨s, free, rfl, h1, h2⟩
    cases s <;> cases free <;> first | rfl | exact absurd rfl h1 | exact absurd h2 (by decide)

/-- The words that end a number or an expression. -/
theorem boi_iff (t : Tok) : isBoi t = true ↔ ∃ s free ind, t.node = some (.cmavo s free ind) ∧ (s = .boi ∨ s = .veho) := by
  unfold isBoi
  constructor
  · intro h
    cases hn : t.node with
    | none => rw [hn] at h; cases h
    | some n => cases n with
      | cmavo s free ind =>
        rw [hn] at h
        cases s <;> first | exact ⟨_, _, _, rfl, by decide⟩ | cases h
      | marker b => rw [hn] at h; cases h
      | other => rw [hn] at h; cases h
  · rintro ⟨s, free, ind, h, h1⟩
    rw [h]
    rcases h1 with rfl | rfl <;> rfl

/-- A marker for a number. -/
theorem marker_iff (t : Option Node) : isMarker t = true ↔ t = some (.marker true) := by
  unfold isMarker
  constructor
  · intro h
    split at h
    · subst h; rfl
    · cases h
  · rintro rfl; rfl

/-! ## What a report says -/

/-- When all can be omitted nothing else is printed, and the other way round. -/
theorem all_or_patterns {G : Grammar} {v : View} {r : Report} (h : Reports G v r) (ha : r.omitAll = true) :
    r.patterns = [] := by
  cases hp : r.patterns with
  | nil => rfl
  | cons p ps =>
    obtain ⟨h1, h2, _⟩ := (h.patterns p).1 (by rw [hp]; exact List.mem_cons_self)
    exact absurd (h.omitAll.1 ha).2 (h1.2.2 [] (List.nil_sublist _) (Ne.symm h2))

theorem guarded_covers {haz : Nat → Nat → Prop} {last : Nat} (n : Nat) : ∀ {keep : List Nat}, keep.length ≤ n → Choice last keep →
    Guarded haz last keep → ∃ p, p.Sublist keep ∧ Minimal haz last p := by
  induction n with
  | zero =>
    intro keep hn hc hg
    have : keep = [] := List.eq_nil_of_length_eq_zero (by omega)
    subst this
    exact ⟨[], List.Sublist.refl _, hc, hg, fun less hl hne => absurd (List.sublist_nil.1 hl) hne⟩
  | succ n ih =>
    intro keep hn hc hg
    by_cases hm : ∃ less : List Nat, less.Sublist keep ∧ less ≠ keep ∧ Guarded haz last less
    · obtain ⟨less, l1, l2, l3⟩ := hm
      have hlen : less.length < keep.length := by
        rcases Nat.lt_or_ge less.length keep.length with h | h
        · exact h
        · exact absurd (l1.eq_of_length_le h) l2
      obtain ⟨p, p1, p2⟩ := ih (keep := less) (by omega) ⟨hc.1.sublist l1, fun k hk => hc.2 k (l1.subset hk)⟩ l3
      exact ⟨p, p1.trans l1, p2⟩
    · exact ⟨keep, List.Sublist.refl _, hc, hg, fun less h1 h2 h3 => hm ⟨less, h1, h2, h3⟩⟩

/-- Every choice of words to keep that is enough, and that leaves something out, contains one that is
printed, unless everything can be left out. -/
theorem report_covers {G : Grammar} {v : View} {r : Report} (h : Reports G v r) {keep : List Nat} (hc : Choice v.last keep)
    (hg : Guarded (Hazard G v) v.last keep) (hless : keep.length < v.last) :
    r.omitAll = true ∨ ∃ p ∈ r.patterns, p.Sublist keep := by
  obtain ⟨p, p1, p2⟩ := guarded_covers keep.length (Nat.le_refl _) hc hg
  by_cases hp : p = []
  · subst hp
    exact Or.inl (h.omitAll.2 ⟨by omega, p2.2.1⟩)
  · exact Or.inr ⟨p, (h.patterns p).2 ⟨p2, hp, by have := p1.length_le; omega⟩, p1⟩

/-! ## The flag about numbers -/

theorem cur_one {G : Grammar} (es : List Ev) : ∀ (v : View),
    (v.group.length = 1 → v.cur = G.paEtc.contains (v.group.headD ⟨0, none, 0⟩).value) →
    (v.after G es).group.length = 1 → (v.after G es).cur = G.paEtc.contains ((v.after G es).group.headD ⟨0, none, 0⟩).value := by
  induction es with
  | nil => intro v h; exact h
  | cons e es ih =>
    intro v h
    apply ih (v.step G e)
    cases e with
    | lex =>
      unfold View.step
      simp only
      split
      · exact h
      · simp only
        intro h1
        rw [if_pos h1]
    | advance => exact h
    | shift st => exact h
    | reduce st rule => exact h

/-- When the buffer before held one word, the flag says whether that word ends a number. -/
theorem number_flag_partial {G : Grammar} {ws : List Tok} {es : List Ev} {v : View} (hv : v = (View.start ws).after G es)
    (h1 : v.group.length = 1) (hr : v.read = 1) :
    (v.step G .lex).pa = G.paEtc.contains (v.group.headD ⟨0, none, 0⟩).value := by
  have := cur_one (G := G) es (View.start ws) (by intro h; cases h) (by rw [← hv]; exact h1)
  rw [← hv] at this
  unfold View.step
  rw [if_neg (by omega)]
  exact this

/-! ## Cases -/

namespace Case

def ku : Tok := ⟨10, some (.cmavo .ku false false), 0⟩
def vau : Tok := ⟨11, some (.cmavo .vau false false), 0⟩
def boi : Tok := ⟨12, some (.cmavo .boi false false), 0⟩
def boiFree : Tok := ⟨12, some (.cmavo .boi true false), 0⟩
def cu : Tok := ⟨13, some (.cmavo .cu false false), 0⟩
def pa : Tok := ⟨14, some (.cmavo .other false false), 0⟩
def num : Tok := ⟨15, some (.marker true), 0⟩
def w : Tok := ⟨1, some .other, 0⟩

/-- In state 5 a `w` can be shifted, in state 6 a `vau`, in state 7 both. -/
def g : Grammar where
  canShift st t := (st == 5 && t == 1) || (st == 6 && t == 11) || (st == 7 && (t == 1 || t == 11))
  subscript r := r == 9
  cu := 13
  paEtc := [14]
  eofMark := 99
  resume t := t == w

/-- Reading and shifting a number of words in the same state. -/
def go (st : Nat) : Nat → List Ev
  | 0 => []
  | k + 1 => .lex :: .shift st :: go st k

def reports : Except Crash (St × List Out) → List (Bool × List (List Nat))
  | .ok (_, os) => os.filterMap fun o => match o with | .report r => some (r.omitAll, r.patterns) | _ => none
  | .error _ => []

end Case

open Case

instance validDec (G : Grammar) : (es : List Ev) → (v : View) → Decidable (Valid G v es)
  | [], _ => .isTrue trivial
  | e :: es, v =>
    have := validDec G es (v.step G e)
    inferInstanceAs (Decidable (v.allows e = true ∧ Valid G (v.step G e) es))

instance (G : Grammar) (v : View) : (e : Ev) → Decidable (Full G v e)
  | .lex => inferInstanceAs (Decidable False)
  | .shift _ => inferInstanceAs (Decidable False)
  | .advance => inferInstanceAs (Decidable False)
  | .reduce _ r => inferInstanceAs (Decidable (G.subscript r = true ∧ v.ahead = false ∧ v.read = v.group.length ∧ 32 ∣ v.group.length))

instance fitsDec (G : Grammar) : (es : List Ev) → (v : View) → Decidable (Fits G v es)
  | [], _ => .isTrue trivial
  | e :: es, v =>
    have := fitsDec G es (v.step G e)
    inferInstanceAs (Decidable (¬ Full G v e ∧ Fits G (v.step G e) es))

example : SkipsLate g ⟨[ku, vau, w, ku], false⟩ false [.lex, .shift 5, .reduce 7 1, .lex, .lex, .advance, .shift 0, .lex] :=
  ⟨rfl, trivial⟩
example : plain g ⟨[ku, vau, w, ku], false⟩ [.lex, .shift 5, .reduce 7 1, .lex, .lex, .advance, .shift 0, .lex] =
      [ku, vau, w, ⟨99, none, 0⟩] := by decide +kernel

/-- When words are skipped while there are words in the buffer, the parser gets other words. -/
theorem skipping_early : ∃ es s os, run g (St.start [ku, vau, w]) es = .ok (s, os) ∧
    words os ≠ plain g ⟨[ku, vau, w], false⟩ es :=
  ⟨[.lex, .advance, .lex], _, _, rfl, by decide +kernel⟩

/-- A sequence with a subscript, and the words `ku vau w`. -/
def Case.es : List Ev := [.lex, .reduce 5 0, .shift 0, .lex, .reduce 0 9, .shift 0, .lex, .shift 0]

example : Valid g (View.start [ku, vau, w]) es ∧ Fits g (View.start [ku, vau, w]) es := by decide +kernel
/-- One of the two words is enough. -/
example : reports (run g (St.start [ku, vau, w]) es) = [(false, [[0], [1]])] := by decide +kernel
/-- Both can be omitted. -/
example : reports (run g (St.start [ku, vau, w]) (go 0 3)) = [(true, [])] := by decide +kernel
/-- The second has to stay. -/
example : reports (run g (St.start [ku, vau, w]) [.lex, .shift 0, .lex, .reduce 5 0, .shift 0, .lex, .shift 0]) =
    [(false, [[1]])] := by decide +kernel
/-- None can be omitted. -/
example : reports (run g (St.start [ku, vau, w]) [.lex, .reduce 6 0, .shift 0, .lex, .reduce 5 0, .shift 0, .lex, .shift 0]) =
    [(false, [])] := by decide +kernel
/-- A `cu` is no obstacle to itself. -/
example : reports (run g (St.start [cu, w]) (go 5 2)) = [(true, [])] ∧ reports (run g (St.start [ku, w]) (go 5 2)) = [(false, [])] := by
  decide +kernel
/-- With a free modifier after `boi` only the words before it count. -/
example : reports (run g (St.start [ku, boiFree, w]) (go 0 3)) = [(true, [])] := by decide +kernel

/-- **Memory**: a subscript reduced when 32 words are in the buffer and have been shifted is recorded outside
`flags`. -/
theorem subscript_overflow : Valid g (View.start (List.replicate 31 ku ++ [w])) (go 0 32 ++ [.reduce 0 9]) ∧
    run g (St.start (List.replicate 31 ku ++ [w])) (go 0 32 ++ [.reduce 0 9]) = .error .bounds :=
  ⟨by decide +kernel, rfl⟩

/-- With 31 words it is not. -/
example : ∃ x, run g (St.start (List.replicate 30 ku ++ [w])) (go 0 31 ++ [.reduce 0 9]) = .ok x := ⟨_, rfl⟩

/-- **Numbers**: between a number and a number with `boi` first, `boi` cannot be omitted; but when the word
before is itself in a buffer with others, the report says that it can. -/
theorem number_flag_missed : reports (run g (St.start [pa, boi, num]) (go 0 3)) = [(false, []), (false, [])] ∧
    Valid g (View.start [ku, pa, boi, num]) (go 0 4) ∧
    reports (run g (St.start [ku, pa, boi, num]) (go 0 4)) = [(true, []), (true, [])] := by
  decide +kernel

/-- And an old number is held against a later `boi` that does not follow a number. -/
theorem number_flag_stale : reports (run g (St.start [w, boi, num]) (go 0 3)) = [(false, []), (true, [])] ∧
    Valid g (View.start [pa, ku, w, boi, num]) (go 0 5) ∧
    reports (run g (St.start [pa, ku, w, boi, num]) (go 0 5)) = [(false, []), (true, []), (false, [])] := by
  decide +kernel

end Jbo.Elide
