import Verif.ElideAbs
/-!
# The monitor follows the parser
-/

namespace Jbo.Elide

theorem Bits.mono {conf : List (List (Option Nat))} {L L' : Nat} {B : Nat → Nat → Prop} (h : Bits conf L B) (hL : L' ≤ L) :
    Bits conf L' B := fun k hk => h k (by omega)

/-! ## The report -/

theorem load_ok {α : Type} {l : List (Option α)} {i : Nat} {a : α} (h : l[i]? = some (some a)) : load l i = .ok a := by
  unfold load; rw [h]

theorem report_ok {s : St} {B : Nat → Nat → Prop} {ts : List Tok} (hn : 0 < s.n) (hB : Bits s.conf s.n B)
    (hd : ¬ B (s.n - 1) (s.n - 1)) (hl : s.n ≤ ts.length)
    (hbuf : ∀ (k : Nat) t, ts[k]? = some t → s.buf[k]? = some (some t)) :
    ∃ r, report s = .ok r ∧ r.words = ts.take (s.n - 1) ∧ (r.omitAll = true ↔ 0 < s.n - 1 ∧ Guarded B (s.n - 1) []) ∧
      (∀ p, p ∈ r.patterns ↔ Minimal B (s.n - 1) p ∧ p ≠ [] ∧ p.length < s.n - 1) ∧ r.patterns.Nodup ∧
      (∀ k j, j < k → k ≤ s.n - 1 → ((r.hazards.getD k []).getD j false = true ↔ B k j)) := by
  obtain ⟨ws, w1, w2, w3⟩ := collect_ok (f := fun i => load s.buf i) (P := fun i t => ts[i]? = some t) (s.n - 1) (by
    intro i hi
    have hi' : i < ts.length := by omega
    exact ⟨ts[i], load_ok (hbuf i _ (List.getElem?_eq_getElem hi')), List.getElem?_eq_getElem hi'⟩)
  obtain ⟨haz, z1, z2, z3⟩ := collect_ok (f := fun i => collect (isSet s i) i)
    (P := fun i l => l.length = i ∧ ∀ j < i, ∃ b, l[j]? = some b ∧ (b = true ↔ B i j)) s.n (by
      intro i hi
      obtain ⟨l, l1, l2, l3⟩ := collect_ok (f := isSet s i) (P := fun j b => (b = true ↔ B i j)) i
        (fun j hj => hB.isSet hi (Nat.le_of_lt hj))
      exact ⟨l, l1, l2, fun j hj => by obtain ⟨b, b1, _, b3⟩ := l3 j hj; exact ⟨b, b1, b3⟩⟩)
  obtain ⟨last, a1, a2, a3⟩ := collect_ok (f := isSet s (s.n - 1)) (P := fun j b => (b = true ↔ B (s.n - 1) j)) s.n
    (fun j hj => hB.isSet (by omega) (by omega))
  have hset : ∀ k j, j < k → k < s.n → ((haz.getD k []).getD j false = true ↔ B k j) := by
    intro k j hj hk
    obtain ⟨l, l1, _, l3, l4⟩ := z3 k hk
    obtain ⟨b, b1, b2⟩ := l4 j hj
    rw [List.getD_eq_getElem?_getD, List.getD_eq_getElem?_getD, l1, Option.getD_some, b1, Option.getD_some]
    exact b2
  have hany : last.contains true = true ↔ ¬ Guarded B (s.n - 1) [] := by
    rw [guarded_nil, List.contains_iff_mem, List.mem_iff_getElem?]
    constructor
    · rintro ⟨j, hj⟩ hall
      have hjl : j < s.n := by
        rw [← a2]
        exact (List.getElem?_eq_some_iff.1 hj).1
      obtain ⟨b, b1, _, b3⟩ := a3 j hjl
      rw [hj] at b1
      injection b1 with b1
      subst b1
      have hb := b3.1 rfl
      by_cases hjn : j = s.n - 1
      · subst hjn; exact hd hb
      · exact hall j (by omega) hb
    · intro h
      apply Classical.byContradiction
      intro hno
      apply h
      intro j hj hb
      obtain ⟨b, b1, _, b3⟩ := a3 j (by omega)
      rw [b3.2 hb] at b1
      exact hno ⟨j, b1⟩
  refine ⟨_, by unfold report; rw [w1]; simp only; rw [z1]; simp only; rw [a1], ?_, ?_, ?_, ?_, ?_⟩
  · apply List.ext_getElem?
    intro i
    by_cases hi : i < s.n - 1
    · obtain ⟨t, t1, _, t3⟩ := w3 i hi
      rw [t1, List.getElem?_take, if_pos hi, t3]
    · rw [List.getElem?_eq_none (by simp only; omega), List.getElem?_eq_none (by simp; omega)]
  · simp only [Bool.and_eq_true, Bool.not_eq_true', decide_eq_true_eq]
    constructor
    · rintro ⟨h1, h2⟩
      refine ⟨by omega, ?_⟩
      apply Classical.byContradiction
      intro hno
      rw [hany.2 hno] at h1; cases h1
    · rintro ⟨h1, h2⟩
      refine ⟨?_, by omega⟩
      cases hc : last.contains true with
      | false => rfl
      | true => exact absurd h2 (hany.1 hc)
  · intro p
    simp only
    cases hc : last.contains true with
    | true =>
      have hg := hany.1 hc
      rw [if_pos rfl, (minimal_exact (haz := B) s.n hn hset).1]
      constructor
      · rintro ⟨h1, h2⟩
        refine ⟨h1, ?_, h2⟩
        rintro rfl
        exact hg h1.2.1
      · rintro ⟨h1, _, h2⟩; exact ⟨h1, h2⟩
    | false =>
      have hg : Guarded B (s.n - 1) [] := by
        apply Classical.byContradiction
        intro hno
        rw [hany.2 hno] at hc; cases hc
      rw [if_neg (by simp)]
      constructor
      · intro h; cases h
      · rintro ⟨h1, h2, _⟩
        exact absurd hg (h1.2.2 [] (List.nil_sublist _) (Ne.symm h2))
  · simp only
    split
    · exact (minimal_exact (haz := B) s.n hn hset).2
    · exact List.nodup_nil
  · intro k j hj hk
    exact hset k j hj (by omega)

/-! ## The relation -/

structure Sim (G : Grammar) (s : St) (v : View) : Prop where
  src : s.src = v.src
  ended : s.src.ended = true → s.src.rest = []
  lens : Lens s
  rp : s.rp = v.read
  le : v.read ≤ v.group.length
  sp : s.sp = if v.ahead then v.read - 1 else v.read
  pos : v.ahead = true → 0 < v.read
  n : s.n = v.group.length ∨ (v.read = v.group.length ∧ v.ahead = false ∧ s.n + 1 = v.group.length)
  fits : v.group.length ≤ s.buf.length
  buf : ∀ (k : Nat) t, v.group[k]? = some t → s.buf[k]? = some (some t)
  flags : ∀ (k : Nat) t, v.group[k]? = some t → s.flags[k]? = some (some ⟨isBoi t, decide (k ∈ v.subs), isMarker t.node⟩)
  bits : v.ahead = true ∨ v.read < v.group.length → Bits s.conf v.group.length (Seen G v)
  prev : s.prev = v.pa
  cur : s.cur = v.cur

theorem sim_start (G : Grammar) (ws : List Tok) : Sim G (St.start ws) (View.start ws) where
  src := rfl
  ended := by intro h; cases h
  lens := ⟨rfl, rfl, ⟨0, rfl⟩, by intro k row h; simp [St.start] at h⟩
  rp := rfl
  le := Nat.le_refl _
  sp := rfl
  pos := by intro h; cases h
  n := Or.inl rfl
  fits := Nat.le_refl _
  buf := by intro k t h; simp [View.start] at h
  flags := by intro k t h; simp [View.start] at h
  bits := by rintro (h | h); cases h; cases h
  prev := rfl
  cur := rfl

theorem next_src_ended {G : Grammar} (s : Src) (h : s.ended = true → s.rest = []) :
    (s.group G).2.ended = true → (s.group G).2.rest = [] := by
  unfold Src.group
  split
  · exact h
  · have : ∀ ws, (group G ws).2.ended = true → (group G ws).2.rest = [] := by
      intro ws
      induction ws with
      | nil => intro _; rfl
      | cons t ws ih =>
        unfold group
        split
        · exact ih
        · intro h; cases h
    exact this _

/-! ## The events -/

theorem sim_lex {G : Grammar} {s : St} {v : View} (h : Sim G s v) (ha : v.ahead = false) :
    ∃ s', lex G s = .ok (s', v.give G) ∧ Sim G s' (v.step G .lex) := by
  unfold lex View.give View.step
  simp only
  by_cases hr : v.read < v.group.length
  · have hn : s.n = v.group.length := by rcases h.n with h | h <;> omega
    rw [if_pos (by rw [h.rp, hn]; exact hr), if_pos hr, if_pos hr, h.rp]
    have hg : v.group[v.read]? = some v.group[v.read] := List.getElem?_eq_getElem hr
    rw [load_ok (h.buf _ _ hg)]
    simp only
    refine ⟨_, by rw [List.getD_eq_getElem?_getD, hg, Option.getD_some], ?_⟩
    · exact ⟨h.src, h.ended, ⟨h.lens.flags, h.lens.conf, h.lens.blocks, h.lens.rows⟩, rfl, hr, by simp, fun _ => by simp,
        Or.inl hn, h.fits, h.buf, h.flags, fun _ => h.bits (Or.inr hr), h.cur, h.cur⟩
  · have hle := h.le
    rw [if_neg (by rw [h.rp]; rcases h.n with h' | h' <;> omega), if_neg hr, if_neg hr]
    obtain ⟨s1, r1, r2, r3, r4, r5, _⟩ := refill_group G { s with prev := s.cur, rp := 0, n := 0 }
      ⟨h.lens.flags, h.lens.conf, h.lens.blocks, h.lens.rows⟩ rfl h.ended
    simp only at r1 r3 r4
    rw [r1]
    simp only
    obtain ⟨conf', c1, c2, c3, c4⟩ := clear_ok s1.n 0 s1.conf r2.rows
      (by rw [r2.conf, r3.n]; have := r3.le; omega) (by intro k hk; omega)
    rw [c1]
    simp only
    rw [h.src] at r3 r4
    obtain ⟨a, x, g1, g2, g3⟩ := src_group_shape G v.src
    obtain ⟨y, ys, hy⟩ : ∃ y ys, (v.src.group G).1 = y :: ys := by
      rw [g1]; cases a with
      | nil => exact ⟨x, [], rfl⟩
      | cons b a => exact ⟨b, a ++ [x], rfl⟩
    rw [load_ok (r3.buf 0 y (by rw [hy]; rfl))]
    have hrp : s1.rp = 0 := r5.1
    have hn : s1.n = (v.src.group G).1.length := r3.n
    have hpos : 0 < (v.src.group G).1.length := by rw [hy]; simp
    refine ⟨_, by rw [hy]; rfl, ?_⟩
    refine ⟨r4, by simp only; rw [r4]; exact next_src_ended _ (by rw [← h.src]; exact h.ended),
      ⟨r2.flags, by simp only; rw [c2]; exact r2.conf, r2.blocks, c3⟩, by simp only; rw [hrp], hpos, by simp only; rw [hrp]; rfl,
      fun _ => Nat.one_pos, Or.inl hn, r3.le, r3.buf, ?_, ?_, ?_, ?_⟩
    · intro k t hk
      rw [r3.flags k t hk]; rfl
    · intro _
      simp only
      rw [← hn, show s1.n = 0 + s1.n from (Nat.zero_add _).symm]
      refine c4.congr fun k j _ _ => ⟨False.elim, ?_⟩
      rintro ⟨_, t, _, st, sh, hm, _⟩
      cases hm
    · simp only; rw [r5.2.2.1, h.cur]
    · simp only
      rw [hrp, hn, hy, r5.2.2.2, h.cur]
      simp only [Nat.zero_add, List.headD_cons]
      by_cases h1 : (y :: ys).length = 1
      · rw [if_pos h1.symm, if_pos h1]
      · rw [if_neg (fun h => h1 h.symm), if_neg h1]

theorem sim_reduce {G : Grammar} {s : St} {v : View} {st rule : Nat} (h : Sim G s v) (hf : ¬ Full G v (.reduce st rule)) :
    ∃ s', reduce G s st rule = .ok s' ∧ Sim G s' (v.step G (.reduce st rule)) := by
  unfold reduce
  have hsp : G.subscript rule = true → s.sp < s.buf.length := by
    intro hs
    rw [h.sp]
    have h1 := h.le
    have h2 := h.fits
    cases ha : v.ahead with
    | true =>
      have := h.pos ha
      simp only [if_true]; omega
    | false =>
      simp only [Bool.false_eq_true, if_false]
      by_cases hr : v.read = v.group.length
      · have : ¬ 32 ∣ v.group.length := fun hd => hf ⟨hs, ha, hr, hd⟩
        have := h.lens.blocks
        by_cases he : v.read = s.buf.length
        · rw [hr] at he; rw [← he] at this; contradiction
        · omega
      · omega
  rw [if_neg (by
    simp only [Bool.and_eq_true, decide_eq_true_eq, not_and, Nat.not_le]
    intro hs
    rw [h.lens.flags]
    exact hsp hs)]
  -- the flag
  have hflag : ∀ s1 : St, s1 = (if G.subscript rule = true then { s with flags := s.flags.set s.sp ((s.flags[s.sp]?.getD none).map fun f => { f with subBefore := true }) } else s) →
      Sim G s1 { v with subs := if G.subscript rule then (if v.ahead then v.read - 1 else v.read) :: v.subs else v.subs } ∧
      s1.sp = s.sp ∧ s1.rp = s.rp ∧ s1.n = s.n := by
    rintro s1 rfl
    cases hs : G.subscript rule with
    | false =>
      simp only [Bool.false_eq_true, if_false]
      exact ⟨h, by simp, by simp, by simp⟩
    | true =>
      simp only [if_true]
      refine ⟨⟨h.src, h.ended, ⟨by simp only [List.length_set]; exact h.lens.flags, h.lens.conf, h.lens.blocks, h.lens.rows⟩,
        h.rp, h.le, h.sp, h.pos, h.n, h.fits, h.buf, ?_, h.bits, h.prev, h.cur⟩, by simp, by simp, by simp⟩
      intro k t hk
      simp only
      rw [List.getElem?_set]
      have hkf := h.flags k t hk
      by_cases hks : s.sp = k
      · subst hks
        rw [if_pos rfl, if_pos (by rw [h.lens.flags]; exact hsp hs), hkf]
        simp only [Option.getD_some, Option.map_some]
        rw [← h.sp]
        simp
      · rw [if_neg hks, hkf, ← h.sp]
        simp [Ne.symm hks]
  simp only
  generalize (if G.subscript rule = true then { s with flags := s.flags.set s.sp ((s.flags[s.sp]?.getD none).map fun f => { f with subBefore := true }) } else s : St) = s1 at hflag
  obtain ⟨hS, e1, e2, e3⟩ := hflag s1 rfl
  simp only [View.step]
  cases ha : v.ahead with
  | false =>
    rw [if_pos (by rw [e1, e2, h.sp, h.rp, ha]; rfl)]
    rw [ha] at hS
    exact ⟨s1, rfl, hS⟩
  | true =>
    have hp := h.pos ha
    have hle := h.le
    have hsp' : s.sp = v.read - 1 := by rw [h.sp, ha]; rfl
    rw [if_neg (by rw [e1, e2, hsp', h.rp]; omega)]
    have hn : s.n = v.group.length := by
      rcases h.n with h' | h'
      · exact h'
      · rw [ha] at h'; cases h'.2.1
    have hB := hS.bits (Or.inl ha)
    simp only at hB
    obtain ⟨conf, m1, m2, m3, m4⟩ := mark_ok G st s1.sp (fun _ => false) (s1.n - s1.rp) s1.rp s1 v.group.length _ v.group hB
      hS.lens.rows (by rw [e2, e3, h.rp, hn]; omega) (by rw [e1, e2, hsp', h.rp]; omega) rfl hS.buf
    refine ⟨_, m1, ?_⟩
    rw [ha] at hS
    refine ⟨hS.src, hS.ended, ⟨hS.lens.flags, by simp only; rw [m2]; exact hS.lens.conf, hS.lens.blocks, m3⟩, hS.rp, hS.le, hS.sp, fun _ => hp,
      Or.inl (by rw [e3]; exact hn), hS.fits, hS.buf, hS.flags, ?_, hS.prev, hS.cur⟩
    intro _
    refine m4.congr fun k j hk hj => ?_
    unfold Seen
    simp only [if_true]
    rw [e1, e2, e3, h.rp, hsp', hn]
    constructor
    · rintro (⟨q1, t, q2, st', sh, q3, q4⟩ | ⟨q1, q2, q3, _, t, q4, q5⟩)
      · exact ⟨q1, t, q2, st', sh, List.mem_cons_of_mem _ q3, q4⟩
      · refine ⟨by omega, t, q4, st, false, ?_, q5, by rintro ⟨h, _⟩; cases h⟩
        rw [q1]; exact List.mem_cons_self
    · rintro ⟨q1, t, q2, st', sh, q3, q4, q5⟩
      rcases List.mem_cons.1 q3 with q3' | q3'
      · simp only [Prod.mk.injEq] at q3'
        obtain ⟨q6, rfl, rfl⟩ := q3'
        exact Or.inr ⟨q6, by omega, by omega, trivial, t, q2, q4⟩
      · exact Or.inl ⟨q1, t, q2, st', sh, q3', q4, q5⟩

theorem sim_advance {G : Grammar} {s : St} {v : View} (h : Sim G s v) :
    Sim G { s with src := s.src.advance G } (v.step G .advance) := by
  refine ⟨by simp only [View.step]; rw [h.src], ?_, ⟨h.lens.flags, h.lens.conf, h.lens.blocks, h.lens.rows⟩, h.rp, h.le, h.sp,
    h.pos, h.n, h.fits, h.buf, h.flags, h.bits, h.prev, h.cur⟩
  intro he
  simp only [Src.advance] at he ⊢
  rw [h.ended he]; rfl

theorem sim_shift_some {G : Grammar} {s : St} {v : View} {st : Nat} (h : Sim G s v) (ha : v.ahead = true)
    (hr : v.read < v.group.length) :
    ∃ s', shift G s st = .ok (s', none) ∧ Sim G s' (v.step G (.shift st)) := by
  have hp := h.pos ha
  have hn : s.n = v.group.length := by
    rcases h.n with h' | h'
    · exact h'
    · rw [ha] at h'; cases h'.2.1
  unfold shift
  simp only
  rw [if_neg (by rw [h.rp, hn]; omega), if_pos (by rw [h.rp, hn]; omega), if_neg (by rw [h.rp]; omega), h.rp]
  have hg : v.group[v.read - 1]? = some v.group[v.read - 1] := List.getElem?_eq_getElem (by omega)
  rw [load_ok (h.buf _ _ hg)]
  simp only
  obtain ⟨conf, m1, m2, m3, m4⟩ := mark_ok G st (v.read - 1)
    (fun i => i == s.n - 1 && v.read == s.n - 1 && v.group[v.read - 1].value == G.cu) (s.n - v.read) v.read { s with sp := v.read, rp := v.read }
    v.group.length _ v.group (h.bits (Or.inl ha)) h.lens.rows (by omega) (by omega) rfl h.buf
  rw [m1]
  refine ⟨_, rfl, ?_⟩
  refine ⟨h.src, h.ended, ⟨h.lens.flags, by simp only; rw [m2]; exact h.lens.conf, h.lens.blocks, m3⟩, rfl, h.le, rfl,
    (by intro h; cases h), Or.inl hn, h.fits, h.buf, h.flags, ?_, h.prev, h.cur⟩
  intro _
  refine m4.congr fun k j hk hj => ?_
  unfold Seen View.step
  simp only
  rw [hn]
  constructor
  · rintro (⟨q1, t, q2, st', sh, q3, q4⟩ | ⟨q1, q2, q3, q6, t, q4, q5⟩)
    · exact ⟨q1, t, q2, st', sh, List.mem_cons_of_mem _ q3, q4⟩
    · refine ⟨by omega, t, q4, st, true, by rw [q1]; exact List.mem_cons_self, q5, ?_⟩
      rintro ⟨_, c1, c2, c, c3, c4⟩
      rw [q1, hg] at c3
      injection c3 with c3
      rw [c3, c4] at q6
      simp only [BEq.rfl, Bool.and_true, Bool.and_eq_false_iff, beq_eq_false_iff_ne] at q6
      omega
  · rintro ⟨q1, t, q2, st', sh, q3, q4, q5⟩
    rcases List.mem_cons.1 q3 with q3' | q3'
    · simp only [Prod.mk.injEq] at q3'
      obtain ⟨q6, rfl, rfl⟩ := q3'
      refine Or.inr ⟨q6, by omega, by omega, ?_, t, q2, q4⟩
      rw [Bool.eq_false_iff]
      intro hsk
      simp only [Bool.and_eq_true, beq_iff_eq] at hsk
      exact q5 ⟨rfl, by omega, by omega, _, by rw [q6]; exact hg, hsk.2⟩
    · exact Or.inl ⟨q1, t, q2, st', sh, q3', q4, q5⟩

theorem retreats_ok {G : Grammar} {s : St} {v : View} (h : Sim G s v) (ha : v.ahead = true) :
    ∃ b, retreats { s with sp := s.rp } = .ok b ∧ v.last + 1 = (if b then v.group.length - 1 else v.group.length) := by
  have hp := h.pos ha
  have hle := h.le
  have hn : s.n = v.group.length := by
    rcases h.n with h' | h'
    · exact h'
    · rw [ha] at h'; cases h'.2.1
  unfold retreats View.last
  simp only
  rw [hn]
  by_cases h1 : v.group.length ≤ 1
  · rw [if_pos h1]
    refine ⟨false, rfl, ?_⟩
    split
    · rw [if_neg (by omega)]; simp; omega
    · simp; omega
  · rw [if_neg h1]
    have hg : v.group[v.group.length - 2]? = some v.group[v.group.length - 2] := List.getElem?_eq_getElem (by omega)
    have hg1 : v.group[v.group.length - 1]? = some v.group[v.group.length - 1] := List.getElem?_eq_getElem (by omega)
    rw [load_ok (h.flags _ _ hg), hg]
    simp only
    cases hb : isBoi v.group[v.group.length - 2] with
    | false =>
      refine ⟨false, rfl, ?_⟩
      rw [if_neg (by rintro ⟨_, h, _⟩; cases h)]; simp; omega
    | true =>
      rw [if_neg (by simp), load_ok (h.flags _ _ hg1)]
      simp only
      by_cases hsub : (v.group.length - 1) ∈ v.subs
      · rw [if_pos (by simpa using hsub)]
        refine ⟨false, rfl, ?_⟩
        rw [if_neg (by rintro ⟨_, _, _, h⟩; exact h hsub)]; simp; omega
      · rw [if_neg (by simpa using hsub), load_ok (h.buf _ _ hg)]
        simp only
        unfold hasFree
        cases hnode : (v.group[v.group.length - 2]).node with
        | none => unfold isBoi at hb; rw [hnode] at hb; cases hb
        | some nd =>
          cases nd with
          | cmavo s' free ind =>
            refine ⟨free, rfl, ?_⟩
            simp only
            cases free with
            | true => rw [if_pos (by simp [hsub]; omega)]; simp; omega
            | false => rw [if_neg (by simp)]; simp; omega
          | marker b => unfold isBoi at hb; rw [hnode] at hb; cases hb
          | other => unfold isBoi at hb; rw [hnode] at hb; cases hb

theorem boi_not_marker {t : Tok} (h : isBoi t = true) : isMarker t.node = false := by
  unfold isBoi isElidable at h
  unfold isMarker
  cases hn : t.node with
  | none => rfl
  | some nd => cases nd with
    | cmavo _ _ _ => rfl
    | marker b => rw [hn] at h; cases h
    | other => rfl

theorem sim_shift_last {G : Grammar} {s : St} {v : View} {st : Nat} (h : Sim G s v) (ha : v.ahead = true)
    (hr : v.read = v.group.length) :
    ∃ s' r, shift G s st = .ok (s', some r) ∧ Sim G s' (v.step G (.shift st)) ∧ Reports G v r := by
  have hp := h.pos ha
  have hn : s.n = v.group.length := by
    rcases h.n with h' | h'
    · exact h'
    · rw [ha] at h'; cases h'.2.1
  unfold shift
  simp only
  rw [if_pos (by rw [h.rp, hn]; omega)]
  obtain ⟨b, b1, b2⟩ := retreats_ok h ha
  rw [b1]
  simp only
  generalize hs1 : (if b = true then { s with sp := s.rp, n := s.n - 1 } else { s with sp := s.rp } : St) = s1
  have f1 : s1.n = v.last + 1 := by subst hs1; cases b <;> simp_all
  have f2 : s1.buf = s.buf := by subst hs1; cases b <;> rfl
  have f3 : s1.flags = s.flags := by subst hs1; cases b <;> rfl
  have f4 : s1.conf = s.conf := by subst hs1; cases b <;> rfl
  have f5 : s1.prev = s.prev := by subst hs1; cases b <;> rfl
  have f6 : s1.rp = s.rp := by subst hs1; cases b <;> rfl
  have f7 : s1.sp = s.rp := by subst hs1; cases b <;> rfl
  have f8 : s1.src = s.src := by subst hs1; cases b <;> rfl
  have f9 : s1.cur = s.cur := by subst hs1; cases b <;> rfl
  have hll : v.last + 1 ≤ v.group.length := by rw [b2]; split <;> omega
  have hlg : v.group.length ≤ v.last + 2 := by rw [show v.last + 2 = (v.last + 1) + 1 from rfl, b2]; split <;> omega
  clear hs1
  rw [if_neg (by rw [f1]; omega)]
  have hg0 : v.group[0]? = some (v.group[0]'(by omega)) := List.getElem?_eq_getElem (by omega)
  have hgl : v.group[v.last]? = some (v.group[v.last]'(by omega)) := List.getElem?_eq_getElem (by omega)
  rw [f3, load_ok (h.flags _ _ hg0)]
  simp only
  have hB0 := (h.bits (Or.inl ha)).mono hll
  -- the state with the conflict for numbers
  have hlastld : load s.flags (s1.n - 1) = .ok ⟨isBoi (v.group[v.last]'(by omega)), decide (v.last ∈ v.subs), isMarker (v.group[v.last]'(by omega)).node⟩ := by
    rw [f1, Nat.add_sub_cancel]
    exact load_ok (h.flags _ _ hgl)
  have key : ∃ g s2, (if (isBoi (v.group[0]'(by omega)) && s1.prev) = true then load s.flags (s1.n - 1) else .ok ⟨false, false, false⟩) = .ok g ∧
      (if (isBoi (v.group[0]'(by omega)) && s1.prev && g.marker) = true then setConflict s1 (s1.n - 1) 0 else .ok s1) = .ok s2 ∧
      (∃ conf, s2 = { s1 with conf := conf } ∧ conf.length = s1.conf.length ∧ Rows conf ∧ Bits conf (v.last + 1) (Hazard G v)) := by
    by_cases hc : (isBoi (v.group[0]'(by omega)) && s1.prev) = true
    · rw [if_pos hc, hlastld, hc]
      have hc' := hc
      simp only [Bool.and_eq_true] at hc'
      cases hm : isMarker (v.group[v.last]'(by omega)).node with
      | false =>
        refine ⟨_, _, rfl, rfl, s1.conf, rfl, rfl, by rw [f4]; exact h.lens.rows, ?_⟩
        rw [f4]
        refine hB0.congr fun k j _ _ => ⟨Or.inl, ?_⟩
        rintro (q | ⟨_, _, _, _, t, q1, q2⟩)
        · exact q
        · rw [hgl] at q1; injection q1 with q1; rw [← q1, hm] at q2; cases q2
      | true =>
        obtain ⟨conf, c1, c2, c3, c4⟩ := Bits.set (s := s1) (k := s1.n - 1) (j := 0) (by rw [f4]; exact hB0) (by rw [f4]; exact h.lens.rows) (by rw [f1]; omega) (Nat.zero_le _)
        refine ⟨_, _, rfl, by simpa using c1, conf, rfl, c2, c3, ?_⟩
        refine c4.congr fun k j _ _ => ?_
        rw [f1, Nat.add_sub_cancel]
        constructor
        · rintro (q | ⟨rfl, rfl⟩)
          · exact Or.inl q
          · exact Or.inr ⟨rfl, rfl, by rw [← h.prev, ← f5]; exact hc'.2, ⟨_, hg0, hc'.1⟩, _, hgl, hm⟩
        · rintro (q | ⟨q1, q2, _⟩)
          · exact Or.inl q
          · exact Or.inr ⟨q1, q2⟩
    · rw [if_neg hc]
      rw [Bool.not_eq_true] at hc
      refine ⟨_, s1, rfl, by rw [hc]; rfl, s1.conf, rfl, rfl, by rw [f4]; exact h.lens.rows, ?_⟩
      rw [f4]
      refine hB0.congr fun k j _ _ => ⟨Or.inl, ?_⟩
      rintro (q | ⟨_, _, q3, ⟨t, q4, q5⟩, _⟩)
      · exact q
      · rw [hg0] at q4; injection q4 with q4
        rw [f5, h.prev, q3, q4, q5] at hc; cases hc
  obtain ⟨g, s2, k1, k2, conf, rfl, k3, k4, k5⟩ := key
  rw [k1]
  simp only
  rw [k2]
  simp only
  obtain ⟨r, r1, r2, r3, r4, r5, r6⟩ := report_ok (s := { s1 with conf := conf }) (B := Hazard G v) (ts := v.group) (by simp only; omega)
    (by simp only; rw [f1]; exact k5) (by
      simp only
      rw [f1, Nat.add_sub_cancel]
      rintro (⟨q, _⟩ | ⟨_, q1, _, ⟨t, q2, q3⟩, t', q4, q5⟩)
      · omega
      · rw [q1, q2] at q4
        injection q4 with q4
        rw [← q4, boi_not_marker q3] at q5; cases q5) (by simp only; rw [f1]; exact hll) (by simp only; rw [f2]; exact h.buf)
  simp only at r2 r3 r4 r6
  rw [f1, Nat.add_sub_cancel] at r2 r3 r4 r6
  refine ⟨_, r, by rw [r1], ?_, r2, r3, r4, r5, r6⟩
  refine ⟨by simp only; rw [f8]; exact h.src, by simp only; rw [f8]; exact h.ended,
    ⟨by simp only; rw [f3, f2]; exact h.lens.flags, by simp only; rw [k3, f4, f2]; exact h.lens.conf, by simp only; rw [f2]; exact h.lens.blocks, k4⟩,
    by simp only; rw [f6]; exact h.rp, h.le, by simp only; rw [f7]; exact h.rp, (by intro h; cases h), ?_, by simp only; rw [f2]; exact h.fits,
    by simp only; rw [f2]; exact h.buf, by simp only; rw [f3]; exact h.flags, ?_, by simp only; rw [f5]; exact h.prev, by simp only; rw [f9]; exact h.cur⟩
  · simp only [View.step]
    rw [f1]
    by_cases h1 : v.last + 1 = v.group.length
    · exact Or.inl h1
    · exact Or.inr ⟨hr, trivial, by omega⟩
  · rintro (q | q)
    · cases q
    · simp only [View.step] at q; omega

end Jbo.Elide
