import Verif.ElideAbs
/-!
# The parser gets the same words (C39), and the reports are right
-/

namespace Jbo.Elide

/-! ## The same words -/

/-- Reading several words. -/
def Src.reads (G : Grammar) : Nat → Src → List Tok × Src
  | 0, s => ([], s)
  | k + 1, s => ((s.next G).1 :: (Src.reads G k (s.next G).2).1, (Src.reads G k (s.next G).2).2)

theorem reads_group (G : Grammar) (ws : List Tok) :
    Src.reads G (group G ws).1.length ⟨ws, false⟩ = group G ws := by
  induction ws with
  | nil => rfl
  | cons t ws ih =>
    unfold group
    cases he : (isElidable t.node).1 with
    | false => rfl
    | true =>
      simp only [if_true, List.length_cons, Src.reads]
      rw [show (Src.next G ⟨t :: ws, false⟩) = (t, ⟨ws, false⟩) from rfl]
      simp only
      rw [ih]

theorem reads_src_group (G : Grammar) (s : Src) : Src.reads G (s.group G).1.length s = s.group G := by
  unfold Src.group
  by_cases h : s.ended = true
  · rw [if_pos h]
    simp only [List.length_singleton, Src.reads]
    rw [show s.next G = (⟨0, none, 0⟩, s) from by unfold Src.next; rw [if_pos h]]
  · rw [if_neg h]
    have : s = ⟨s.rest, false⟩ := by
      rcases s with ⟨r, e⟩
      simp at h
      rw [h]
    rw [this]
    exact reads_group G _

theorem setConflict_frame {s s' : St} {k j : Nat} (hl : Lens s) (h : setConflict s k j = .ok s') :
    ∃ conf, s' = { s with conf := conf } ∧ Lens s' := by
  unfold setConflict at h
  split at h
  · cases h
  · rename_i row hrow
    split at h
    · cases h
    · injection h with h
      subst h
      refine ⟨_, rfl, hl.flags, by simp only [List.length_set]; exact hl.conf, hl.blocks, ?_⟩
      intro k' row' hr'
      simp only at hr'
      rw [List.getElem?_set] at hr'
      by_cases hkk : k = k'
      · subst hkk
        rw [if_pos rfl] at hr'
        split at hr'
        · injection hr' with hr'
          rw [← hr', List.length_set]
          exact hl.rows k row hrow
        · cases hr'
      · rw [if_neg hkk] at hr'
        exact hl.rows k' row' hr'

theorem mark_frame {G : Grammar} {st j : Nat} {skip : Nat → Bool} (m : Nat) : ∀ {i : Nat} {s s' : St}, Lens s →
    mark G st j skip i m s = .ok s' → ∃ conf, s' = { s with conf := conf } ∧ Lens s' := by
  induction m with
  | zero => intro i s s' hl h; injection h with h; subst h; exact ⟨s.conf, rfl, hl⟩
  | succ m ih =>
    intro i s s' hl h
    rw [mark] at h
    split at h
    · cases h
    · split at h
      · split at h
        · cases h
        · rename_i s1 h1
          obtain ⟨conf, rfl, l1⟩ := setConflict_frame hl h1
          obtain ⟨conf', rfl, l2⟩ := ih l1 h
          exact ⟨conf', rfl, l2⟩
      · exact ih hl h

/-- The words in the buffer that were not given out are the next ones. -/
structure Ahead (G : Grammar) (s : St) (p : Src) (elid : Bool) : Prop where
  lens : Lens s
  ended : s.src.ended = true → s.src.rest = []
  pending : ∃ ts : List Tok, ts.length = s.n - s.rp ∧ (∀ (i : Nat) t, ts[i]? = some t → s.buf[s.rp + i]? = some (some t)) ∧
    p.reads G ts.length = (ts, s.src) ∧ (elid = false → ts = []) ∧
    (∀ a b, ts = a ++ b → b ≠ [] → ∀ x ∈ a, (isElidable x.node).1 = true) ∧
    (∀ a x, ts = a ++ [x] → (isElidable x.node).1 = false)

theorem next_ended {G : Grammar} {s : Src} (h : s.ended = true → s.rest = []) :
    (s.next G).2.ended = true → (s.next G).2.rest = [] := by
  unfold Src.next
  split
  · exact h
  · split
    · intro h; cases h
    · intro _; rfl

theorem group_ended (G : Grammar) (s : Src) (h : s.ended = true → s.rest = []) :
    (s.group G).2.ended = true → (s.group G).2.rest = [] := by
  unfold Src.group
  split
  · exact h
  · have : ∀ ws, (group G ws).2.ended = true → (group G ws).2.rest = [] := by
      intro ws
      induction ws with
      | nil => intro _; rfl
      | cons t ws ih =>
        unfold group
        split
        · exact ih
        · intro h; cases h
    exact this _

/-- What changes in a state without effect on the words. -/
theorem Ahead.frame {G : Grammar} {s s' : St} {p : Src} {elid : Bool} (h : Ahead G s p elid) (hl : Lens s')
    (h1 : s'.src = s.src) (h2 : s'.buf = s.buf) (h3 : s'.rp = s.rp) (h4 : s'.n - s'.rp = s.n - s.rp) : Ahead G s' p elid := by
  obtain ⟨ts, t1, t2, t3⟩ := h.pending
  refine ⟨hl, by rw [h1]; exact h.ended, ts, by rw [t1, h4], ?_, by rw [h1]; exact t3⟩
  intro i t hi
  rw [h2, h3]
  exact t2 i t hi

theorem ahead_lex {G : Grammar} {s s' : St} {p : Src} {elid : Bool} {t : Tok} (h : Ahead G s p elid)
    (hlex : lex G s = .ok (s', t)) :
    t = (lexPlain G p).2 ∧ Ahead G s' (lexPlain G p).1 (isElidable t.node).1 := by
  obtain ⟨ts, t1, t2, t3, t4, t5, t6⟩ := h.pending
  unfold lex at hlex
  simp only at hlex
  by_cases hrp : s.rp < s.n
  · rw [if_pos hrp] at hlex
    cases ts with
    | nil => simp at t1; omega
    | cons x ts =>
      have hx := t2 0 x rfl
      rw [Nat.add_zero] at hx
      have hload : load s.buf s.rp = .ok x := by unfold load; rw [hx]
      rw [hload] at hlex
      simp only [Except.ok.injEq, Prod.mk.injEq] at hlex
      obtain ⟨rfl, rfl⟩ := hlex
      simp only [List.length_cons, Src.reads, Prod.mk.injEq, List.cons.injEq] at t3
      refine ⟨t3.1.1.symm, ⟨h.lens.flags, h.lens.conf, h.lens.blocks, h.lens.rows⟩, h.ended, ts, ?_, ?_, ?_, ?_, ?_, ?_⟩
      · simp only [List.length_cons] at t1
        simp only
        omega
      · intro i t hi
        have := t2 (i + 1) t (by simpa using hi)
        simp only
        rw [show s.rp + 1 + i = s.rp + (i + 1) from by omega]
        exact this
      · exact Prod.ext t3.1.2 t3.2
      · intro he
        cases ts with
        | nil => rfl
        | cons y ts =>
          have := t5 [x] (y :: ts) rfl (by simp) x (by simp)
          rw [this] at he; cases he
      · intro a b hab hb z hz
        exact t5 (x :: a) b (by rw [hab]; rfl) hb z (List.mem_cons_of_mem _ hz)
      · intro a z haz
        exact t6 (x :: a) z (by rw [haz]; rfl)
  · rw [if_neg hrp] at hlex
    have hts : ts = [] := by
      apply List.eq_nil_of_length_eq_zero
      omega
    subst hts
    have hp : p = s.src := by simpa [Src.reads] using t3
    subst hp
    obtain ⟨s1, r1, r2, r3, r4, r5, _⟩ := refill_group G { s with prev := s.cur, rp := 0, n := 0 }
      ⟨h.lens.flags, h.lens.conf, h.lens.blocks, h.lens.rows⟩ rfl h.ended
    simp only at r1 r3 r4
    rw [r1] at hlex
    simp only at hlex
    split at hlex
    · cases hlex
    · rename_i conf hconf
      obtain ⟨conf', c1, c2, c3, _⟩ := clear_ok s1.n 0 s1.conf r2.rows
        (by rw [r2.conf, r3.n]; have := r3.le; omega) (by intro k hk; omega)
      rw [c1] at hconf
      injection hconf with hconf
      subst hconf
      obtain ⟨a, x, g1, g2, g3⟩ := src_group_shape G s.src
      obtain ⟨y, ys, hy⟩ : ∃ y ys, (s.src.group G).1 = y :: ys := by
        rw [g1]; cases a with
        | nil => exact ⟨x, [], rfl⟩
        | cons b a => exact ⟨b, a ++ [x], rfl⟩
      have hload : load s1.buf 0 = .ok y := by
        unfold load
        rw [r3.buf 0 y (by rw [hy]; rfl)]
      rw [hload] at hlex
      simp only [Except.ok.injEq, Prod.mk.injEq] at hlex
      obtain ⟨rfl, rfl⟩ := hlex
      have hrd := reads_src_group G s.src
      rw [hy, List.length_cons] at hrd
      simp only [Src.reads] at hrd
      have hrd1 := congrArg Prod.fst hrd
      have hrd2 := congrArg Prod.snd hrd
      simp only [hy, List.cons.injEq] at hrd1 hrd2
      have hs0 : s1.rp = 0 := r5.1
      refine ⟨hrd1.1.symm, ⟨r2.flags, by simp only; rw [c2]; exact r2.conf, r2.blocks, c3⟩, ?_, ys, ?_, ?_, ?_, ?_, ?_, ?_⟩
      · simp only; rw [r4]; exact group_ended G _ h.ended
      · simp only; rw [r3.n, hy, hs0]; simp
      · intro i t hi
        simp only
        rw [hs0, show 0 + 1 + i = i + 1 from by omega]
        exact r3.buf (i + 1) t (by rw [hy]; simpa using hi)
      · refine Prod.ext hrd1.2 ?_
        simp only [lexPlain]
        rw [r4]
        exact hrd2
      · intro he
        rw [g1] at hy
        cases a with
        | nil => simp at hy; exact hy.2
        | cons b a =>
          simp only [List.cons_append, List.cons.injEq] at hy
          have := g3 b (by simp)
          rw [hy.1, he] at this; cases this
      · intro c d hcd hd z hz
        apply g3
        have : a ++ [x] = (y :: c) ++ d := by rw [← g1, hy, hcd]; rfl
        rcases List.eq_nil_or_concat d with h0 | ⟨d', w, h0⟩
        · exact absurd h0 hd
        · rw [List.concat_eq_append] at h0
          subst h0
          rw [← List.append_assoc] at this
          obtain ⟨h1, _⟩ := List.append_inj' this rfl
          rw [h1]
          simp [hz]
      · intro c z hcz
        have : a ++ [x] = (y :: c) ++ [z] := by rw [← g1, hy, hcz]; rfl
        obtain ⟨_, h1⟩ := List.append_inj' this rfl
        simp only [List.cons.injEq, and_true] at h1
        rw [← h1]; exact g2

theorem ahead_shift {G : Grammar} {s s' : St} {p : Src} {elid : Bool} {st : Nat} {r : Option Report} (h : Ahead G s p elid)
    (hsh : shift G s st = .ok (s', r)) : Ahead G s' p elid := by
  unfold shift at hsh
  simp only at hsh
  have hl : Lens { s with sp := s.rp } := ⟨h.lens.flags, h.lens.conf, h.lens.blocks, h.lens.rows⟩
  by_cases hn : s.rp = s.n
  · rw [if_pos hn] at hsh
    split at hsh
    · cases hsh
    · rename_i back _
      have hdone : ∀ s1 : St, s1 = (if back = true then { s with sp := s.rp, n := s.n - 1 } else { s with sp := s.rp }) →
          Ahead G s1 p elid := by
        rintro s1 rfl
        cases back
        · exact h.frame hl rfl rfl rfl rfl
        · exact h.frame ⟨h.lens.flags, h.lens.conf, h.lens.blocks, h.lens.rows⟩ rfl rfl rfl (by simp only [if_true]; omega)
      generalize (if back = true then { s with sp := s.rp, n := s.n - 1 } else { s with sp := s.rp } : St) = s1 at hsh hdone
      have hA := hdone s1 rfl
      split at hsh
      · cases hsh
      · split at hsh
        · cases hsh
        · split at hsh
          · cases hsh
          · split at hsh
            · cases hsh
            · rename_i s2 h2
              have hA2 : Ahead G s2 p elid := by
                split at h2
                · obtain ⟨conf, rfl, l2⟩ := setConflict_frame hA.lens h2
                  exact hA.frame l2 rfl rfl rfl rfl
                · injection h2 with h2; subst h2; exact hA
              split at hsh
              · cases hsh
              · injection hsh with hsh
                injection hsh with hsh _
                subst hsh
                exact hA2
  · rw [if_neg hn] at hsh
    split at hsh
    · split at hsh
      · cases hsh
      · split at hsh
        · cases hsh
        · rename_i s2 h2
          obtain ⟨conf, rfl, l2⟩ := mark_frame _ hl h2
          injection hsh with hsh
          injection hsh with hsh _
          subst hsh
          exact h.frame l2 rfl rfl rfl rfl
    · injection hsh with hsh
      injection hsh with hsh _
      subst hsh
      exact h.frame hl rfl rfl rfl rfl

theorem ahead_reduce {G : Grammar} {s s' : St} {p : Src} {elid : Bool} {st rule : Nat} (h : Ahead G s p elid)
    (hr : reduce G s st rule = .ok s') : Ahead G s' p elid := by
  unfold reduce at hr
  split at hr
  · cases hr
  · simp only at hr
    have hdone : ∀ s1 : St, s1 = (if G.subscript rule = true then { s with flags := s.flags.set s.sp ((s.flags[s.sp]?.getD none).map fun f => { f with subBefore := true }) } else s) → Ahead G s1 p elid := by
      rintro s1 rfl
      cases G.subscript rule
      · exact h
      · exact h.frame ⟨by simp only [if_true, List.length_set]; exact h.lens.flags, h.lens.conf, h.lens.blocks, h.lens.rows⟩
          rfl rfl rfl rfl
    generalize (if G.subscript rule = true then { s with flags := s.flags.set s.sp ((s.flags[s.sp]?.getD none).map fun f => { f with subBefore := true }) } else s : St) = s1 at hr hdone
    have hA := hdone s1 rfl
    split at hr
    · injection hr with hr; subst hr; exact hA
    · obtain ⟨conf, rfl, l2⟩ := mark_frame _ hA.lens hr
      exact hA.frame l2 rfl rfl rfl rfl

theorem words_append (a b : List Out) : words (a ++ b) = words a ++ words b := by
  induction a with
  | nil => rfl
  | cons o a ih => cases o <;> simp [words, ih]

theorem run_same {G : Grammar} (es : List Ev) : ∀ {s s' : St} {p : Src} {elid : Bool} {os : List Out}, Ahead G s p elid →
    SkipsLate G p elid es → run G s es = .ok (s', os) → words os = plain G p es := by
  induction es with
  | nil =>
    intro s s' p elid os _ _ h
    simp only [run, Except.ok.injEq, Prod.mk.injEq] at h
    rw [← h.2]; rfl
  | cons e es ih =>
    intro s s' p elid os hA hs h
    rw [run] at h
    split at h
    · cases h
    · rename_i s1 o1 h1
      split at h
      · cases h
      · rename_i s2 o2 h2
        simp only [Except.ok.injEq, Prod.mk.injEq] at h
        obtain ⟨rfl, rfl⟩ := h
        rw [words_append]
        cases e with
        | lex =>
          simp only [step] at h1
          split at h1
          · cases h1
          · rename_i s3 t h3
            simp only [Except.ok.injEq, Prod.mk.injEq] at h1
            obtain ⟨rfl, rfl⟩ := h1
            obtain ⟨a1, a2⟩ := ahead_lex hA h3
            rw [plain, ← a1]
            simp only [SkipsLate] at hs
            rw [← a1] at hs
            rw [ih a2 hs h2]; rfl
        | advance =>
          simp only [step, Except.ok.injEq, Prod.mk.injEq] at h1
          obtain ⟨rfl, rfl⟩ := h1
          obtain ⟨he, hs⟩ := hs
          obtain ⟨ts, t1, t2, t3, t4, t5, t6⟩ := hA.pending
          have := t4 he
          subst this
          have hp : p = s.src := by simpa [Src.reads] using t3
          subst hp
          rw [plain]
          refine ih (s := { s with src := s.src.advance G }) ⟨⟨hA.lens.flags, hA.lens.conf, hA.lens.blocks, hA.lens.rows⟩, ?_,
            [], t1, by simp, rfl, fun _ => rfl, t5, t6⟩ hs h2
          intro hend
          simp only [Src.advance] at hend ⊢
          rw [hA.ended hend]; rfl
        | shift st =>
          simp only [step] at h1
          split at h1
          · cases h1
          · rename_i s3 h3
            simp only [Except.ok.injEq, Prod.mk.injEq] at h1
            obtain ⟨rfl, rfl⟩ := h1
            exact ih (ahead_shift hA h3) hs h2
          · rename_i s3 r h3
            simp only [Except.ok.injEq, Prod.mk.injEq] at h1
            obtain ⟨rfl, rfl⟩ := h1
            exact ih (ahead_shift hA h3) hs h2
        | reduce st rule =>
          simp only [step] at h1
          split at h1
          · cases h1
          · rename_i s3 h3
            simp only [Except.ok.injEq, Prod.mk.injEq] at h1
            obtain ⟨rfl, rfl⟩ := h1
            exact ih (ahead_reduce hA h3) hs h2

/-- **C39**: whatever the parser does, in any order, it gets the same words with the monitor as without,
as long as words are skipped (after an error) only when the buffer is empty. -/
theorem same_words {G : Grammar} {ws : List Tok} {es : List Ev} {s : St} {os : List Out}
    (hs : SkipsLate G ⟨ws, false⟩ false es) (h : run G (St.start ws) es = .ok (s, os)) :
    words os = plain G ⟨ws, false⟩ es := by
  refine run_same es ⟨⟨rfl, rfl, ⟨0, rfl⟩, by intro k row h; simp [St.start] at h⟩, (by intro h; cases h), [], ?_⟩ hs h
  exact ⟨rfl, by simp, rfl, fun _ => rfl, fun a b h hb => by simp at h; exact absurd h.2 hb, fun a x h => by simp at h⟩

end Jbo.Elide
