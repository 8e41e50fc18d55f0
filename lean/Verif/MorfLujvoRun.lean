import Verif.MorfLujvoInv
import Verif.MorfSame
import Verif.MorfSplitThm
/-!
# Lujvo and gismu: every text is in a state of the automaton
-/

namespace Jbo.Morf
open Jbo.Dfasyn Jbo.Lujvo.Nfa Jbo.Lujvo.Spec

variable {f : Fe} {p x z c : Char} {r : List Char}

/-! ## Beginnings -/

def nst : List Char → Nat
  | [] => 0
  | c :: r => if isStart c r then nst r + 1 else nst r

theorem nst_chars (r : List At) : (starts r).length = nst (chars r) := by
  induction r with
  | nil => rfl
  | cons a r ih =>
    rw [starts, chars_cons, nst]
    split
    · rw [List.length_cons, ih]
    · exact ih

theorem nst_zero : nst r = 0 ↔ r = [] := by
  induction r with
  | nil => exact ⟨fun _ => rfl, fun _ => rfl⟩
  | cons c r ih =>
    refine ⟨fun h => ?_, fun h => by cases h⟩
    rw [nst] at h
    split at h
    · omega
    · rename_i hs
      rw [ih.1 h] at hs
      exact absurd (isStart_nil c) hs

theorem nst_le (c : Char) (r : List Char) : nst r ≤ nst (c :: r) := by rw [nst]; split <;> omega

theorem count_ok (hr : NoComma r) (c : Char) :
    count (min 3 (nst r)) ((fe r).tok c) (inhibited (c :: r)) = min 3 (nst (c :: r)) := by
  have hfl := tok_flags (feOk hr) c
  have hst : isStart c r = (Nat.beq (min 3 (nst r)) 0 || (isSet ((fe r).tok c) && !inhibited (c :: r))) := by
    unfold isStart
    rw [hfl.1, Bool.or_comm]
    congr 1
    cases h : Nat.beq (min 3 (nst r)) 0 with
    | true =>
      have h := Nat.eq_of_beq_eq_true h
      have : r = [] := nst_zero.1 (by omega)
      rw [this]; rfl
    | false =>
      cases r with
      | nil => cases h
      | cons _ _ => rfl
  unfold count
  rw [← hst, nst]
  split
  · split
    · rename_i h1 h2
      have := Nat.le_of_ble_eq_true h2
      omega
    · rename_i h1 h2
      rw [Nat.ble_eq] at h2
      omega
  · rfl

/-! ## Letters that are possible -/

def kOf (x : Char) : Nat := if x = 'n' then 1 else if x = 'r' then 2 else if x = 'd' ∨ x = 't' then 3 else if C x then 4 else 0
def grp (c : Char) : Nat := if c = 'n' then 1 else if c = 'r' then 2 else if c = 'd' ∨ c = 't' then 3 else 0

theorem grp_lt (c : Char) : grp c < 4 := by unfold grp; repeat' split
                                            all_goals decide

theorem kOf_notC (h : ¬ C x) : kOf x = 0 := by
  unfold kOf
  rw [if_neg (by rintro rfl; exact h (by decide)), if_neg (by rintro rfl; exact h (by decide)),
    if_neg (by rintro (rfl | rfl) <;> exact h (by decide)), if_neg h]

theorem grp_notC (h : ¬ C x) : grp x = 0 := by
  unfold grp
  rw [if_neg (by rintro rfl; exact h (by decide)), if_neg (by rintro rfl; exact h (by decide)),
    if_neg (by rintro (rfl | rfl) <;> exact h (by decide))]

theorem kOf_lt (x : Char) : kOf x < 5 := by unfold kOf; repeat' split
                                            all_goals decide

theorem kOf_l (x : Char) : (if Nat.ble 3 (kOf x) then 3 else kOf x) = lOf x := by
  by_cases h : C x
  · have : ∀ x ∈ consonants, (if Nat.ble 3 (kOf x) then 3 else kOf x) = lOf x := by decide +kernel
    exact this x h
  · rw [kOf_notC h, lOf_notC h]; rfl

theorem kOf_grp (h : C c) : kOf c = if Nat.beq (grp c) 0 then 4 else grp c := by
  have : ∀ c ∈ consonants, kOf c = if Nat.beq (grp c) 0 then 4 else grp c := by decide +kernel
  exact this c h

theorem feas_pairs : ((List.range 4).all fun L => consonants.all fun x => consonants.all fun c =>
    feas L (kOf x) (grp c) (inact L (mapchar x % 32) (mapchar c % 32)).1) = true := by decide +kernel

theorem feas_first : (consonants.all fun c => feas 0 0 (grp c) (inact 0 0 (mapchar c % 32)).1) = true := by decide +kernel

theorem feas_other : ((List.range 4).all fun L => (List.range 5).all fun K =>
    [0, 1, 2, 3, 16, 17, 18, 19, 20].all fun t => feas L K 0 t) = true := by decide +kernel

theorem feas_ok (hf : Fits f p x z) (hp : Plain c) : feas f.L (kOf x) (grp c) (f.tok c) = true := by
  by_cases hc : C c
  · rw [tok_cons hf hc]
    by_cases hx : C x
    · have := List.all_eq_true.1 (List.all_eq_true.1 (List.all_eq_true.1 feas_pairs f.L (List.mem_range.2 hf.L_lt)) x hx) c hc
      have he : (f.entry c).1 = (inact f.L (mapchar x % 32) (mapchar c % 32)).1 := by
        unfold Fe.entry; rw [hf.S, sOf, if_pos hx]
      rw [he]; exact this
    · have := List.all_eq_true.1 feas_first c hc
      have he : (f.entry c).1 = (inact 0 0 (mapchar c % 32)).1 := by
        unfold Fe.entry; rw [hf.S, sOf, if_neg hx, hf.L, if_neg hx]
      rw [he, kOf_notC hx, hf.L, if_neg hx]; exact this
  · have := List.all_eq_true.1 (List.all_eq_true.1 feas_other f.L (List.mem_range.2 hf.L_lt)) (kOf x) (List.mem_range.2 (kOf_lt x))
    rw [grp_notC hc]
    refine List.all_eq_true.1 this _ ?_
    have h1 := tok_other_small hf hp hc
    have h2 : f.tok c < 21 := token_lt ..
    simp only [List.mem_cons, List.not_mem_nil, or_false]
    omega

/-! ## What the states mean -/

/-- No continuation is a lujvo or a gismu. -/
def Hopeless (r : List Char) : Prop := ∀ t, ¬ IsLujvo (r.reverse ++ t) ∧ ¬ IsGismu (r.reverse ++ t)

theorem Hopeless.cons (h : Hopeless r) (c : Char) : Hopeless (c :: r) := by
  intro t
  have := h (c :: t)
  rwa [List.reverse_cons, List.append_assoc]

/-- The positions after a text. -/
structure Live (r : List Char) (L K v : Nat) (p x z : Char) : Prop where
  fits : Fits (fe r) p x z
  L : L = (fe r).L
  K : K = kOf x
  knows : (vset v).Knows p x z
  luj : ∀ t, IsLujvo (r.reverse ++ t) ↔ (vset v).Lang p x t
  gis : ∀ t, IsGismu (r.reverse ++ t) ↔ Any (vset v).G p x t

structure ReadsL (r : List Char) (s : Luj) : Prop where
  D : nodeN r = s.D
  n : s.n = min 3 (nst r)
  inh : s.inh = inhibited r
  v : s.v < 91
  dead : s.v = 0 → Hopeless r
  live : s.v ≠ 0 → ∃ p x z, Live r s.L s.K s.v p x z

/-- A text that no longer matters. -/
structure Lost (r : List Char) : Prop where
  no : Hopeless r
  gone : nodeN r = 0 ∨ 3 ≤ nst r

theorem nodeN_zero_cons (h : nodeN r = 0) (c : Char) : nodeN (c :: r) = 0 := by
  rw [nodeN_cons, h]; rfl

theorem Lost.cons (h : Lost r) (c : Char) : Lost (c :: r) :=
  ⟨h.no.cons c, h.gone.imp (fun h => nodeN_zero_cons h c) (fun h => Nat.le_trans h (nst_le c r))⟩

theorem nxt_zero (e : Nat) : nxt graphG e 0 = 0 := by
  cases e with
  | zero => rfl
  | succ i =>
    exact unk_dead i

theorem onTok_zero (T : Test) : onTok T 0 = false := by cases T <;> rfl

theorem after1_zero (Q : List Item) : after1 Q 0 = [] := by
  unfold after1
  simp only [onTok_zero, Bool.false_eq_true, if_false]
  simp

theorem next_zero {v : VSet} {t : List Char} : ¬ (v.next 0).Lang p x t ∧ ¬ Any (v.next 0).G p x t := by
  unfold VSet.next
  rw [norm_lang]
  unfold VSet.Lang VSet.norm
  simp only [after1_zero]
  refine ⟨?_, not_any_nil⟩
  rintro (h | ⟨h, _⟩ | ⟨h, _⟩) <;> exact not_any_nil h

theorem reverse_cons_append (c : Char) (r t : List Char) : (c :: r).reverse ++ t = r.reverse ++ c :: t := by
  rw [List.reverse_cons, List.append_assoc]; rfl

theorem live_zero {L K v : Nat} (h : Live r L K v p x z) (hv : v < 91) (hp : Plain c) (h0 : (fe r).tok c = 0) : Lost (c :: r) := by
  refine ⟨fun t => ?_, .inl (by rw [nodeN_cons, h0]; exact nxt_zero _)⟩
  rw [reverse_cons_append, h.luj, h.gis]
  have h1 := List.all_eq_true.1 vnext_check v (List.mem_range.2 hv)
  have h2 := List.all_eq_true.1 h1 ((fe r).tok c) (List.mem_range.2 (token_lt ..))
  rw [Bool.and_eq_true] at h2
  obtain ⟨_, _, h3⟩ := vset_step hv h.fits hp h.knows
  rw [(h3 t).1, (h3 t).2, ← same_lang h2.2, ← same_G h2.2, h0]
  exact next_zero

theorem letter_of_tok (hf : Fits f p x z) (hp : Plain c) (h0 : f.tok c ≠ 0) : Letter c := by
  by_cases hc : C c
  · exact .inl hc
  · have := tok_other hf hp hc
    by_cases hv : V c ∨ c = 'y'
    · exact .inr (hv.imp id .inr)
    · rw [if_neg hv] at this
      by_cases ha : c = '\''
      · exact .inr (.inr (.inl ha))
      · rw [if_neg ha] at this; exact absurd this h0

theorem Live.step {L K v : Nat} (h : Live r L K v p x z) (hv : v < 91) (hr : NoComma r) (hp : Plain c) (h0 : (fe r).tok c ≠ 0) :
    Live (c :: r)
      (if Nat.beq (actOf ((fe r).tok c)) 0 then 0 else if Nat.beq (actOf ((fe r).tok c)) 1 then (if Nat.ble 3 K then 3 else K) else L)
      (if Nat.beq (actOf ((fe r).tok c)) 0 then 0 else if Nat.beq (actOf ((fe r).tok c)) 1 then (if Nat.beq (grp c) 0 then 4 else grp c) else K)
      (vnext v ((fe r).tok c)) (if c = 'y' then p else x) (if c = 'y' then x else c) c := by
  have hl := letter_of_tok h.fits hp h0
  have hf := fits_next h.fits hp hl
  obtain ⟨_, h2, h3⟩ := vset_step hv h.fits hp h.knows
  have ha := (tok_kinds (feOk hr) c h0).1
  have he := entryOk (fe r).L (fe r).S (mapchar c % 32) (Nat.mod_lt _ (by decide))
  have hact : (C c → (actOf ((fe r).tok c)) = 1) ∧ (c = 'y' → (actOf ((fe r).tok c)) = 2) ∧
      (¬ C c → c ≠ 'y' → (actOf ((fe r).tok c)) = 0) := by
    rw [← ha]
    refine ⟨fun hc => he.act1.2 (entry_of_cons h.fits hc).1, ?_, fun hc hy => ?_⟩
    · rintro rfl
      exact he.act2.2 ((entry_other (f := fe r) hp (by decide)).2.2.1.2 rfl)
    · obtain ⟨e1, e2, _, _⟩ := entry_other (f := fe r) hp hc
      rcases hl with hl | hl | hl | hl
      · exact absurd hl hc
      · exact he.act0 (e1.2 hl)
      · exact he.act2' (e2.2 hl)
      · exact absurd hl hy
  refine ⟨hf, ?_, ?_, h2, fun t => ?_, fun t => ?_⟩
  · rw [fe, hf.L]
    by_cases hc : C c
    · have hy : c ≠ 'y' := fun h => not_C_special.2.1 (h ▸ hc)
      rw [hact.1 hc, if_neg hy, if_neg hy, if_pos hc, h.K]
      exact kOf_l x
    · by_cases hy : c = 'y'
      · rw [hact.2.1 hy, if_pos hy, if_pos hy, h.L, h.fits.L]; rfl
      · rw [hact.2.2 hc hy, if_neg hy, if_neg hc]; rfl
  · by_cases hc : C c
    · have hy : c ≠ 'y' := fun h => not_C_special.2.1 (h ▸ hc)
      rw [hact.1 hc, if_neg hy, kOf_grp hc]; rfl
    · by_cases hy : c = 'y'
      · rw [hact.2.1 hy, if_pos hy, h.K]; rfl
      · rw [hact.2.2 hc hy, if_neg hy, kOf_notC hc]; rfl
  · rw [reverse_cons_append, h.luj]; exact (h3 t).1
  · rw [reverse_cons_append, h.gis]; exact (h3 t).2

theorem vset_zero {t : List Char} : ¬ (vset 0).Lang p x t ∧ ¬ Any (vset 0).G p x t := by
  have : vset 0 = ⟨[], [], [], [], [], []⟩ := rfl
  rw [this]
  refine ⟨?_, not_any_nil⟩
  rintro (h | ⟨h, _⟩ | ⟨h, _⟩) <;> exact not_any_nil h

/-- One more letter. -/
theorem ReadsL.step {s : Luj} (h : ReadsL r s) (hr : NoComma r) (hp : Plain c) :
    (∃ sym s', sym < 84 ∧ s.step graphG sym = some s' ∧ ReadsL (c :: r) s') ∨ Lost (c :: r) := by
  have htl : (fe r).tok c < 21 := token_lt ..
  have hD : nodeN (c :: r) = nxt graphG s.D ((fe r).tok c) := by rw [nodeN_cons, h.D]
  have hI : (s.inh || isInh ((fe r).tok c)) = inhibited (c :: r) := by
    rw [inhibited, (tok_flags (feOk hr) c).2, h.inh]
  have hN : count s.n ((fe r).tok c) (s.inh || isInh ((fe r).tok c)) = min 3 (nst (c :: r)) := by
    rw [hI, h.n, count_ok hr]
  -- what `next` says
  have hnext : ∀ k, (vnext s.v ((fe r).tok c) = 0 → Hopeless (c :: r)) → vnext s.v ((fe r).tok c) < 91 →
      (vnext s.v ((fe r).tok c) ≠ 0 → ∃ p x z, Live (c :: r)
        (if Nat.beq (actOf ((fe r).tok c)) 0 then 0 else if Nat.beq (actOf ((fe r).tok c)) 1 then (if Nat.ble 3 s.K then 3 else s.K) else s.L)
        (if Nat.beq (actOf ((fe r).tok c)) 0 then 0 else if Nat.beq (actOf ((fe r).tok c)) 1 then (if Nat.beq k 0 then 4 else k) else s.K)
        (vnext s.v ((fe r).tok c)) p x z) →
      (∃ s', s.next graphG k ((fe r).tok c) = some s' ∧ ReadsL (c :: r) s') ∨ Lost (c :: r) := by
    intro k hd hlt hl
    unfold Luj.next
    dsimp only
    by_cases hv : vnext s.v ((fe r).tok c) = 0
    · rw [if_pos (nbeq_iff.2 hv)]
      by_cases hz : nxt graphG s.D ((fe r).tok c) = 0 ∨ count s.n ((fe r).tok c) (s.inh || isInh ((fe r).tok c)) = 3
      · right
        refine ⟨hd hv, hz.imp (fun h => hD.trans h) (fun h => ?_)⟩
        rw [hN] at h; omega
      · left
        rw [if_neg (by simp only [Bool.or_eq_true, nbeq_iff]; exact hz)]
        exact ⟨_, rfl, hD, hN, hI, Nat.zero_lt_succ 90, fun _ => hd hv, fun h => absurd rfl h⟩
    · left
      rw [if_neg (fun h => hv (nbeq_iff.1 h))]
      exact ⟨_, rfl, hD, hN, hI, hlt, fun h => absurd h hv, hl⟩
  by_cases hv : s.v = 0
  · have hv0 : vnext s.v ((fe r).tok c) = 0 := by
      have : ∀ t < 21, vnext 0 t = 0 := by decide +kernel
      rw [hv]; exact this _ htl
    rcases hnext 0 (fun _ => (h.dead hv).cons c) (by omega) (fun h => absurd hv0 h) with ⟨s', h1, h2⟩ | h1
    · left
      refine ⟨(fe r).tok c, s', by omega, ?_, h2⟩
      unfold Luj.step
      dsimp only
      rw [if_pos (nbeq_iff.2 hv), if_pos (nbeq_iff.2 (by omega)), Nat.mod_eq_of_lt htl]
      exact h1
    · exact .inr h1
  · obtain ⟨p, x, z, hl⟩ := h.live hv
    by_cases h0 : (fe r).tok c = 0
    · exact .inr (live_zero hl h.v hp h0)
    · obtain ⟨hlt, _, hs⟩ := vset_step h.v hl.fits hp hl.knows
      have hst := hl.step h.v hr hp h0
      rcases hnext (grp c) (fun hz t => by
          rw [hst.luj, hst.gis, hz]; exact vset_zero) hlt (fun _ => ⟨_, _, _, hst⟩) with ⟨s', h1, h2⟩ | h1
      · left
        have hg := grp_lt c
        refine ⟨(fe r).tok c + 21 * grp c, s', by omega, ?_, h2⟩
        unfold Luj.step
        dsimp only
        rw [if_neg (fun h => hv (nbeq_iff.1 h)), show ((fe r).tok c + 21 * grp c) % 21 = (fe r).tok c by omega,
          show ((fe r).tok c + 21 * grp c) / 21 = grp c by omega, hl.L, hl.K, if_pos (feas_ok hl.fits hp)]
        exact h1
      · exact .inr h1

theorem readsL_init : ReadsL [] (Luj.dec (lujStates.headD 0)) := by
  have : Luj.dec (lujStates.headD 0) = ⟨1, 0, false, 0, 0, 1⟩ := by decide +kernel
  rw [this]
  refine ⟨rfl, rfl, rfl, by decide, fun h => absurd h (by decide), fun _ => ⟨'\'', '\'', '\'', fits_start, rfl, by decide, ?_, ?_, ?_⟩⟩
  · have : vset 1 = ⟨[.s0], [.b0], [.m0], [.d0], [.e0], [.g0]⟩ := rfl
    dsimp only
    rw [this]
    refine ⟨?_, ?_, ?_, ?_, ?_, ?_⟩ <;> (intro q hq g hg; simp only [List.mem_singleton] at hq; subst hq; exact absurd hg (by simp [needs, rules, req]))
  · intro t
    have : vset 1 = ⟨[.s0], [.b0], [.m0], [.d0], [.e0], [.g0]⟩ := rfl
    dsimp only
    rw [this, List.reverse_nil, List.nil_append, ← lujvo_iff (p := '\'') (x := '\'')]
    simp [VSet.Lang, Any]
  · intro t
    have : vset 1 = ⟨[.s0], [.b0], [.m0], [.d0], [.e0], [.g0]⟩ := rfl
    dsimp only
    rw [this, List.reverse_nil, List.nil_append, ← gismu_iff (p := '\'') (x := '\'')]
    simp [Any]

/-- Every text is in a state of the automaton, or it no longer matters. -/
theorem readsL_all : ∀ (r : List Char), (∀ c ∈ r, Plain c) → (∃ e ∈ lujStates, ReadsL r (Luj.dec e)) ∨ Lost r
  | [], _ => .inl ⟨lujStates.headD 0, by decide +kernel, readsL_init⟩
  | c :: r, h => by
    have hr : NoComma r := fun d hd => (h d (List.mem_cons_of_mem _ hd)).1
    rcases readsL_all r (fun d hd => h d (List.mem_cons_of_mem _ hd)) with ⟨e, he, h1⟩ | h1
    · rcases h1.step hr (h c List.mem_cons_self) with ⟨sym, s', h2, h3, h4⟩ | h2
      · left
        have hc := luj_closed
        rw [withGraph_eq] at hc
        obtain ⟨e', h5, h6⟩ := closedP_step Luj.same_eq (by decide) hc he h2 h3
        exact ⟨e', h5, h6 ▸ h4⟩
      · exact .inr h2
    · exact .inr (h1.cons c)

/-- A lujvo is what has one beginning and the right exit value. -/
theorem one_iff (h : ∀ c ∈ r, Plain c) :
    (isOne 3 4 6 (exitN graphX (nodeN r)) (min 3 (nst r)) = true ↔ IsLujvo r.reverse) ∧
    (isOne 1 2 2 (exitN graphX (nodeN r)) (min 3 (nst r)) = true ↔ IsGismu r.reverse) := by
  rcases readsL_all r h with ⟨e, he, h1⟩ | h1
  · have hg := luj_good
    rw [withGraph_eq] at hg
    have hg := List.all_eq_true.1 hg e he
    unfold Luj.good at hg
    rw [Bool.and_eq_true] at hg
    have g1 := boolSame_eq hg.1
    have g2 := boolSame_eq hg.2
    rw [← h1.D, h1.n] at g1 g2
    rw [g1, g2]
    by_cases hv : (Luj.dec e).v = 0
    · have := h1.dead hv []
      rw [List.append_nil] at this
      rw [hv, ← lang_end (p := '\'') (x := '\''), VSet.gis, ← any_end (p := '\'') (x := '\'')]
      exact ⟨⟨fun h => absurd h vset_zero.1, fun h => absurd h this.1⟩, ⟨fun h => absurd h vset_zero.2, fun h => absurd h this.2⟩⟩
    · obtain ⟨p, x, z, hl⟩ := h1.live hv
      have e1 := hl.luj []
      have e2 := hl.gis []
      rw [List.append_nil] at e1 e2
      rw [e1, e2, lang_end, VSet.gis, any_end]
      exact ⟨Iff.rfl, Iff.rfl⟩
  · have := h1.no []
    rw [List.append_nil] at this
    have hno : ∀ a b b', 0 < a → 0 < b → 0 < b' → isOne a b b' (exitN graphX (nodeN r)) (min 3 (nst r)) = false := by
      intro a b b' ha hb hb'
      unfold isOne
      rcases h1.gone with h | h
      · rw [h, show exitN graphX 0 = 0 from rfl]
        have e1 : Nat.beq 0 a = false := by cases a with | zero => omega | succ a => rfl
        have e2 : Nat.beq 0 b = false := by cases b with | zero => omega | succ a => rfl
        have e3 : Nat.beq 0 b' = false := by cases b' with | zero => omega | succ a => rfl
        rw [e1, e2, e3]; rfl
      · rw [show min 3 (nst r) = 3 by omega, show Nat.beq 3 1 = false from rfl, show Nat.beq 3 2 = false from rfl]
        simp
    rw [hno 3 4 6 (by decide) (by decide) (by decide), hno 1 2 2 (by decide) (by decide) (by decide)]
    exact ⟨⟨fun h => (by cases h), fun h => absurd h this.1⟩, ⟨fun h => (by cases h), fun h => absurd h this.2⟩⟩

end Jbo.Morf
