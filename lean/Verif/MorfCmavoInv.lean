import Verif.MorfCmavo
/-!
# Series of cmavo: what the states of the automaton mean
-/

namespace Jbo.Morf
open Jbo.Dfasyn

/-! ## Actions and tokens -/

theorem unk_dead (i : Nat) : dst graphG i 0 = 0 := by
  unfold dst
  rw [graphG_getD]
  unfold Cert.node
  rw [List.getD_eq_getElem?_getD]
  cases h : morfCert.nodes[i]? with
  | none => rfl
  | some nd => exact Nat.eq_of_beq_eq_true (List.all_eq_true.1 no_unk nd (List.mem_of_getElem? h))

theorem vcheck_y (i j : Nat) : vcheck i j 2 = 0 ∨ vcheck i j 2 = 3 ∨ vcheck i j 2 = 19 ∨ vcheck i j 2 = 20 := by
  unfold vcheck
  repeat' split
  all_goals simp_all

theorem vcheck_vowel (i j k : Nat) (hk : 3 ≤ k) :
    vcheck i j k = 0 ∨ vcheck i j k = 1 ∨ vcheck i j k = 16 ∨ vcheck i j k = 17 ∨ vcheck i j k = 18 := by
  unfold vcheck
  have : (k == 2) = false := by simp; omega
  have h0 : (k == 0) = false := by simp; omega
  simp only [this, Bool.and_false, Bool.false_eq_true, if_false, h0]
  repeat' split
  all_goals simp

/-- For a token that can be read, what the letter and the action are. -/
theorem tok_kinds {f : Fe} (hf : FeOk f) (c : Char) (ht : f.tok c ≠ 0) :
    (f.entry c).2.1 = actOf (f.tok c) ∧ (4 ≤ f.tok c ∧ f.tok c ≤ 15 → isIn consSet (mapchar c % 32) = true) ∧
    (f.tok c = 3 → mapchar c % 32 = 25) := by
  have he := entryOk f.L f.S (mapchar c % 32) (Nat.mod_lt _ (by decide))
  have hle := inact_le f.L f.S (mapchar c % 32)
  have ht' : f.tok c = token f.L f.S (mapchar c % 32) (f.vsm.2.1, f.vsm.2.2, vmapchar c) := rfl
  unfold token at ht'
  unfold Fe.entry
  generalize inact f.L f.S (mapchar c % 32) = e at he hle ht'
  dsimp only at ht'
  have hact : (e.2.1 = 1 ↔ 4 ≤ e.1) ∧ (e.2.1 = 2 ↔ e.1 = 3) := ⟨he.act1, he.act2⟩
  by_cases h1 : e.1 = 1
  · rw [if_pos h1] at ht'
    have hv := (charOkP c).vowel (he.vowel h1)
    have := vcheck_vowel f.vsm.2.1 f.vsm.2.2 _ hv
    rw [← ht'] at this
    have h0 := he.act0 h1
    refine ⟨?_, ?_, ?_⟩
    · rw [h0]
      rcases this with h | h | h | h | h
      · exact absurd h ht
      all_goals rw [h]; rfl
    · omega
    · omega
  · rw [if_neg h1] at ht'
    by_cases h3 : e.1 = 3
    · rw [if_pos h3] at ht'
      have hv := (charOkP c).y (he.y h3)
      rw [hv] at ht'
      have := vcheck_y f.vsm.2.1 f.vsm.2.2
      rw [← ht'] at this
      refine ⟨?_, ?_, fun _ => he.y h3⟩
      · rw [hact.2.2 h3]
        rcases this with h | h | h | h
        · exact absurd h ht
        all_goals rw [h]; rfl
      · omega
    · rw [if_neg h3, if_neg (fun h => hf.near h.2)] at ht'
      rw [ht'] at ht ⊢
      refine ⟨?_, fun h => he.cons h.1, fun h => absurd h h3⟩
      by_cases h2 : e.1 = 2
      · rw [h2, he.act2' h2]; rfl
      · have h4 : 4 ≤ e.1 := by omega
        rw [hact.1.2 h4]
        unfold actOf
        rw [if_neg (by simp; omega), if_pos]
        simp only [Bool.and_eq_true]
        exact ⟨Nat.ble_eq_true_of_le h4, Nat.ble_eq_true_of_le hle⟩

/-! ## The pieces -/

/-- A piece begins here. -/
def isMark (a : At) (r : List At) : Bool := isStart a.2 (chars r) || isCstart a.2 (chars r)

/-- The pieces, last first, with their letters last first. -/
def cuts : List At → List (List At)
  | [] => []
  | a :: r => if isMark a r then [a] :: cuts r else match cuts r with
    | [] => [[a]]
    | p :: ps => (a :: p) :: ps

/-- A single cmavo. -/
def Single (p : List At) : Prop :=
  (exitN graphX (nodeN (chars p)) = 22 ∨ exitN graphX (nodeN (chars p)) = 23) ∧ (starts p).length = 1 ∧ cstarts p = []

/-- The last piece begins where the scanner saw a beginning. -/
structure Begun (r p : List At) : Prop where
  cut : ∃ x a b, p = x ++ [a] ∧ r = p ++ b ∧ isStart a.2 (chars b) = true
  starts : (starts p).length = 1
  cstarts : Morf.cstarts p = []

def isCons (a : At) : Prop := isIn consSet (mapchar a.2 % 32) = true
def isY (a : At) : Prop := mapchar a.2 % 32 = 25

theorem cons_fresh_check : (List.range 32).all (fun g => !isIn consSet g || inact 0 0 g == (4, 1, true, false) ||
    inact 0 0 g == (5, 1, true, false) || inact 0 0 g == (6, 1, true, false)) = true := by decide +kernel

theorem cons_fresh (g : Nat) (hg : g < 32) (h : isIn consSet g = true) :
    inact 0 0 g = (4, 1, true, false) ∨ inact 0 0 g = (5, 1, true, false) ∨ inact 0 0 g = (6, 1, true, false) := by
  have := List.all_eq_true.1 cons_fresh_check g (List.mem_range.2 hg)
  simp only [Bool.or_eq_true, Bool.not_eq_true', beq_iff_eq, h, Bool.true_eq_false, false_or] at this
  rcases this with (h | h) | h
  · exact Or.inl h
  · exact Or.inr (Or.inl h)
  · exact Or.inr (Or.inr h)

set_option maxRecDepth 100000 in
theorem cy_check : withGraph (fun G X => [4, 5, 6].all (fun t => Nat.beq (exitN X (nxt G (dst G 0 t) 3)) 23)) = true := by
  decide +kernel

theorem y_entry (L S : Nat) (hS : ∀ g, isIn consSet g = true → g ≠ 25) : (inact L S 25) = (3, 2, false, false) := by
  unfold inact
  have h1 : isIn consSet 25 = false := by decide
  have h2 : isIn vowelSet 25 = false := by decide
  simp [h1, h2]

/-- A consonant and `y` are a cmavo. -/
theorem single_cy {a b : At} (ha : isY a) (hb : isCons b) : Single [a, b] := by
  unfold isY at ha
  unfold isCons at hb
  have hv : vmapchar b.2 = 1 := (charOkP b.2).cons hb
  have hw : vmapchar a.2 = 2 := (charOkP a.2).y ha
  have he := cons_fresh _ (Nat.mod_lt _ (by decide)) hb
  have hy : ∀ L S, inact L S 25 = (3, 2, false, false) := fun L S => y_entry L S (by
    intro g hg h; subst h; revert hg; decide)
  have hch : chars [a, b] = [a.2, b.2] := rfl
  have hent : Fe.start.entry b.2 = inact 0 0 (mapchar b.2 % 32) := rfl
  have hnext : (fe [b.2]).vsm = (1, 1, 1) := by
    show (Fe.start.next b.2).vsm = _
    unfold Fe.next; rw [hv]; rfl
  have htok2 : (fe [b.2]).tok a.2 = 3 := by
    unfold Fe.tok token
    rw [ha, hy, hnext, hw]
    rfl
  have hent2 : (fe [b.2]).entry a.2 = (3, 2, false, false) := by
    unfold Fe.entry; rw [ha, hy]
  have htok1 : Fe.start.tok b.2 = 4 ∨ Fe.start.tok b.2 = 5 ∨ Fe.start.tok b.2 = 6 := by
    unfold Fe.tok token
    rw [show Fe.start.L = 0 from rfl, show Fe.start.S = 0 from rfl]
    rcases he with he | he | he <;> rw [he] <;> simp [Fe.start]
  refine ⟨Or.inr ?_, ?_, ?_⟩
  · rw [hch, nodeN_cons, nodeN_cons, nodeN_nil, htok2]
    have hc := cy_check
    rw [withGraph_eq] at hc
    simp only [List.all_cons, List.all_nil, Bool.and_true, Bool.and_eq_true] at hc
    show exitN graphX (nxt graphG (nxt graphG 1 (Fe.start.tok b.2)) 3) = 23
    rw [nxt.eq_def graphG 1]
    dsimp only
    rcases htok1 with h | h | h <;> rw [h]
    · exact Nat.eq_of_beq_eq_true hc.1
    · exact Nat.eq_of_beq_eq_true hc.2.1
    · exact Nat.eq_of_beq_eq_true hc.2.2
  · have h1 : isStart a.2 (chars [b]) = false := by
      unfold isStart
      rw [show chars [b] = [b.2] from rfl, hent2]; rfl
    rw [starts, h1, starts]
    rw [if_neg (by simp), if_pos (by exact isStart_nil _)]
    rfl
  · have h1 : isCstart a.2 (chars [b]) = false := by
      unfold isCstart
      rw [show chars [b] = [b.2] from rfl, hent2]; simp
    have h2 : isCstart b.2 (chars []) = false := by
      unfold isCstart
      rw [show chars [] = ([] : List Char) from rfl]; rfl
    rw [cstarts, h1, cstarts, h2]
    rfl

/-- The position of the first letter of a piece. -/
def firstPos (p : List At) : Nat := (p.getLastD (0, ' ')).1

/-- What is known of the pieces. -/
structure Pieces (r : List At) (k E : Nat) : Prop where
  shape : ∃ p ps, cuts r = p :: ps ∧ (∀ q ∈ ps, Single q) ∧ p ≠ [] ∧
    (k = 0 → Begun r p ∧ E = nodeN (chars p) ∧ cstarts r = []) ∧
    (k = 1 → ∃ a, p = [a] ∧ isCons a) ∧
    (k = 2 → ∃ a b, p = [a, b] ∧ isY a ∧ isCons b)
  order : (cuts r).map firstPos = cstarts r ++ starts r

/-- What a state of the automaton says about a text. -/
structure Reads (r : List At) (s : Series) : Prop where
  D : node (chars r) = some s.D
  inh : s.inh = inhibited (chars r)
  la : s.la = (fe (chars r)).lastAct
  empty : r = [] ↔ s.E = 0 ∧ s.k = 0
  known : s.k ≠ 3 → r ≠ [] → Pieces r s.k s.E
  le : s.k ≤ 3

theorem reads_init : Reads [] (Series.dec (cmavoStates.headD 0)) := by
  have : Series.dec (cmavoStates.headD 0) = ⟨0, 0, 0, 0, false⟩ := by decide
  rw [this]
  exact ⟨rfl, rfl, rfl, by simp, by simp, by simp⟩

theorem beq_iff {a b : Nat} : Nat.beq a b = true ↔ a = b :=
  ⟨Nat.eq_of_beq_eq_true, fun h => by subst h; exact Nat.beq_refl _⟩

theorem beq_eq_beq (a b : Nat) : (a == b) = Nat.beq a b := by
  cases h : Nat.beq a b with
  | true => simp [beq_iff.1 h]
  | false => simp; intro h'; rw [beq_iff.2 h'] at h; cases h

theorem begun_one (a : At) (r : List At) (h : isStart a.2 (chars r) = true) : Begun (a :: r) [a] := by
  refine ⟨⟨[], a, r, rfl, rfl, h⟩, ?_, ?_⟩
  · rw [starts, if_pos (by exact isStart_nil _)]; rfl
  · rw [cstarts]; rfl

/-- A piece grows. -/
theorem Begun.grow {r p : List At} (h : Begun r p) (a : At) (hr : NoComma (chars r))
    (hs : isStart a.2 (chars r) = false) (hc : isCstart a.2 (chars r) = false) :
    Begun (a :: r) (a :: p) ∧ (fe (chars p)).tok a.2 = (fe (chars r)).tok a.2 := by
  obtain ⟨x, d, b, h1, h2, h3⟩ := h.cut
  have hb : NoComma (chars b) := by
    rw [h2, chars_append, noComma_append] at hr; exact hr.2
  have hrt : chars r = chars x ++ d.2 :: chars b := by rw [h2, h1]; simp [chars]
  have htt : chars p = chars x ++ [d.2] := by rw [h1]; simp [chars]
  rw [hrt] at hs hc ⊢
  rw [cut_isStart h3 hb] at hs
  rw [cut_isCstart h3 hb] at hc
  refine ⟨⟨⟨a :: x, d, b, by rw [h1]; rfl, by rw [h2]; rfl, h3⟩, ?_, ?_⟩, ?_⟩
  · rw [Morf.starts, htt, hs]; exact h.starts
  · rw [Morf.cstarts, htt, hc]; exact h.cstarts
  · rw [htt, same_tok (cut_fe h3 hb _)]

theorem firstPos_grow (a : At) {p : List At} (h : p ≠ []) : firstPos (a :: p) = firstPos p := by
  cases p with
  | nil => exact absurd rfl h
  | cons b p => rfl

theorem Pieces.begin {r : List At} {k E : Nat} (h : Pieces r k E) (a : At) (hr : NoComma (chars r)) (hk : k = 0)
    (hs : isStart a.2 (chars r) = true) (hc : isCstart a.2 (chars r) = false) (hE : exitN graphX E = 22) :
    Pieces (a :: r) 0 (dst graphG 0 ((fe (chars r)).tok a.2)) := by
  obtain ⟨p, ps, h1, h2, h3, h4, _, _⟩ := h.shape
  obtain ⟨h5, h6, h7⟩ := h4 hk
  have hcut : cuts (a :: r) = [a] :: cuts r := by rw [cuts, isMark, hs]; rfl
  refine ⟨⟨[a], p :: ps, by rw [hcut, h1], ?_, by simp, ?_, by simp, by simp⟩, ?_⟩
  · intro q hq
    rcases List.mem_cons.1 hq with rfl | hq
    · exact ⟨Or.inl (h6 ▸ hE), h5.starts, h5.cstarts⟩
    · exact h2 q hq
  · intro _
    refine ⟨begun_one a r hs, ?_, ?_⟩
    · rw [show chars [a] = [a.2] from rfl, nodeN_cons, nodeN_nil, nxt, (cut_entry hs hr).2.1]; rfl
    · rw [cstarts, hc]; exact h7
  · rw [hcut, List.map_cons, h.order, h7, cstarts, hc, starts, hs, h7]; rfl

theorem Pieces.mark {r : List At} {k E : Nat} (h : Pieces r k E) (a : At)
    (hs : isStart a.2 (chars r) = false) (hc : isCstart a.2 (chars r) = true) (ha : isCons a)
    (hk : (k = 0 ∧ exitN graphX E = 23) ∨ k = 2) : Pieces (a :: r) 1 0 := by
  obtain ⟨p, ps, h1, h2, h3, h4, _, h6⟩ := h.shape
  have hcut : cuts (a :: r) = [a] :: cuts r := by rw [cuts, isMark, hs, hc]; rfl
  refine ⟨⟨[a], p :: ps, by rw [hcut, h1], ?_, by simp, by simp, fun _ => ⟨a, rfl, ha⟩, by simp⟩, ?_⟩
  · intro q hq
    rcases List.mem_cons.1 hq with rfl | hq
    · rcases hk with ⟨hk, hE⟩ | hk
      · obtain ⟨h5, h6, h7⟩ := h4 hk
        exact ⟨Or.inr (h6 ▸ hE), h5.starts, h5.cstarts⟩
      · obtain ⟨x, y, h7, h8, h9⟩ := h6 hk
        rw [h7]; exact single_cy h8 h9
    · exact h2 q hq
  · rw [hcut, List.map_cons, h.order, cstarts, hc, starts, hs]; rfl

theorem Pieces.grow {r : List At} {k E : Nat} (h : Pieces r k E) (a : At) (hr : NoComma (chars r))
    (hs : isStart a.2 (chars r) = false) (hc : isCstart a.2 (chars r) = false) :
    (k = 0 → Pieces (a :: r) 0 (nxt graphG E ((fe (chars r)).tok a.2))) ∧
    (k = 1 → isY a → Pieces (a :: r) 2 0) := by
  obtain ⟨p, ps, h1, h2, h3, h4, h5, _⟩ := h.shape
  have hcut : cuts (a :: r) = (a :: p) :: ps := by rw [cuts, isMark, hs, hc, h1]; rfl
  have hord : (cuts (a :: r)).map firstPos = cstarts (a :: r) ++ starts (a :: r) := by
    rw [cstarts, hc, starts, hs]
    simp only [Bool.false_eq_true, if_false]
    rw [← h.order, hcut, h1, List.map_cons, List.map_cons, firstPos_grow a h3]
  constructor
  · intro hk
    obtain ⟨h6, h7, h8⟩ := h4 hk
    obtain ⟨g1, g2⟩ := h6.grow a hr hs hc
    refine ⟨⟨a :: p, ps, hcut, h2, by simp, fun _ => ⟨g1, ?_, ?_⟩, by simp, by simp⟩, hord⟩
    · rw [chars_cons, nodeN_cons, g2, h7]
    · rw [cstarts, hc]; exact h8
  · intro hk hy
    obtain ⟨x, h6, h7⟩ := h5 hk
    subst h6
    exact ⟨⟨[a, x], ps, hcut, h2, by simp, by simp, by simp, fun _ => ⟨a, x, rfl, hy, h7⟩⟩, hord⟩

theorem after_spec {r : List At} {E : Nat} (h : Pieces r 0 E) (hr : r ≠ []) :
    (r = [] ↔ (after 0 E).2 = 0 ∧ (after 0 E).1 = 0) ∧ ((after 0 E).1 ≠ 3 → r ≠ [] →
      Pieces r (after 0 E).1 (after 0 E).2) ∧ (after 0 E).1 ≤ 3 := by
  cases E with
  | zero => simp [after, hr]
  | succ E => exact ⟨by simp [after, hr], fun _ _ => h, by simp [after]⟩

theorem Reads.step {r : List At} {s : Series} (h : Reads r s) (a : At) (hr : NoComma (chars r))
    (hn : node (chars (a :: r)) ≠ none) :
    ∃ s', s.step graphG graphX ((fe (chars r)).tok a.2) = some s' ∧ Reads (a :: r) s' := by
  have hD : nodeN (chars r) = s.D + 1 := by unfold nodeN; rw [h.D]
  have hN := nodeN_cons a.2 (chars r)
  rw [hD, nxt] at hN
  have hfl := tok_flags (feOk hr) a.2
  have hfirst : (Nat.beq s.E 0 && Nat.beq s.k 0) = r.isEmpty := by
    cases r with
    | nil => rw [(h.empty.1 rfl).1, (h.empty.1 rfl).2]; rfl
    | cons x r =>
      have : ¬ (s.E = 0 ∧ s.k = 0) := fun h0 => by cases h.empty.2 h0
      rw [List.isEmpty_cons, Bool.eq_false_iff]
      intro hh
      rw [Bool.and_eq_true, beq_iff, beq_iff] at hh
      exact this hh
  have hst : isStart a.2 (chars r) = (r.isEmpty || (isSet ((fe (chars r)).tok a.2) &&
      !(s.inh || isInh ((fe (chars r)).tok a.2)))) := by
    unfold isStart
    rw [hfl.1, inhibited, hfl.2, h.inh, Bool.or_comm]
    cases r <;> rfl
  have hinh : inhibited (chars (a :: r)) = (s.inh || isInh ((fe (chars r)).tok a.2)) := by
    rw [chars_cons, inhibited, hfl.2, h.inh]
  unfold Series.step
  cases hd : dst graphG s.D ((fe (chars r)).tok a.2) with
  | zero =>
    exfalso
    rw [hd] at hN
    apply hn
    unfold nodeN at hN
    rw [chars_cons]
    cases hx : node (a.2 :: chars r) with
    | none => rfl
    | some i => rw [hx] at hN; simp at hN
  | succ d =>
    have htok : (fe (chars r)).tok a.2 ≠ 0 := by
      intro h0
      rw [h0, unk_dead] at hd; cases hd
    obtain ⟨t1, t2, t3⟩ := tok_kinds (feOk hr) a.2 htok
    have hcs : isCstart a.2 (chars r) = (Nat.beq s.la 2 && Nat.beq (actOf ((fe (chars r)).tok a.2)) 1) := by
      unfold isCstart
      rw [t1, h.la, beq_eq_beq, beq_eq_beq]
    have hnode : node (chars (a :: r)) = some d := by
      rw [hd] at hN
      unfold nodeN at hN
      rw [chars_cons]
      cases hx : node (a.2 :: chars r) with
      | none => rw [hx] at hN; simp at hN
      | some i =>
        rw [hx] at hN
        have : i = d := by simpa using hN
        rw [this]
    dsimp only
    have main : ((a :: r = []) ↔ (s.piece graphG graphX ((fe (chars r)).tok a.2)
          (s.inh || isInh ((fe (chars r)).tok a.2))).2 = 0 ∧ (s.piece graphG graphX ((fe (chars r)).tok a.2)
          (s.inh || isInh ((fe (chars r)).tok a.2))).1 = 0) ∧
        ((s.piece graphG graphX ((fe (chars r)).tok a.2) (s.inh || isInh ((fe (chars r)).tok a.2))).1 ≠ 3 →
          a :: r ≠ [] → Pieces (a :: r) (s.piece graphG graphX ((fe (chars r)).tok a.2)
          (s.inh || isInh ((fe (chars r)).tok a.2))).1 (s.piece graphG graphX ((fe (chars r)).tok a.2)
          (s.inh || isInh ((fe (chars r)).tok a.2))).2) ∧ (s.piece graphG graphX ((fe (chars r)).tok a.2)
          (s.inh || isInh ((fe (chars r)).tok a.2))).1 ≤ 3 := by
      unfold Series.piece
      dsimp only
      rw [hfirst, ← hst, ← hcs]
      have fail : ((a :: r = []) ↔ ((3, 0) : Nat × Nat).2 = 0 ∧ ((3, 0) : Nat × Nat).1 = 0) ∧
          (((3, 0) : Nat × Nat).1 ≠ 3 → a :: r ≠ [] → Pieces (a :: r) ((3, 0) : Nat × Nat).1 ((3, 0) : Nat × Nat).2) ∧
          ((3, 0) : Nat × Nat).1 ≤ 3 := by simp
      cases hs : isStart a.2 (chars r) with
      | true =>
        rw [if_pos rfl]
        split
        · rename_i hc
          simp only [Bool.and_eq_true, Bool.not_eq_true', Bool.or_eq_true, beq_iff] at hc
          obtain ⟨⟨hk, hcs'⟩, hor⟩ := hc
          refine after_spec ?_ (by simp)
          by_cases hr0 : r = []
          · subst hr0
            refine ⟨⟨[a], [], by rw [cuts, isMark, hs]; rfl, by simp, by simp, fun _ => ⟨begun_one a [] hs, ?_, ?_⟩, by simp, by simp⟩, ?_⟩
            · rw [show chars [a] = [a.2] from rfl, nodeN_cons, nodeN_nil, nxt]; rfl
            · rw [cstarts]; rfl
            · rw [starts, hs, cstarts, cuts, isMark, hs]; rfl
          · have hE : exitN graphX s.E = 22 := by
              rcases hor with h0 | h0
              · exact absurd (List.isEmpty_iff.1 h0) hr0
              · exact h0
            exact (h.known (by omega) hr0).begin a hr hk hs hcs' hE
        · exact fail
      | false =>
        have hr0 : r ≠ [] := by rintro rfl; rw [show chars [] = ([] : List Char) from rfl, isStart_nil] at hs; cases hs
        rw [if_neg (by simp)]
        cases hc : isCstart a.2 (chars r) with
        | true =>
          rw [if_pos rfl]
          split
          · rename_i hk
            simp only [Bool.and_eq_true, Bool.or_eq_true, beq_iff] at hk
            have hcons : isCons a := by
              apply t2
              rw [hcs] at hc
              simp only [Bool.and_eq_true, beq_iff] at hc
              have := hc.2
              unfold actOf at this
              split at this
              · simp at this
              · split at this
                · rename_i h4
                  rw [Bool.and_eq_true] at h4
                  exact ⟨Nat.le_of_ble_eq_true h4.1, Nat.le_of_ble_eq_true h4.2⟩
                · simp at this
            refine ⟨by simp, fun _ _ => ?_, by simp⟩
            exact (h.known (by omega) hr0).mark a hs hc hcons hk
          · exact fail
        | false =>
          rw [if_neg (by simp)]
          split
          · rename_i hk
            rw [beq_iff] at hk
            exact after_spec (((h.known (by omega) hr0).grow a hr hs hc).1 hk) (by simp)
          · split
            · rename_i hk
              simp only [Bool.and_eq_true, beq_iff] at hk
              refine ⟨by simp, fun _ _ => ?_, by simp⟩
              exact ((h.known (by omega) hr0).grow a hr hs hc).2 hk.1 (t3 hk.2)
            · exact fail
    refine ⟨_, rfl, hnode, hinh.symm, ?_, main.1, main.2.1, main.2.2⟩
    show actOf _ = ((fe (chars r)).next a.2).lastAct
    rw [← t1]; rfl

/-- Every text that the scanner gets through is described by a state of the list. -/
theorem reads_all (r : List At) (hr : NoComma (chars r)) (hn : node (chars r) ≠ none) :
    ∃ e ∈ cmavoStates, Reads r (Series.dec e) := by
  induction r with
  | nil => exact ⟨_, by decide, reads_init⟩
  | cons a r ih =>
    have hr' : NoComma (chars r) := fun c hc => hr c (List.mem_cons_of_mem _ hc)
    have hn' : node (chars r) ≠ none := fun h => hn (node_none_cons h a.2)
    obtain ⟨e, he, hk⟩ := ih hr' hn'
    obtain ⟨s', h1, h2⟩ := hk.step a hr' hn
    have hc := series_closed
    rw [withGraph_eq] at hc
    obtain ⟨e', h3, h4⟩ := closedP_step Series.same_eq (by decide) hc he
      (toks_lt (chars (a :: r)) _ (by simp [chars, toks])) h1
    exact ⟨e', h3, h4 ▸ h2⟩

/-- All pieces of a series of cmavo are single cmavo. -/
theorem cmavo_pieces {r : List At} (hr : NoComma (chars r)) {i : Nat} (hi : node (chars r) = some i)
    (hk : (morfCert.cls i).exit = 22 ∨ (morfCert.cls i).exit = 23) :
    r ≠ [] ∧ (∀ p ∈ cuts r, Single p) ∧ (cuts r).map firstPos = cstarts r ++ starts r ∧
      ((morfCert.cls i).exit = 22 → cstarts r = []) := by
  obtain ⟨e, he, hR⟩ := reads_all r hr (by rw [hi]; simp)
  have hg := series_good
  rw [withGraph_eq] at hg
  have hg := List.all_eq_true.1 hg e he
  generalize Series.dec e = s at hR hg
  have hsD : s.D = i := by
    have := hR.D
    rw [hi] at this
    exact (Option.some.inj this).symm
  have hr0 : r ≠ [] := by
    intro h0
    subst h0
    have : node (chars []) = some 0 := rfl
    rw [hi] at this
    have hi0 : i = 0 := Option.some.inj this
    subst hi0
    have hc : (morfCert.cls 0).exit = 0 := rfl
    rw [hc] at hk
    omega
  unfold Series.good at hg
  rw [hsD, exitX_eq] at hg
  simp only [Bool.and_eq_true, Bool.or_eq_true, Bool.not_eq_true'] at hg
  have nb : ∀ {a b : Nat}, Nat.beq a b = false → a ≠ b := by
    intro a b h h'; subst h'; rw [Nat.beq_refl] at h; cases h
  have h22 : (morfCert.cls i).exit = 22 → s.k = 0 ∧ exitN graphX s.E = 22 := by
    intro h
    rcases hg.1 with h1 | h1
    · exact absurd h (nb h1)
    · exact ⟨beq_iff.1 h1.1, beq_iff.1 h1.2⟩
  have h23 : (morfCert.cls i).exit = 23 → s.k = 2 ∨ (s.k = 0 ∧ exitN graphX s.E = 23) := by
    intro h
    rcases hg.2 with (h1 | h1) | h1
    · exact absurd h (nb h1)
    · exact Or.inl (beq_iff.1 h1)
    · exact Or.inr ⟨beq_iff.1 h1.1, beq_iff.1 h1.2⟩
  have hP := hR.known (by rcases hk with h | h; · have := h22 h; omega
                          · have := h23 h; omega) hr0
  obtain ⟨p, ps, h1, h2, h3, h4, h5, h6⟩ := hP.shape
  refine ⟨hr0, ?_, hP.order, fun h => (h4 (h22 h).1).2.2⟩
  rw [h1]
  intro q hq
  rcases List.mem_cons.1 hq with rfl | hq
  · have z : s.k = 0 → (exitN graphX s.E = 22 ∨ exitN graphX s.E = 23) → Single q := by
      intro hz hE
      obtain ⟨g1, g2, g3⟩ := h4 hz
      exact ⟨g2 ▸ hE, g1.starts, g1.cstarts⟩
    rcases hk with h | h
    · exact z (h22 h).1 (Or.inl (h22 h).2)
    · rcases h23 h with h | h
      · obtain ⟨x, y, h7, h8, h9⟩ := h6 h
        rw [h7]; exact single_cy h8 h9
      · exact z h.1 (Or.inr h.2)
  · exact h2 q hq

end Jbo.Morf
