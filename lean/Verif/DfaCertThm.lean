import Verif.DfaCert
/-!
# A checked automaton is the subset automaton
-/

namespace Jbo.Dfasyn

/-! ## Bits -/

theorem bitsOf_testBit (l : List Nat) (q : Nat) : (bitsOf l).testBit q = true ↔ q ∈ l := by
  induction l with
  | nil => simp [bitsOf]
  | cons s l ih =>
    simp only [bitsOf, Nat.testBit_or, Bool.or_eq_true, ih, List.mem_cons]
    rw [Nat.testBit_shiftLeft, Bool.and_eq_true, decide_eq_true_eq]
    constructor
    · rintro (⟨h1, h2⟩ | h)
      · rw [Nat.testBit_one_eq_true_iff_self_eq_zero] at h2
        left; omega
      · exact Or.inr h
    · rintro (rfl | h)
      · left; exact ⟨Nat.le_refl _, by simp⟩
      · exact Or.inr h

theorem nameBits_eq (names l : List Name) : nameBits names l = bitsOf (l.map names.idxOf) := by
  induction l with
  | nil => rfl
  | cons n l ih => simp only [nameBits, bitsOf, List.map_cons, ih]

theorem unionOf_testBit (P : BT Nat) (l : List Nat) (k : Nat) :
    (unionOf P l).testBit k = true ↔ ∃ s ∈ l, (P.getD s 0).testBit k = true := by
  induction l with
  | nil => simp [unionOf]
  | cons s l ih =>
    have : unionOf P (s :: l) = P.getD s 0 ||| unionOf P l := rfl
    rw [this, Nat.testBit_or, Bool.or_eq_true, ih]
    simp

theorem lt_two_pow_of_bits {v N : Nat} (h : ∀ q, v.testBit q = true → q < N) : v < 2 ^ N := by
  apply Nat.lt_pow_two_of_testBit
  intro i hi
  cases hv : v.testBit i with
  | false => rfl
  | true => exact absurd (h i hv) (by omega)

/-! ## The closure -/

/-- Reachability by epsilon transitions, first step first. -/
inductive HReach (a : Nfa) : Nat → Nat → Prop
  | refl (p : Nat) : HReach a p p
  | step {p r q : Nat} : (none, r) ∈ (a.state p).trans → HReach a r q → HReach a p q

theorem HReach.snoc {a : Nfa} {p q r : Nat} (h : HReach a p q) (hr : (none, r) ∈ (a.state q).trans) :
    HReach a p r := by
  induction h with
  | refl p => exact .step hr (.refl r)
  | step h1 _ ih => exact .step h1 (ih hr)

theorem EReach.toHead {a : Nfa} {p q : Nat} (h : EReach a p q) : HReach a p q := by
  induction h with
  | refl => exact .refl p
  | step _ h2 ih => exact ih.snoc h2

theorem EReach.trans {a : Nfa} {p q r : Nat} (h1 : EReach a p q) (h2 : EReach a q r) : EReach a p r := by
  induction h2 with
  | refl => exact h1
  | step _ hk ih => exact ih.step hk

theorem cloGo_testBit (T : BT Nat) (l : List (Option Nat × Nat)) (k : Nat) :
    (cloStep.go T l).testBit k = true ↔ ∃ d, (none, d) ∈ l ∧ (T.getD d 0).testBit k = true := by
  induction l with
  | nil => simp [cloStep.go]
  | cons x l ih =>
    obtain ⟨t, d⟩ := x
    cases t with
    | none =>
      simp only [cloStep.go, Nat.testBit_or, Bool.or_eq_true, ih, List.mem_cons, Prod.mk.injEq, true_and]
      constructor
      · rintro (h | ⟨d', h1, h2⟩)
        · exact ⟨d, Or.inl rfl, h⟩
        · exact ⟨d', Or.inr h1, h2⟩
      · rintro ⟨d', rfl | h1, h2⟩
        · exact Or.inl h2
        · exact Or.inr ⟨d', h1, h2⟩
    | some t => simp [cloStep.go, ih]

theorem cloStep_testBit (T : BT Nat) (s : NState) (i k : Nat) :
    (cloStep T (s, i)).testBit k = true ↔
      k = i ∨ ∃ d, (none, d) ∈ s.trans ∧ (T.getD d 0).testBit k = true := by
  unfold cloStep
  rw [Nat.testBit_or, Bool.or_eq_true, cloGo_testBit]
  have h := bitsOf_testBit [i] k
  simp only [bitsOf, Nat.or_zero, List.mem_singleton] at h
  rw [h]

/-- The list of the closures after `k` rounds. -/
noncomputable def cloList (depth : Nat) (Z : List (NState × Nat)) : Nat → List Nat → List Nat
  | 0, l => l
  | n + 1, l => cloList depth Z n (Z.map (cloStep (BT.ofL depth l)))

theorem cloIter_eq {β : Type} (depth : Nat) (Z : List (NState × Nat)) (n : Nat) (l : List Nat) (k : BT Nat → β) :
    cloIter (BT.ofL depth Z) n (BT.ofL depth l) k = k (BT.ofL depth (cloList depth Z n l)) := by
  induction n generalizing l with
  | zero => rfl
  | succ n ih => simp only [cloIter, cloList, BT.mapF_eq, BT.map_ofL, ih]

/-- Every bit of a row is a reachable state. -/
def SoundRows (a : Nfa) (l : List Nat) : Prop :=
  l.length = a.n ∧ ∀ p < a.n, ∀ q, (l.getD p 0).testBit q = true → EReach a p q

theorem getD_zip_map (a : Nfa) (f : NState × Nat → Nat) (p : Nat) (hp : p < a.n) :
    (a.states.zipIdx.map f).getD p 0 = f (a.state p, p) := by
  unfold Nfa.state
  have hp' : p < a.states.length := hp
  simp [List.getD_eq_getElem?_getD, List.getElem?_eq_getElem hp']

theorem sound_step {a : Nfa} (hwf : a.WF) {depth : Nat} (hd : a.n ≤ 2 ^ depth) {l : List Nat}
    (h : SoundRows a l) : SoundRows a (a.states.zipIdx.map (cloStep (BT.ofL depth l))) := by
  refine ⟨by simp [Nfa.n], fun p hp q hq => ?_⟩
  rw [getD_zip_map a _ p hp, cloStep_testBit] at hq
  rcases hq with rfl | ⟨d, h1, h2⟩
  · exact .refl _
  · rw [BT.getD_ofL depth l (by rw [h.1]; exact hd)] at h2
    exact ((EReach.refl p).step h1).trans (h.2 d (hwf p _ h1).1 q h2)

theorem sound_iter {a : Nfa} (hwf : a.WF) {depth : Nat} (hd : a.n ≤ 2 ^ depth) (n : Nat) {l : List Nat}
    (h : SoundRows a l) : SoundRows a (cloList depth a.states.zipIdx n l) := by
  induction n generalizing l with
  | zero => exact h
  | succ n ih => exact ih (sound_step hwf hd h)

theorem sound_start (a : Nfa) : SoundRows a (a.states.zipIdx.map (fun s => 1 <<< s.2)) := by
  refine ⟨by simp [Nfa.n], fun p hp q hq => ?_⟩
  rw [getD_zip_map a _ p hp] at hq
  have h := bitsOf_testBit [p] q
  simp only [bitsOf, Nat.or_zero, List.mem_singleton] at h
  rw [h.1 hq]
  exact .refl _

theorem rows_complete {a : Nfa} (hwf : a.WF) {depth : Nat} (hd : a.n ≤ 2 ^ depth) {l : List Nat}
    (hl : l.length = a.n) (hfix : BT.ofL depth l = BT.ofL depth (a.states.zipIdx.map (cloStep (BT.ofL depth l))))
    {p q : Nat} (hp : p < a.n) (h : EReach a p q) : (l.getD p 0).testBit q = true := by
  have key : ∀ p < a.n, l.getD p 0 = cloStep (BT.ofL depth l) (a.state p, p) := by
    intro p hp
    have h1 := congrArg (fun t => BT.getD t p 0) hfix
    rw [BT.getD_ofL depth l (by omega), BT.getD_ofL depth _ (by simpa [Nfa.n] using hd),
      getD_zip_map a _ p hp] at h1
    exact h1
  replace h := h.toHead
  clear hfix
  revert hp
  induction h with
  | refl p => intro hp; rw [key p hp, cloStep_testBit]; exact Or.inl rfl
  | @step p r q h1 _ ih =>
    intro hp
    have hr := (hwf p _ h1).1
    rw [key p hp, cloStep_testBit]
    exact Or.inr ⟨r, h1, by rw [BT.getD_ofL depth l (by omega)]; exact ih hr⟩

/-! ## The fields -/

theorem postGo_mem (T : BT Nat) (l : List (Option Nat × Nat)) (t v : Nat) :
    (t, v) ∈ post.go T l ↔ ∃ d, (some t, d) ∈ l ∧ v = T.getD d 0 := by
  induction l with
  | nil => simp [post.go]
  | cons x l ih =>
    obtain ⟨u, d⟩ := x
    cases u with
    | none => simp [post.go, ih]
    | some u =>
      simp only [post.go, List.mem_cons, Prod.mk.injEq, ih, Option.some.injEq]
      constructor
      · rintro (⟨rfl, rfl⟩ | ⟨d', h1, h2⟩)
        · exact ⟨d, Or.inl ⟨rfl, rfl⟩, rfl⟩
        · exact ⟨d', Or.inr h1, h2⟩
      · rintro ⟨d', ⟨rfl, rfl⟩ | h1, h2⟩
        · exact Or.inl ⟨rfl, h2⟩
        · exact Or.inr ⟨d', h1, h2⟩

theorem rowFields_mem (B : BT Nat) (W row m t v : Nat) :
    (t, v) ∈ rowFields B W row m ↔ t < m ∧ ∃ d, destOf W row t = d + 1 ∧ v = B.getD d 0 := by
  induction m with
  | zero => simp [rowFields]
  | succ m ih =>
    unfold rowFields
    cases hd : destOf W row m with
    | zero =>
      simp only [ih]
      constructor
      · rintro ⟨h1, h2⟩; exact ⟨by omega, h2⟩
      · rintro ⟨h1, d, h2, h3⟩
        have : t ≠ m := by rintro rfl; rw [hd] at h2; cases h2
        exact ⟨by omega, d, h2, h3⟩
    | succ d =>
      simp only [List.mem_cons, Prod.mk.injEq, ih]
      constructor
      · rintro (⟨rfl, rfl⟩ | ⟨h1, h2⟩)
        · exact ⟨by omega, d, hd, rfl⟩
        · exact ⟨by omega, h2⟩
      · rintro ⟨h1, d', h2, h3⟩
        by_cases htm : t = m
        · subst htm
          rw [hd] at h2
          cases h2
          exact Or.inl ⟨rfl, h3⟩
        · exact Or.inr ⟨by omega, d', h2, h3⟩

theorem rowOk_dest {len W row : Nat} : ∀ m, rowOk len W row m = true → ∀ t < m, destOf W row t ≤ len
  | 0, _, t, ht => by omega
  | m + 1, h, t, ht => by
    unfold rowOk at h
    rw [Bool.and_eq_true] at h
    by_cases htm : t = m
    · subst htm; exact Nat.le_of_ble_eq_true h.1
    · exact rowOk_dest m h.2 t (by omega)

/-! ## The theorem -/

/-- What a checked certificate guarantees. -/
structure CertOk (c : Cert) (a : Nfa) (start : Nat) : Prop where
  wf : a.WF
  nt : 0 < a.nt
  lt : start < a.n
  reads : ∀ w, match run (c.step a.nt) 0 w with
    | none => ∀ q, ¬ After a start w q
    | some i => i < c.nodes.length ∧ (∃ q, After a start w q) ∧ ∀ q, After a start w q ↔ q ∈ (c.node i).set
  exit : ∀ w i, run (c.step a.nt) 0 w = some i →
    Calls a.exit (Tagged a (·.exits) start w) a.exit.results (verdictOf a.exit (c.cls i).exit) ∧
    verdictOf a.exit (c.cls i).exit ≠ .ambiguous
  attr : ∀ w i, run (c.step a.nt) 0 w = some i →
    Calls a.attr (Tagged a (·.attrs) start w) a.attr.results (verdictOf a.attr (c.cls i).attr) ∧
    verdictOf a.attr (c.cls i).attr ≠ .ambiguous
  clean : ∀ q, (∀ n ∈ (a.state q).exits, a.exit.lookup n = none) ∧ (∀ n ∈ (a.state q).attrs, a.attr.lookup n = none)

theorem verdictOf_ne {x : Evaluator} {k : Nat} (h : k ≤ x.results.length) : verdictOf x k ≠ .ambiguous := by
  cases k with
  | zero => simp [verdictOf]
  | succ k =>
    simp only [verdictOf]
    rw [List.getElem?_eq_getElem (show k < x.results.length by omega)]
    simp

/-- One tag field of a node. -/
theorem tags_iff {names : List Name} {m : Nat} (hm : m < 2 ^ names.length) {tagged : Name → Prop}
    (hin : ∀ n, tagged n → n ∈ names) (hbit : ∀ k, k < names.length → (m.testBit k = true ↔
      ∃ n, tagged n ∧ names.idxOf n = k)) : (fun n => m.testBit (names.idxOf n) = true) = tagged := by
  funext n
  apply propext
  by_cases hn : n ∈ names
  · have hk : names.idxOf n < names.length := List.idxOf_lt_length_of_mem hn
    rw [hbit _ hk]
    constructor
    · rintro ⟨n', h1, h2⟩
      have hk' := List.idxOf_lt_length_of_mem (hin n' h1)
      have e1 := List.getElem_idxOf hk
      have e2 := List.getElem_idxOf hk'
      have : n' = n := by
        rw [← e1, ← e2]
        simp only [h2]
      exact this ▸ h1
    · exact fun h => ⟨n, h, rfl⟩
  · rw [List.idxOf_eq_length hn, Nat.testBit_lt_two_pow hm]
    simp only [Bool.false_eq_true, false_iff]
    exact fun h => hn (hin n h)

theorem cert_ok {c : Cert} {a : Nfa} {start rounds depth : Nat} (hg : c.graphOk a start rounds depth = true)
    (hn : c.namesOk a start depth = true) : CertOk c a start := by
  unfold Cert.namesOk at hn
  simp only [Bool.and_eq_true, decide_eq_true_eq] at hn
  obtain ⟨⟨⟨⟨⟨⟨⟨⟨⟨⟨⟨hwf, hin⟩, hlx⟩, hla⟩, hcl⟩, hs⟩, hnt⟩, hd⟩, hd'⟩, hxn⟩, han⟩, hpos⟩ := hn
  have hwf : a.WF := wf_of_all a hwf
  have hin' : ∀ q, (∀ n ∈ (a.state q).exits, n ∈ c.exitNames) ∧ (∀ n ∈ (a.state q).attrs, n ∈ c.attrNames) := by
    intro q
    unfold Nfa.state
    rw [List.getD_eq_getElem?_getD]
    cases hp : a.states[q]? with
    | none => simp
    | some s =>
      have h1 := List.all_eq_true.1 hin s (List.mem_of_getElem? hp)
      rw [Bool.and_eq_true, List.all_eq_true, List.all_eq_true] at h1
      simp only [Option.getD_some]
      exact ⟨fun n hn => by simpa using h1.1 n hn, fun n hn => by simpa using h1.2 n hn⟩
  -- unfold the check
  unfold Cert.graphOk at hg
  rw [zipF_eq, BT.of_eq, BT.mapF_eq, BT.map_ofL, cloIter_eq, BT.mapF_eq, BT.map_ofL, BT.mapF_eq, BT.map_ofL,
    BT.of_eq, BT.mapF_eq, BT.map_ofL] at hg
  simp only [Bool.and_eq_true] at hg
  obtain ⟨⟨⟨hfix, hB⟩, h0⟩, hall⟩ := hg
  have hsound := sound_iter hwf hd rounds (sound_start a)
  generalize cloList depth a.states.zipIdx rounds (a.states.zipIdx.map (fun s => 1 <<< s.2)) = l at *
  have hfix := BT.eq_of_beq _ _ hfix
  have h0 := Nat.eq_of_beq_eq_true h0
  have hT : ∀ p, (BT.ofL depth l).getD p 0 = l.getD p 0 :=
    fun p => BT.getD_ofL depth l (by rw [hsound.1]; exact hd) p 0
  have hclo : ∀ p, p < a.n → ∀ q, (l.getD p 0).testBit q = true ↔ EReach a p q :=
    fun p hp q => ⟨hsound.2 p hp q, rows_complete hwf hd hsound.1 hfix hp⟩
  have hTlt : ∀ p, p < a.n → (BT.ofL depth l).getD p 0 < 2 ^ a.n := by
    intro p hp
    rw [hT]
    exact lt_two_pow_of_bits (fun q hq => EReach.lt hwf hp ((hclo p hp q).1 hq))
  have hBlt : ∀ i, (BT.ofL depth (c.nodes.map (fun nd => bitsOf nd.set))).getD i 0 < 2 ^ a.n :=
    BT.getD_of_allLt _ hB
  have hBget : ∀ i, (BT.ofL depth (c.nodes.map (fun nd => bitsOf nd.set))).getD i 0 = bitsOf (c.node i).set := by
    intro i
    rw [BT.getD_ofL depth _ (by rw [List.length_map]; exact hd')]
    unfold Cert.node
    rw [List.getD_eq_getElem?_getD, List.getD_eq_getElem?_getD, List.getElem?_map]
    cases c.nodes[i]? <;> simp [bitsOf]
  generalize hBdef : BT.ofL depth (c.nodes.map (fun nd => bitsOf nd.set)) = B at *
  have hset : ∀ i q, q ∈ (c.node i).set → q < a.n := by
    intro i q hq
    have h1 := hBlt i
    rw [hBget] at h1
    have h2 := (bitsOf_testBit _ q).2 hq
    rcases Nat.lt_or_ge q a.n with h | h
    · exact h
    · rw [Nat.testBit_lt_two_pow (Nat.lt_of_lt_of_le h1 (Nat.pow_le_pow_right (by omega) h))] at h2
      simp at h2
  have hP : ∀ p, p < a.n → (BT.ofL depth (a.states.zipIdx.map (post (BT.ofL depth l) a.n c.exitNames c.attrNames a.nt))).getD p 0
      = post (BT.ofL depth l) a.n c.exitNames c.attrNames a.nt (a.state p, p) := by
    intro p hp
    rw [BT.getD_ofL depth _ (by simpa [Nfa.n] using hd), getD_zip_map a _ p hp]
  generalize BT.ofL depth (a.states.zipIdx.map (post (BT.ofL depth l) a.n c.exitNames c.attrNames a.nt)) = P at *
  have hnb : ∀ (names ns : List Name), names.length < a.n → (∀ n ∈ ns, n ∈ names) → nameBits names ns < 2 ^ a.n := by
    intro names ns h1 h2
    apply lt_two_pow_of_bits
    intro q hq
    rw [nameBits_eq, bitsOf_testBit, List.mem_map] at hq
    obtain ⟨n, h3, rfl⟩ := hq
    have := List.idxOf_lt_length_of_mem (h2 n h3)
    omega
  -- the bits of `post`
  have hpost : ∀ p, p < a.n → ∀ t q, q < a.n → ((P.getD p 0).testBit (t * a.n + q) = true ↔
      (∃ d, (some t, d) ∈ (a.state p).trans ∧ EReach a d q) ∨
      (t = a.nt ∧ ∃ n ∈ (a.state p).exits, c.exitNames.idxOf n = q) ∨
      (t = a.nt + 1 ∧ ∃ n ∈ (a.state p).attrs, c.attrNames.idxOf n = q)) := by
    intro p hp t q hq
    rw [hP p hp]
    unfold post
    rw [Nat.testBit_or, Bool.or_eq_true, fields_testBit _ _ ?_ t q hq, fields_testBit _ _ ?_ t q hq]
    · constructor
      · rintro (⟨v, h1, h2⟩ | ⟨v, h1, h2⟩)
        · obtain ⟨d, h3, rfl⟩ := (postGo_mem _ _ _ _).1 h1
          rw [hT, hclo d (hwf p _ h3).1] at h2
          exact Or.inl ⟨d, h3, h2⟩
        · right
          simp only [List.mem_cons, Prod.mk.injEq, List.not_mem_nil, or_false] at h1
          rcases h1 with ⟨rfl, rfl⟩ | ⟨rfl, rfl⟩
          · rw [nameBits_eq, bitsOf_testBit, List.mem_map] at h2
            exact Or.inl ⟨rfl, h2⟩
          · rw [nameBits_eq, bitsOf_testBit, List.mem_map] at h2
            exact Or.inr ⟨rfl, h2⟩
      · rintro (⟨d, h1, h2⟩ | ⟨rfl, h2⟩ | ⟨rfl, h2⟩)
        · left
          exact ⟨_, (postGo_mem _ _ _ _).2 ⟨d, h1, rfl⟩, by rw [hT]; exact (hclo d (hwf p _ h1).1 q).2 h2⟩
        · right
          refine ⟨_, List.mem_cons_self, ?_⟩
          rw [nameBits_eq, bitsOf_testBit, List.mem_map]
          exact h2
        · right
          refine ⟨_, List.mem_cons_of_mem _ List.mem_cons_self, ?_⟩
          rw [nameBits_eq, bitsOf_testBit, List.mem_map]
          exact h2
    · intro x hx
      simp only [List.mem_cons, List.not_mem_nil, or_false] at hx
      rcases hx with rfl | rfl
      · exact hnb _ _ hxn (hin' p).1
      · exact hnb _ _ han (hin' p).2
    · rintro ⟨t', v⟩ hx
      obtain ⟨d, h3, rfl⟩ := (postGo_mem _ _ _ _).1 hx
      exact hTlt d (hwf p _ h3).1
  -- the check of a node
  have hnode : ∀ i, i < c.nodes.length → c.cls i ∈ c.classes ∧ (c.node i).set ≠ [] ∧
      (∀ t < a.nt, destOf c.W (c.node i).row t ≤ c.nodes.length) ∧
      ∀ t q, q < a.n → ((∃ s ∈ (c.node i).set, (P.getD s 0).testBit (t * a.n + q) = true) ↔
        (t < a.nt ∧ ∃ d, destOf c.W (c.node i).row t = d + 1 ∧ q ∈ (c.node d).set) ∨
        (t = a.nt ∧ (c.cls i).exits.testBit q = true) ∨ (t = a.nt + 1 ∧ (c.cls i).attrs.testBit q = true)) := by
    intro i hi
    have hmem : c.node i ∈ c.nodes := by
      unfold Cert.node
      rw [List.getD_eq_getElem?_getD, List.getElem?_eq_getElem hi]
      exact List.getElem_mem hi
    have h1 := List.all_eq_true.1 hall _ hmem
    unfold nodeOk at h1
    cases hk : c.classes[(c.node i).cls]? with
    | none => rw [hk] at h1; simp at h1
    | some k =>
      rw [hk] at h1
      simp only [Bool.and_eq_true, Bool.not_eq_true', List.isEmpty_eq_false_iff] at h1
      obtain ⟨⟨h1, h2⟩, h3⟩ := h1
      have hcls : c.cls i = k := by
        unfold Cert.cls
        rw [List.getD_eq_getElem?_getD, hk]; rfl
      have hkm : k ∈ c.classes := List.mem_of_getElem? hk
      rw [hcls]
      refine ⟨hkm, h3, rowOk_dest _ h2, fun t q hq => ?_⟩
      have hkc := List.all_eq_true.1 hcl k hkm
      unfold classOk at hkc
      simp only [Bool.and_eq_true, decide_eq_true_eq] at hkc
      have hkx : k.exits < 2 ^ a.n :=
        Nat.lt_of_lt_of_le hkc.1.1.1.1.1 (Nat.pow_le_pow_right (by omega) (by omega))
      have hka : k.attrs < 2 ^ a.n :=
        Nat.lt_of_lt_of_le hkc.1.1.1.1.2 (Nat.pow_le_pow_right (by omega) (by omega))
      rw [← unionOf_testBit, Nat.eq_of_beq_eq_true h1, Nat.testBit_or, Bool.or_eq_true,
        fields_testBit _ _ ?_ t q hq, fields_testBit _ _ ?_ t q hq]
      · constructor
        · rintro (⟨v, h1, h2⟩ | ⟨v, h1, h2⟩)
          · obtain ⟨h4, d, h5, rfl⟩ := (rowFields_mem _ _ _ _ _ _).1 h1
            rw [hBget, bitsOf_testBit] at h2
            exact Or.inl ⟨h4, d, h5, h2⟩
          · right
            simp only [List.mem_cons, Prod.mk.injEq, List.not_mem_nil, or_false] at h1
            rcases h1 with ⟨rfl, rfl⟩ | ⟨rfl, rfl⟩
            · exact Or.inl ⟨rfl, h2⟩
            · exact Or.inr ⟨rfl, h2⟩
        · rintro (⟨h4, d, h5, h6⟩ | ⟨rfl, h2⟩ | ⟨rfl, h2⟩)
          · left
            exact ⟨_, (rowFields_mem _ _ _ _ _ _).2 ⟨h4, d, h5, rfl⟩, by rw [hBget, bitsOf_testBit]; exact h6⟩
          · exact Or.inr ⟨_, List.mem_cons_self, h2⟩
          · exact Or.inr ⟨_, List.mem_cons_of_mem _ List.mem_cons_self, h2⟩
      · intro x hx
        simp only [List.mem_cons, List.not_mem_nil, or_false] at hx
        rcases hx with rfl | rfl
        · exact hkx
        · exact hka
      · rintro ⟨t', v⟩ hx
        obtain ⟨_, d, _, rfl⟩ := (rowFields_mem _ _ _ _ _ _).1 hx
        exact hBlt d
  -- transitions of a node
  have htrans : ∀ i, i < c.nodes.length → ∀ t < a.nt, ∀ q,
      ((∃ s ∈ (c.node i).set, ∃ d, (some t, d) ∈ (a.state s).trans ∧ EReach a d q) ↔
       ∃ d, destOf c.W (c.node i).row t = d + 1 ∧ q ∈ (c.node d).set) := by
    intro i hi t ht q
    by_cases hq : q < a.n
    · have h1 := (hnode i hi).2.2.2 t q hq
      constructor
      · rintro ⟨s, h2, d, h3, h4⟩
        have h5 := h1.1 ⟨s, h2, (hpost s (hset i s h2) t q hq).2 (Or.inl ⟨d, h3, h4⟩)⟩
        rcases h5 with ⟨_, h5⟩ | ⟨h5, _⟩ | ⟨h5, _⟩
        · exact h5
        · omega
        · omega
      · rintro ⟨d, h2, h3⟩
        obtain ⟨s, h4, h5⟩ := h1.2 (Or.inl ⟨ht, d, h2, h3⟩)
        rcases (hpost s (hset i s h4) t q hq).1 h5 with h6 | ⟨h6, _⟩ | ⟨h6, _⟩
        · exact ⟨s, h4, h6⟩
        · omega
        · omega
    · constructor
      · rintro ⟨s, _, d, h3, h4⟩
        exact absurd (EReach.lt hwf (hwf s _ h3).1 h4) hq
      · rintro ⟨d, _, h3⟩
        exact absurd (hset d q h3) hq
  have hreads : ∀ w, match run (c.step a.nt) 0 w with
    | none => ∀ q, ¬ After a start w q
    | some i => i < c.nodes.length ∧ (∃ q, After a start w q) ∧ ∀ q, After a start w q ↔ q ∈ (c.node i).set := by
    intro w
    induction w with
    | nil =>
      simp only [run]
      refine ⟨hpos, ⟨start, .nil (.refl start)⟩, fun q => ?_⟩
      rw [← bitsOf_testBit, ← hBget, h0, hT, hclo start hs]
      exact ⟨fun h => by cases h with | nil h => exact h, .nil⟩
    | cons t w ih =>
      rw [run]
      cases hr : run (c.step a.nt) 0 w with
      | none =>
        rw [hr] at ih
        simp only [Option.bind_none]
        intro q hq
        cases hq with
        | read h1 _ _ => exact ih _ h1
      | some i =>
        rw [hr] at ih
        obtain ⟨hi, _, hiff⟩ := ih
        have hafter : ∀ q, After a start (t :: w) q ↔
            ∃ s ∈ (c.node i).set, ∃ d, (some t, d) ∈ (a.state s).trans ∧ EReach a d q := by
          intro q
          constructor
          · intro h
            cases h with
            | read h1 h2 h3 => exact ⟨_, (hiff _).1 h1, _, h2, h3⟩
          · rintro ⟨s, h1, d, h2, h3⟩
            exact .read ((hiff s).2 h1) h2 h3
        simp only [Option.bind_some, Cert.step]
        by_cases ht : t < a.nt
        · rw [if_pos ht]
          have h1 := htrans i hi t ht
          cases hdd : destOf c.W (c.node i).row t with
          | zero =>
            simp only
            intro q hq
            obtain ⟨d, h2, _⟩ := (h1 q).1 ((hafter q).1 hq)
            rw [hdd] at h2; cases h2
          | succ d =>
            simp only
            have hdl : d < c.nodes.length := by
              have := (hnode i hi).2.2.1 t ht
              omega
            have hiff' : ∀ q, After a start (t :: w) q ↔ q ∈ (c.node d).set := by
              intro q
              rw [hafter, h1, hdd]
              constructor
              · rintro ⟨d', h2, h3⟩; cases h2; exact h3
              · exact fun h => ⟨d, rfl, h⟩
            refine ⟨hdl, ?_, hiff'⟩
            obtain ⟨q, hq⟩ := List.exists_mem_of_ne_nil _ (hnode d hdl).2.1
            exact ⟨q, (hiff' q).2 hq⟩
        · rw [if_neg ht]
          simp only
          intro q hq
          obtain ⟨s, _, d, h2, _⟩ := (hafter q).1 hq
          exact ht ((hwf s _ h2).2 t rfl)
  have hclassOk : ∀ i, i < c.nodes.length → classOk a c (c.cls i) = true :=
    fun i hi => List.all_eq_true.1 hcl _ (hnode i hi).1
  refine ⟨hwf, hnt, hs, hreads, ?_, ?_, ?_⟩
  · intro w i hw
    have h1 := hreads w
    rw [hw] at h1
    obtain ⟨hi, _, hiff⟩ := h1
    have hk := hclassOk i hi
    unfold classOk at hk
    simp only [Bool.and_eq_true, decide_eq_true_eq] at hk
    obtain ⟨⟨⟨⟨⟨k1, k2⟩, k3⟩, k4⟩, k5⟩, k6⟩ := hk
    refine ⟨?_, verdictOf_ne k5⟩
    rw [evaluateResult_iff] at k3
    have heq := tags_iff (tagged := Tagged a (·.exits) start w) k1
      (fun n ⟨q, _, h⟩ => (hin' q).1 n h) (fun k hk => by
        have h2 := (hnode i hi).2.2.2 a.nt k (by omega)
        constructor
        · intro h3
          obtain ⟨s, h4, h5⟩ := h2.2 (Or.inr (Or.inl ⟨rfl, h3⟩))
          rcases (hpost s (hset i s h4) a.nt k (by omega)).1 h5 with ⟨d, h6, _⟩ | ⟨_, n, h6, h7⟩ | ⟨h6, _⟩
          · exact absurd ((hwf s _ h6).2 _ rfl) (by omega)
          · exact ⟨n, ⟨s, (hiff s).2 h4, h6⟩, h7⟩
          · omega
        · rintro ⟨n, ⟨s, h4, h6⟩, h7⟩
          have h4 := (hiff s).1 h4
          rcases h2.1 ⟨s, h4, (hpost s (hset i s h4) a.nt k (by omega)).2 (Or.inr (Or.inl ⟨rfl, n, h6, h7⟩))⟩
            with ⟨h8, _⟩ | ⟨_, h8⟩ | ⟨h8, _⟩
          · omega
          · exact h8
          · omega)
    rw [← heq]
    exact k3
  · intro w i hw
    have h1 := hreads w
    rw [hw] at h1
    obtain ⟨hi, _, hiff⟩ := h1
    have hk := hclassOk i hi
    unfold classOk at hk
    simp only [Bool.and_eq_true, decide_eq_true_eq] at hk
    obtain ⟨⟨⟨⟨⟨k1, k2⟩, k3⟩, k4⟩, k5⟩, k6⟩ := hk
    refine ⟨?_, verdictOf_ne k6⟩
    rw [evaluateResult_iff] at k4
    have heq := tags_iff (tagged := Tagged a (·.attrs) start w) k2
      (fun n ⟨q, _, h⟩ => (hin' q).2 n h) (fun k hk => by
        have h2 := (hnode i hi).2.2.2 (a.nt + 1) k (by omega)
        constructor
        · intro h3
          obtain ⟨s, h4, h5⟩ := h2.2 (Or.inr (Or.inr ⟨rfl, h3⟩))
          rcases (hpost s (hset i s h4) (a.nt + 1) k (by omega)).1 h5 with ⟨d, h6, _⟩ | ⟨h6, _⟩ | ⟨_, n, h6, h7⟩
          · exact absurd ((hwf s _ h6).2 _ rfl) (by omega)
          · omega
          · exact ⟨n, ⟨s, (hiff s).2 h4, h6⟩, h7⟩
        · rintro ⟨n, ⟨s, h4, h6⟩, h7⟩
          have h4 := (hiff s).1 h4
          rcases h2.1 ⟨s, h4, (hpost s (hset i s h4) (a.nt + 1) k (by omega)).2 (Or.inr (Or.inr ⟨rfl, n, h6, h7⟩))⟩
            with ⟨h8, _⟩ | ⟨h8, _⟩ | ⟨_, h8⟩
          · omega
          · omega
          · exact h8)
    rw [← heq]
    exact k4
  · intro q
    refine ⟨fun n h => ?_, fun n h => ?_⟩
    · have := List.all_eq_true.1 hlx n ((hin' q).1 n h)
      simpa using this
    · have := List.all_eq_true.1 hla n ((hin' q).2 n h)
      simpa using this

end Jbo.Dfasyn
