import Verif.DfaEvalThm

/-!
# The subset construction
-/

namespace Jbo.Dfasyn

/-! ## Successor sets -/

theorem transmap_bit (a : Nfa) (e : List Nat) (i t q : Nat) :
    (transmap a e i t).testBit q = true ↔
      ∃ d, (some t, d) ∈ (a.state i).trans ∧ (e.getD d 0).testBit q = true := by
  have gen : ∀ (l : List (Option Nat × Nat)) (acc : Nat),
      (l.foldl (fun acc tr => if tr.1 = some t then acc ||| e.getD tr.2 0 else acc) acc).testBit q = true ↔
        acc.testBit q = true ∨ ∃ d, (some t, d) ∈ l ∧ (e.getD d 0).testBit q = true := by
    intro l
    induction l with
    | nil => intro acc; simp
    | cons tr l ih =>
      intro acc
      obtain ⟨tok, d0⟩ := tr
      rw [List.foldl_cons, ih]
      by_cases ht : tok = some t
      · simp only [ht, if_true, Nat.testBit_or, Bool.or_eq_true]
        constructor
        · rintro ((h | h) | ⟨d, h1, h2⟩)
          · exact Or.inl h
          · exact Or.inr ⟨d0, List.mem_cons_self, h⟩
          · exact Or.inr ⟨d, List.mem_cons_of_mem _ h1, h2⟩
        · rintro (h | ⟨d, h1, h2⟩)
          · exact Or.inl (Or.inl h)
          · rcases List.mem_cons.1 h1 with h | h
            · cases h; exact Or.inl (Or.inr h2)
            · exact Or.inr ⟨d, h, h2⟩
      · simp only [ht, if_false]
        constructor
        · rintro (h | ⟨d, h1, h2⟩)
          · exact Or.inl h
          · exact Or.inr ⟨d, List.mem_cons_of_mem _ h1, h2⟩
        · rintro (h | ⟨d, h1, h2⟩)
          · exact Or.inl h
          · rcases List.mem_cons.1 h1 with h | h
            · cases h; exact absurd rfl ht
            · exact Or.inr ⟨d, h, h2⟩
  unfold transmap
  rw [gen]; simp

theorem anytrans_iff (a : Nfa) (e : List Nat) (i t : Nat) :
    anytrans a e i t = true ↔ transmap a e i t ≠ 0 := by
  rw [ne_zero_iff_testBit]
  simp only [transmap_bit, anytrans, List.any_eq_true, Bool.and_eq_true, decide_eq_true_eq,
    bne_iff_ne, ne_zero_iff_testBit]
  constructor
  · rintro ⟨⟨tok, d⟩, h1, h2, q, h3⟩
    simp only at h2 h3
    subst h2
    exact ⟨q, d, h1, h3⟩
  · rintro ⟨q, d, h1, h2⟩
    exact ⟨(some t, d), h1, rfl, q, h2⟩

theorem successors_bit (a : Nfa) (e : List Nat) (cur t : Nat) (hcur : ∀ k, cur.testBit k = true → k < a.n)
    (q : Nat) : (successors a e cur t).1.testBit q = true ↔
      ∃ p d, cur.testBit p = true ∧ (some t, d) ∈ (a.state p).trans ∧ (e.getD d 0).testBit q = true := by
  have key := foldl_range_inv
    (fun (acc : Nat × Bool) j => if cur.testBit j && anytrans a e j t then
      let x := transmap a e j t
      (acc.1 ||| x, acc.2 || x != 0) else acc)
    (fun j acc => acc.1.testBit q = true ↔
      ∃ p d, p < j ∧ cur.testBit p = true ∧ (some t, d) ∈ (a.state p).trans ∧ (e.getD d 0).testBit q = true)
    (32 * roundUp a.n) (0, false) (by simp) (by
      rintro j acc hj ih
      have hx := transmap_bit a e j t q
      by_cases hc : (cur.testBit j && anytrans a e j t) = true
      · simp only [hc, if_true, Nat.testBit_or, Bool.or_eq_true, ih, hx]
        simp only [Bool.and_eq_true] at hc
        constructor
        · rintro (⟨p, d, h1, h2⟩ | ⟨d, h1, h2⟩)
          · exact ⟨p, d, by omega, h2⟩
          · exact ⟨j, d, by omega, hc.1, h1, h2⟩
        · rintro ⟨p, d, h1, h2, h3, h4⟩
          by_cases hpj : p = j
          · subst hpj; exact Or.inr ⟨d, h3, h4⟩
          · exact Or.inl ⟨p, d, by omega, h2, h3, h4⟩
      · simp only [hc]
        simp only [Bool.false_eq_true, if_false, ih]
        constructor
        · rintro ⟨p, d, h1, h2⟩; exact ⟨p, d, by omega, h2⟩
        · rintro ⟨p, d, h1, h2, h3, h4⟩
          by_cases hpj : p = j
          · subst hpj
            exfalso; apply hc
            rw [h2, Bool.true_and, anytrans_iff, ne_zero_iff_testBit]
            exact ⟨q, (transmap_bit _ _ _ _ _).2 ⟨d, h3, h4⟩⟩
          · exact ⟨p, d, by omega, h2, h3, h4⟩)
  refine Iff.trans key ⟨fun ⟨p, d, _, h⟩ => ⟨p, d, h⟩, fun ⟨p, d, h1, h2⟩ => ⟨p, d, ?_, h1, h2⟩⟩
  have := hcur p h1
  unfold roundUp; omega

theorem successors_found (a : Nfa) (e : List Nat) (cur t : Nat) :
    (successors a e cur t).2 = true ↔ (successors a e cur t).1 ≠ 0 := by
  unfold successors
  exact foldl_range_inv
    (fun (acc : Nat × Bool) j => if cur.testBit j && anytrans a e j t then
      let x := transmap a e j t
      (acc.1 ||| x, acc.2 || x != 0) else acc)
    (fun _ acc => acc.2 = true ↔ acc.1 ≠ 0) (32 * roundUp a.n) (0, false) (by simp) (by
      rintro j acc hj ih
      split
      · simp only [Bool.or_eq_true, bne_iff_ne, ih]
        rw [ne_zero_iff_testBit, ne_zero_iff_testBit, ne_zero_iff_testBit]
        constructor
        · rintro (⟨k, h⟩ | ⟨k, h⟩)
          · exact ⟨k, by rw [Nat.testBit_or, h]; rfl⟩
          · exact ⟨k, by rw [Nat.testBit_or, h]; simp⟩
        · rintro ⟨k, h⟩
          rw [Nat.testBit_or, Bool.or_eq_true] at h
          exact h.imp (fun h => ⟨k, h⟩) (fun h => ⟨k, h⟩)
      · exact ih)

/-- The bits of `nfas` are the states reachable on `w`. -/
def SetOf (a : Nfa) (start : Nat) (w : List Nat) (nfas : Nat) : Prop :=
  ∀ q, nfas.testBit q = true ↔ After a start w q

theorem EReach.lt {a : Nfa} (hwf : a.WF) {p q : Nat} (hp : p < a.n) (h : EReach a p q) : q < a.n := by
  cases h with
  | refl => exact hp
  | step _ hk => exact (hwf _ _ hk).1

theorem After.lt {a : Nfa} (hwf : a.WF) {start : Nat} (hs : start < a.n) {w : List Nat} {q : Nat}
    (h : After a start w q) : q < a.n := by
  cases h with
  | nil h => exact h.lt hwf hs
  | read _ ht hr => exact hr.lt hwf (hwf _ _ ht).1

/-- The rows of the closure. -/
def ClosedRows (a : Nfa) (e : List Nat) : Prop :=
  ∀ p, p < a.n → ∀ q, (e.getD p 0).testBit q = true ↔ EReach a p q

theorem successors_set {a : Nfa} (hwf : a.WF) {e : List Nat} (he : ClosedRows a e) {start : Nat}
    (hs : start < a.n) {w : List Nat} {cur : Nat} (h : SetOf a start w cur) (t : Nat) :
    SetOf a start (t :: w) (successors a e cur t).1 := by
  intro q
  rw [successors_bit a e cur t (fun k hk => ((h k).1 hk).lt hwf hs) q]
  constructor
  · rintro ⟨p, d, h1, h2, h3⟩
    exact .read ((h p).1 h1) h2 ((he d (hwf _ _ h2).1 q).1 h3)
  · intro hq
    cases hq with
    | read h1 h2 h3 => exact ⟨_, _, (h _).2 h1, h2, (he _ (hwf _ _ h2).1 q).2 h3⟩

/-! ## Looking up a set -/

theorem findDfa_some {n : Nat} {nodes : List Node} {nfas i : Nat} (h : findDfa n nodes nfas = some i) :
    i < nodes.length ∧ (nodeAt nodes i).nfas = nfas := by
  unfold findDfa at h
  have h1 := List.mem_of_find?_eq_some h
  have h2 := List.find?_some h
  simp only [Bool.and_eq_true, beq_iff_eq] at h2
  simp only [List.mem_reverse, List.mem_range] at h1
  exact ⟨h1, h2.2⟩

theorem findDfa_none {n : Nat} {nodes : List Node} {nfas : Nat} (h : findDfa n nodes nfas = none) :
    ∀ i, i < nodes.length → (nodeAt nodes i).nfas ≠ nfas := by
  intro i hi hn
  unfold findDfa at h
  have h1 := List.find?_eq_none.1 h i (by simpa using hi)
  apply h1
  have h2 : (nodes.getD i ⟨0, [], none, none, none⟩).nfas = nfas := hn
  simp only [h2, beq_self_eq_true, Bool.and_true]

/-! ## The verdicts of a new node -/

theorem tagsOf_iff {a : Nfa} (hwf : a.WF) (get : NState → List Name) {start : Nat} (hs : start < a.n)
    {w : List Nat} {nfas : Nat} (h : SetOf a start w nfas) (n : Name) :
    (tagsOf a get nfas).contains n = true ↔ Tagged a get start w n := by
  unfold tagsOf Tagged
  simp only [List.contains_iff_mem, List.mem_flatMap, List.mem_range]
  constructor
  · rintro ⟨j, hj, hn⟩
    by_cases hb : nfas.testBit j = true
    · rw [if_pos hb] at hn
      exact ⟨j, (h j).1 hb, hn⟩
    · rw [if_neg hb] at hn; simp at hn
  · rintro ⟨q, hq, hn⟩
    refine ⟨q, hq.lt hwf hs, ?_⟩
    rw [if_pos ((h q).2 hq)]; exact hn

/-- A tag of the set is defined by an expression. -/
def BadTag (a : Nfa) (x : Evaluator) (get : NState → List Name) (start : Nat) (w : List Nat) : Prop :=
  ∃ n, Tagged a get start w n ∧ (x.lookup n).isSome = true

theorem judge_ok {a : Nfa} (hwf : a.WF) (x : Evaluator) (get : NState → List Name) {start : Nat}
    (hs : start < a.n) {w : List Nat} {nfas : Nat} (h : SetOf a start w nfas) (v : Verdict) :
    judge x (tagsOf a get nfas) = .ok v ↔
      ¬ BadTag a x get start w ∧ Calls x (Tagged a get start w) x.results v := by
  have hbad : (tagsOf a get nfas).any (fun t => (x.lookup t).isSome) = true ↔ BadTag a x get start w := by
    rw [List.any_eq_true]
    unfold BadTag
    constructor
    · rintro ⟨n, h1, h2⟩
      exact ⟨n, (tagsOf_iff hwf get hs h n).1 (by simpa using h1), h2⟩
    · rintro ⟨n, h1, h2⟩
      exact ⟨n, by simpa using (tagsOf_iff hwf get hs h n).2 h1, h2⟩
  have htags : (fun n => (tagsOf a get nfas).contains n = true) = Tagged a get start w :=
    funext (fun n => propext (tagsOf_iff hwf get hs h n))
  unfold judge
  by_cases hb : BadTag a x get start w
  · rw [if_pos (hbad.2 hb)]; simp [hb]
  · rw [if_neg (fun hx => hb (hbad.1 hx)), evaluateResult_iff, htags]; simp [hb]

theorem evalLoop_error (x : Evaluator) (tags : Name → Bool) : ∀ (rs : List Result) (any : Bool)
    (m : Option Result) (c : Crash), evalLoop x tags any m rs = .error c → c = .recursion := by
  intro rs
  induction rs with
  | nil => intro any m c h; simp [evalLoop] at h
  | cons r rs ih =>
    intro any m c h
    rw [evalLoop] at h
    split at h
    · cases h; rfl
    · split at h
      · simp at h
      · exact ih _ _ _ h
    · exact ih _ _ _ h

theorem judge_error {a : Nfa} (hwf : a.WF) (x : Evaluator) (get : NState → List Name) {start : Nat}
    (hs : start < a.n) {w : List Nat} {nfas : Nat} (h : SetOf a start w nfas) (c : Crash)
    (hc : judge x (tagsOf a get nfas) = .error c) :
    (c = .exit2 ∧ BadTag a x get start w) ∨
    (c = .recursion ∧ ∀ v, ¬ Calls x (Tagged a get start w) x.results v) := by
  by_cases hb : BadTag a x get start w
  · left
    refine ⟨?_, hb⟩
    obtain ⟨n, h1, h2⟩ := hb
    unfold judge at hc
    rw [if_pos (List.any_eq_true.2 ⟨n, by simpa using (tagsOf_iff hwf get hs h n).2 h1, h2⟩)] at hc
    cases hc; rfl
  · right
    have hno : ∀ v, ¬ Calls x (Tagged a get start w) x.results v := by
      intro v hv
      rw [(judge_ok hwf x get hs h v).2 ⟨hb, hv⟩] at hc; simp at hc
    refine ⟨?_, hno⟩
    unfold judge at hc
    rw [if_neg] at hc
    · exact evalLoop_error _ _ _ _ _ _ hc
    · intro hx
      obtain ⟨n, h1, h2⟩ := List.any_eq_true.1 hx
      exact hb ⟨n, (tagsOf_iff hwf get hs h n).1 (by simpa using h1), h2⟩

/-- `result_early` after an evaluation. -/
def Verdict.early : Verdict → Option Bool
  | .none => Option.some false
  | .unique r => Option.some r.early
  | .ambiguous => Option.none

/-- The node for a set, as the verdicts `v` and `v'` determine it. -/
def freshNode (a : Nfa) (nfas : Nat) (v v' : Verdict) : Node :=
  ⟨nfas, List.replicate a.nt none, v.text, v.early, v'.text⟩

theorem addDfa_eq (a : Nfa) (nfas : Nat) : addDfa a nfas =
    match judge a.exit (tagsOf a (·.exits) nfas), judge a.attr (tagsOf a (·.attrs) nfas) with
    | .ok v, .ok v' => .ok (freshNode a nfas v v', v == .ambiguous || v' == .ambiguous)
    | .error c, _ => .error c
    | .ok _, .error c => .error c := by
  unfold addDfa
  cases hv : judge a.exit (tagsOf a (·.exits) nfas) with
  | error c => rfl
  | ok v =>
    cases hv' : judge a.attr (tagsOf a (·.attrs) nfas) with
    | error c => rfl
    | ok v' => cases v <;> cases v' <;> rfl

theorem judge_unique {x : Evaluator} {l : List Name} {u v : Verdict} (h : judge x l = .ok u)
    (h' : judge x l = .ok v) : u = v := by rw [h] at h'; exact Except.ok.inj h'

/-! ## Invariants of the main loop -/

theorem nodeAt_set (nodes : List Node) (i j : Nat) (v : Node) (hi : i < nodes.length) :
    nodeAt (nodes.set i v) j = if j = i then v else nodeAt nodes j := by
  unfold nodeAt
  by_cases h : j = i
  · subst h; simp [List.getD_eq_getElem?_getD, hi]
  · have h' : i ≠ j := fun x => h x.symm
    simp [List.getD_eq_getElem?_getD, List.getElem?_set, h, h']

theorem nodeAt_append (nodes : List Node) (j : Nat) (v : Node) (hj : j < nodes.length) :
    nodeAt (nodes ++ [v]) j = nodeAt nodes j := by
  unfold nodeAt
  simp [List.getD_eq_getElem?_getD, List.getElem?_append_left hj]

theorem nodeAt_append_last (nodes : List Node) (v : Node) : nodeAt (nodes ++ [v]) nodes.length = v := by
  unfold nodeAt
  simp [List.getD_eq_getElem?_getD]

/-- Node `i` is as it should be, apart from its transitions: it stands for some word `w` that the
caller can read, and its texts are the verdicts for the set. -/
structure NodeOk (a : Nfa) (start : Nat) (amb : Bool) (nd : Node) : Prop where
  word : ∃ w, Open a start w ∧ SetOf a start w nd.nfas ∧ ∃ q, After a start w q
  verdict : ∃ v v', judge a.exit (tagsOf a (·.exits) nd.nfas) = .ok v ∧
    judge a.attr (tagsOf a (·.attrs) nd.nfas) = .ok v' ∧ nd.result = v.text ∧ nd.early = v.early ∧
    nd.attrib = v'.text ∧ (v = .ambiguous ∨ v' = .ambiguous → amb = true)
  len : nd.map.length = a.nt

/-- Transition `t` of node `i` leads to the node of the successor set. -/
def Link (a : Nfa) (e : List Nat) (nodes : List Node) (i t : Nat) : Prop :=
  ((successors a e (nodeAt nodes i).nfas t).2 = false → (nodeAt nodes i).map[t]? = some none) ∧
  ((successors a e (nodeAt nodes i).nfas t).2 = true → ∃ k, k < nodes.length ∧
    (nodeAt nodes i).map[t]? = some (some k) ∧
    (nodeAt nodes k).nfas = (successors a e (nodeAt nodes i).nfas t).1)

/-- The node list `nodes'` extends `nodes`, except for the transitions of node `next`. -/
structure Ext (next : Nat) (nodes nodes' : List Node) : Prop where
  len : nodes.length ≤ nodes'.length
  nfas : ∀ i, i < nodes.length → (nodeAt nodes' i).nfas = (nodeAt nodes i).nfas
  same : ∀ i, i < nodes.length → i ≠ next → nodeAt nodes' i = nodeAt nodes i
  early : ∀ i, i < nodes.length → (nodeAt nodes' i).early = (nodeAt nodes i).early

theorem Ext.link {a : Nfa} {e : List Nat} {next : Nat} {nodes nodes' : List Node}
    (h : Ext next nodes nodes') {i t : Nat} (hi : i < nodes.length)
    (hm : (nodeAt nodes' i).map[t]? = (nodeAt nodes i).map[t]?) (hl : Link a e nodes i t) :
    Link a e nodes' i t := by
  unfold Link at *
  rw [h.nfas i hi, hm]
  refine ⟨hl.1, fun hs => ?_⟩
  obtain ⟨k, h1, h2, h3⟩ := hl.2 hs
  exact ⟨k, Nat.lt_of_lt_of_le h1 h.len, h2, by rw [h.nfas k h1]; exact h3⟩

structure Core (a : Nfa) (e : List Nat) (start : Nat) (nodes : List Node) (amb : Bool) : Prop where
  pos : 0 < nodes.length
  first : (nodeAt nodes 0).nfas = e.getD start 0
  ok : ∀ i, i < nodes.length → NodeOk a start amb (nodeAt nodes i)
  distinct : ∀ i j, i < j → j < nodes.length → (nodeAt nodes i).nfas ≠ (nodeAt nodes j).nfas
  ambEx : amb = true → ∃ i, i < nodes.length ∧ ∃ v v',
    judge a.exit (tagsOf a (·.exits) (nodeAt nodes i).nfas) = .ok v ∧
    judge a.attr (tagsOf a (·.attrs) (nodeAt nodes i).nfas) = .ok v' ∧
    (v = .ambiguous ∨ v' = .ambiguous)

theorem NodeOk.mono {a : Nfa} {start : Nat} {amb amb' : Bool} {nd : Node} (h : NodeOk a start amb nd)
    (hx : amb = true → amb' = true) : NodeOk a start amb' nd := by
  obtain ⟨v, v', h1, h2, h3, h4, h5, h6⟩ := h.verdict
  exact ⟨h.word, ⟨v, v', h1, h2, h3, h4, h5, fun h => hx (h6 h)⟩, h.len⟩

/-- What `destination` does. -/
theorem destination_ok {a : Nfa} (hwf : a.WF) {e : List Nat} (he : ClosedRows a e) {start : Nat}
    (hs : start < a.n) {nodes nodes' : List Node} {amb amb' : Bool} {next t : Nat} {d : Option Nat}
    (hc : Core a e start nodes amb) (hn : next < nodes.length) (ht : t < a.nt)
    (hearly : (nodeAt nodes next).early = some false)
    (h : destination a e (nodeAt nodes next).nfas nodes t = .ok (nodes', amb', d)) :
    Core a e start nodes' (amb || amb') ∧ Ext next nodes nodes' ∧ nodeAt nodes' next = nodeAt nodes next ∧
      (∀ i, nodes.length ≤ i → i < nodes'.length → (nodeAt nodes' i).map = List.replicate a.nt none) ∧
      ((successors a e (nodeAt nodes next).nfas t).2 = false → d = none) ∧
      ((successors a e (nodeAt nodes next).nfas t).2 = true → ∃ k, d = some k ∧ k < nodes'.length ∧
        (nodeAt nodes' k).nfas = (successors a e (nodeAt nodes next).nfas t).1) := by
  unfold destination at h
  by_cases hf : (successors a e (nodeAt nodes next).nfas t).2 = true
  · simp only [hf, if_true] at h
    cases hfd : findDfa a.n nodes (successors a e (nodeAt nodes next).nfas t).1 with
    | some i =>
      rw [hfd] at h
      simp only [Except.ok.injEq, Prod.mk.injEq] at h
      obtain ⟨rfl, rfl, rfl⟩ := h
      obtain ⟨h1, h2⟩ := findDfa_some hfd
      refine ⟨by simpa using hc, ⟨Nat.le_refl _, fun _ _ => rfl, fun _ _ _ => rfl, fun _ _ => rfl⟩,
        rfl, fun i h1 h2 => by omega, fun hx => by rw [hf] at hx; simp at hx,
        fun _ => ⟨i, rfl, h1, h2⟩⟩
    | none =>
      rw [hfd] at h
      simp only at h
      rw [addDfa_eq] at h
      obtain ⟨w, hw1, hw2, hw3⟩ := (hc.ok next hn).word
      have hset := successors_set hwf he hs hw2 t
      cases hv : judge a.exit (tagsOf a (·.exits) (successors a e (nodeAt nodes next).nfas t).1) with
      | error c => rw [hv] at h; simp [bind, Except.bind] at h
      | ok v =>
        cases hv' : judge a.attr (tagsOf a (·.attrs) (successors a e (nodeAt nodes next).nfas t).1) with
        | error c => rw [hv, hv'] at h; simp [bind, Except.bind] at h
        | ok v' =>
          rw [hv, hv'] at h
          simp only [bind, Except.bind, pure, Except.pure, Except.ok.injEq, Prod.mk.injEq] at h
          obtain ⟨rfl, rfl, rfl⟩ := h
          have hnot := findDfa_none hfd
          have hne : (successors a e (nodeAt nodes next).nfas t).1 ≠ 0 :=
            (successors_found _ _ _ _).1 hf
          generalize hS : (successors a e (nodeAt nodes next).nfas t).1 = S at *
          have hlast := nodeAt_append_last nodes (freshNode a S v v')
          have hnotEarly : ¬ EarlyAt a start w := by
            rintro ⟨r, hr1, hr2⟩
            obtain ⟨u, u', hu1, _, _, hu4, _⟩ := (hc.ok next hn).verdict
            have hcu := ((judge_ok hwf _ _ hs hw2 u).1 hu1)
            have := judge_unique hu1 ((judge_ok hwf _ _ hs hw2 (.unique r)).2 ⟨hcu.1, hr1⟩)
            rw [this] at hu4
            rw [hearly] at hu4
            simp [Verdict.early, hr2] at hu4
          have hnodeok : NodeOk a start (amb || (v == .ambiguous || v' == .ambiguous))
              (freshNode a S v v') := by
            constructor
            · refine ⟨t :: w, ⟨ht, hw1, hnotEarly⟩, hset, ?_⟩
              obtain ⟨q, hq⟩ := (ne_zero_iff_testBit S).1 hne
              exact ⟨q, (hset q).1 hq⟩
            · refine ⟨v, v', hv, hv', rfl, rfl, rfl, ?_⟩
              rintro (rfl | rfl) <;> simp
            · simp [freshNode]
          refine ⟨⟨by simp, ?_, ?_, ?_, ?_⟩, ⟨by simp, ?_, ?_, ?_⟩, nodeAt_append _ _ _ hn, ?_, ?_, ?_⟩
          · rw [nodeAt_append _ _ _ hc.pos]; exact hc.first
          · intro i hi
            rcases Nat.lt_or_ge i nodes.length with h1 | h1
            · rw [nodeAt_append _ _ _ h1]
              exact (hc.ok i h1).mono (fun h => by simp [h])
            · have : i = nodes.length := by simp at hi; omega
              rw [this, hlast]; exact hnodeok
          · intro i j hij hj
            rcases Nat.lt_or_ge j nodes.length with h1 | h1
            · rw [nodeAt_append _ _ _ h1, nodeAt_append _ _ _ (by omega)]
              exact hc.distinct i j hij h1
            · have : j = nodes.length := by simp at hj; omega
              subst this
              rw [hlast, nodeAt_append _ _ _ hij]
              exact hnot i hij
          · intro hamb
            rw [Bool.or_eq_true] at hamb
            rcases hamb with hamb | hamb
            · obtain ⟨i, hi, u, u', h1, h2, h3⟩ := hc.ambEx hamb
              exact ⟨i, by simp; omega, u, u', by rw [nodeAt_append _ _ _ hi]; exact h1,
                by rw [nodeAt_append _ _ _ hi]; exact h2, h3⟩
            · refine ⟨nodes.length, by simp, v, v', by rw [hlast]; exact hv,
                by rw [hlast]; exact hv', by simpa using hamb⟩
          · intro i hi; rw [nodeAt_append _ _ _ hi]
          · intro i hi _; rw [nodeAt_append _ _ _ hi]
          · intro i hi; rw [nodeAt_append _ _ _ hi]
          · intro i h1 h2
            have : i = nodes.length := by simp at h2; omega
            rw [this, hlast]; rfl
          · intro hx; rw [hf] at hx; simp at hx
          · intro _
            exact ⟨nodes.length, rfl, by simp, by rw [hlast]; rfl⟩
  · simp only [Bool.not_eq_true] at hf
    simp only [hf, Bool.false_eq_true, if_false, Except.ok.injEq, Prod.mk.injEq] at h
    obtain ⟨rfl, rfl, rfl⟩ := h
    refine ⟨by simpa using hc, ⟨Nat.le_refl _, fun _ _ => rfl, fun _ _ _ => rfl, fun _ _ => rfl⟩,
        rfl, fun i h1 h2 => by omega, fun _ => rfl, fun hx => by rw [hf] at hx; simp at hx⟩

/-- Why `destination` can fail. -/
theorem destination_error {a : Nfa} (hwf : a.WF) {e : List Nat} (he : ClosedRows a e) {start : Nat}
    (hs : start < a.n) {nodes : List Node} {w : List Nat} {cur t : Nat} {c : Crash}
    (hw : SetOf a start w cur) (h : destination a e cur nodes t = .error c) :
    (∃ q, After a start (t :: w) q) ∧
    ((c = .exit2 ∧ (BadTag a a.exit (·.exits) start (t :: w) ∨ BadTag a a.attr (·.attrs) start (t :: w))) ∨
    (c = .recursion ∧ ((∀ v, ¬ Calls a.exit (Tagged a (·.exits) start (t :: w)) a.exit.results v) ∨
      ∀ v, ¬ Calls a.attr (Tagged a (·.attrs) start (t :: w)) a.attr.results v))) := by
  unfold destination at h
  by_cases hf : (successors a e cur t).2 = true
  · simp only [hf, if_true] at h
    have hset := successors_set hwf he hs hw t
    have hne := (successors_found _ _ _ _).1 hf
    refine ⟨?_, ?_⟩
    · obtain ⟨q, hq⟩ := (ne_zero_iff_testBit _).1 hne
      exact ⟨q, (hset q).1 hq⟩
    · cases hfd : findDfa a.n nodes (successors a e cur t).1 with
      | some i => rw [hfd] at h; simp at h
      | none =>
        rw [hfd] at h
        simp only at h
        rw [addDfa_eq] at h
        cases hv : judge a.exit (tagsOf a (·.exits) (successors a e cur t).1) with
        | error c' =>
          rw [hv] at h
          simp only [bind, Except.bind, Except.error.injEq] at h
          subst h
          rcases judge_error hwf _ _ hs hset _ hv with ⟨h1, h2⟩ | ⟨h1, h2⟩
          · exact Or.inl ⟨h1, Or.inl h2⟩
          · exact Or.inr ⟨h1, Or.inl h2⟩
        | ok v =>
          cases hv' : judge a.attr (tagsOf a (·.attrs) (successors a e cur t).1) with
          | error c' =>
            rw [hv, hv'] at h
            simp only [bind, Except.bind, Except.error.injEq] at h
            subst h
            rcases judge_error hwf _ _ hs hset _ hv' with ⟨h1, h2⟩ | ⟨h1, h2⟩
            · exact Or.inl ⟨h1, Or.inr h2⟩
            · exact Or.inr ⟨h1, Or.inr h2⟩
          | ok v' => rw [hv, hv'] at h; simp [bind, Except.bind, pure, Except.pure] at h
  · simp only [Bool.not_eq_true] at hf
    simp [hf] at h

theorem core_setMap {a : Nfa} {e : List Nat} {start : Nat} {nodes : List Node} {amb : Bool} {next : Nat}
    {m : List (Option Nat)} (hc : Core a e start nodes amb) (hn : next < nodes.length)
    (hm : m.length = a.nt) :
    Core a e start (nodes.set next { nodeAt nodes next with map := m }) amb := by
  have hnf : ∀ i, (nodeAt (nodes.set next { nodeAt nodes next with map := m }) i).nfas =
      (nodeAt nodes i).nfas := by
    intro i; rw [nodeAt_set _ _ _ _ hn]; split
    · rename_i h; rw [h]
    · rfl
  constructor
  · simpa using hc.pos
  · rw [hnf]; exact hc.first
  · intro i hi
    rw [List.length_set] at hi
    rw [nodeAt_set _ _ _ _ hn]
    split
    · rename_i h; subst h
      exact ⟨(hc.ok i hi).word, (hc.ok i hi).verdict, hm⟩
    · exact hc.ok i hi
  · intro i j hij hj
    rw [hnf, hnf]; exact hc.distinct i j hij (by simpa using hj)
  · intro h
    obtain ⟨i, hi, v, v', h1, h2, h3⟩ := hc.ambEx h
    exact ⟨i, by simpa using hi, v, v', by rw [hnf]; exact h1, by rw [hnf]; exact h2, h3⟩

/-- The loop over the tokens. -/
theorem expand_ok {a : Nfa} (hwf : a.WF) {e : List Nat} (he : ClosedRows a e) {start : Nat}
    (hs : start < a.n) (next cur : Nat) : ∀ (ts : List Nat) (nodes nodes' : List Node) (amb amb' : Bool)
    (D : Nat → Prop), Core a e start nodes amb → next < nodes.length → (∀ t ∈ ts, t < a.nt) →
    (nodeAt nodes next).early = some false → (nodeAt nodes next).nfas = cur →
    (∀ t, D t → Link a e nodes next t) →
    (∀ t ∈ ts, ¬ D t) → ts.Nodup →
    expand a e next cur ts (nodes, amb) = .ok (nodes', amb') →
    Core a e start nodes' amb' ∧ Ext next nodes nodes' ∧
      (∀ i, nodes.length ≤ i → i < nodes'.length → (nodeAt nodes' i).map = List.replicate a.nt none) ∧
      (∀ t, D t ∨ t ∈ ts → Link a e nodes' next t) := by
  intro ts
  induction ts with
  | nil =>
    intro nodes nodes' amb amb' D hc hn _ hearly hcur hD _ _ h
    simp only [expand, Except.ok.injEq, Prod.mk.injEq] at h
    obtain ⟨rfl, rfl⟩ := h
    exact ⟨hc, ⟨Nat.le_refl _, fun _ _ => rfl, fun _ _ _ => rfl, fun _ _ => rfl⟩,
      fun i h1 h2 => by omega, fun t ht => by simpa using hD t (by simpa using ht)⟩
  | cons t ts ih =>
    intro nodes nodes' amb amb' D hc hn hts hearly hcur hD hnD hnodup h
    rw [expand] at h
    cases hd : destination a e cur nodes t with
    | error c => rw [hd] at h; simp [bind, Except.bind] at h
    | ok r =>
      obtain ⟨n1, amb1, d⟩ := r
      rw [hd] at h
      simp only [bind, Except.bind] at h
      rw [← hcur] at hd
      obtain ⟨c1, x1, same1, fresh1, dn, dy⟩ :=
        destination_ok hwf he hs hc hn (hts t List.mem_cons_self) hearly hd
      have hn1 : next < n1.length := Nat.lt_of_lt_of_le hn x1.len
      have htnt : t < a.nt := hts t List.mem_cons_self
      have hlen1 : (nodeAt n1 next).map.length = a.nt := (c1.ok next hn1).len
      generalize hn2 : n1.set next { nodeAt n1 next with map := (nodeAt n1 next).map.set t d } = n2 at h
      have c2 : Core a e start n2 (amb || amb1) := by
        rw [← hn2]; exact core_setMap c1 hn1 (by simp [hlen1])
      have hat : ∀ i, nodeAt n2 i = if i = next then
          { nodeAt n1 next with map := (nodeAt n1 next).map.set t d } else nodeAt n1 i := by
        intro i; rw [← hn2]; exact nodeAt_set _ _ _ _ hn1
      have hl2 : n2.length = n1.length := by rw [← hn2]; simp
      have hnf2 : ∀ i, (nodeAt n2 i).nfas = (nodeAt n1 i).nfas := by
        intro i; rw [hat]; split
        · rename_i hh; rw [hh]
        · rfl
      have x2 : Ext next nodes n2 := by
        refine ⟨by rw [hl2]; exact x1.len, fun i hi => by rw [hnf2]; exact x1.nfas i hi,
          fun i hi hne => ?_, fun i hi => ?_⟩
        · rw [hat, if_neg hne]; exact x1.same i hi hne
        · rw [hat]; split
          · rename_i hh; subst hh; exact x1.early _ hi
          · exact x1.early i hi
      have hlinkT : Link a e n2 next t := by
        unfold Link
        rw [hnf2, same1]
        have hmap : (nodeAt n2 next).map[t]? = some d := by
          rw [hat, if_pos rfl]
          simp [List.getElem?_set, hlen1, htnt]
        rw [hmap]
        refine ⟨fun hx => by rw [dn hx], fun hx => ?_⟩
        obtain ⟨k, h1, h2, h3⟩ := dy hx
        exact ⟨k, by rw [hl2]; exact h2, by rw [h1], by rw [hnf2]; exact h3⟩
      have hlinkD : ∀ u, D u → Link a e n2 next u := by
        intro u hu
        refine x2.link hn ?_ (hD u hu)
        rw [hat, if_pos rfl, same1]
        have hne : t ≠ u := fun hh => hnD t List.mem_cons_self (hh ▸ hu)
        simp [List.getElem?_set, hne]
      obtain ⟨r1, r2, r3, r4⟩ := ih n2 nodes' (amb || amb1) amb' (fun u => D u ∨ u = t) c2
        (by rw [hl2]; exact hn1) (fun u hu => hts u (List.mem_cons_of_mem _ hu))
        (by rw [hat, if_pos rfl, same1]; exact hearly)
        (by rw [hnf2, same1]; exact hcur)
        (by rintro u (hu | rfl)
            · exact hlinkD u hu
            · exact hlinkT)
        (by rintro u hu (hx | rfl)
            · exact hnD u (List.mem_cons_of_mem _ hu) hx
            · exact (List.nodup_cons.1 hnodup).1 hu)
        (List.nodup_cons.1 hnodup).2 h
      refine ⟨r1, ⟨Nat.le_trans x2.len r2.len, fun i hi => ?_, fun i hi hne => ?_, fun i hi => ?_⟩, ?_, ?_⟩
      · rw [r2.nfas i (Nat.lt_of_lt_of_le hi x2.len)]; exact x2.nfas i hi
      · rw [r2.same i (Nat.lt_of_lt_of_le hi x2.len) hne]; exact x2.same i hi hne
      · rw [r2.early i (Nat.lt_of_lt_of_le hi x2.len)]; exact x2.early i hi
      · intro i h1 h2
        rcases Nat.lt_or_ge i n2.length with h3 | h3
        · have hne : i ≠ next := by omega
          rw [r2.same i h3 hne, hat, if_neg hne]
          exact fresh1 i h1 (by omega)
        · exact r3 i h3 h2
      · intro u hu
        apply r4
        rcases hu with hu | hu
        · exact Or.inl (Or.inl hu)
        · rcases List.mem_cons.1 hu with rfl | hu
          · exact Or.inl (Or.inr rfl)
          · exact Or.inr hu

/-- A crash while expanding comes from one of the tokens. -/
theorem expand_error {a : Nfa} (hwf : a.WF) {e : List Nat} (he : ClosedRows a e) {start : Nat}
    (hs : start < a.n) (next cur : Nat) (w : List Nat) (hw : SetOf a start w cur) (c : Crash) :
    ∀ (ts : List Nat) (s : List Node × Bool), expand a e next cur ts s = .error c →
    ∃ t ∈ ts, (∃ q, After a start (t :: w) q) ∧
      ((c = .exit2 ∧ (BadTag a a.exit (·.exits) start (t :: w) ∨ BadTag a a.attr (·.attrs) start (t :: w))) ∨
      (c = .recursion ∧ ((∀ v, ¬ Calls a.exit (Tagged a (·.exits) start (t :: w)) a.exit.results v) ∨
        ∀ v, ¬ Calls a.attr (Tagged a (·.attrs) start (t :: w)) a.attr.results v))) := by
  intro ts
  induction ts with
  | nil => intro s h; simp [expand] at h
  | cons t ts ih =>
    rintro ⟨nodes, amb⟩ h
    rw [expand] at h
    cases hd : destination a e cur nodes t with
    | error c' =>
      rw [hd] at h
      simp only [bind, Except.bind, Except.error.injEq] at h
      subst h
      exact ⟨t, List.mem_cons_self, destination_error hwf he hs hw hd⟩
    | ok r =>
      obtain ⟨n1, amb1, d⟩ := r
      rw [hd] at h
      simp only [bind, Except.bind] at h
      obtain ⟨t', h1, h2⟩ := ih _ h
      exact ⟨t', List.mem_cons_of_mem _ h1, h2⟩

/-- The whole invariant of the main loop. -/
structure BInv (a : Nfa) (e : List Nat) (start next : Nat) (nodes : List Node) (amb : Bool) : Prop where
  core : Core a e start nodes amb
  done : ∀ i, i < next → i < nodes.length →
    (nodeAt nodes i).early = some true ∨ ∀ t, t < a.nt → Link a e nodes i t
  rest : ∀ i, i < nodes.length → next ≤ i ∨ (nodeAt nodes i).early = some true →
    (nodeAt nodes i).map = List.replicate a.nt none
  set : ∀ i, i < next → i < nodes.length → (nodeAt nodes i).early ≠ none

/-- Pairwise different numbers below `M` are at most `M`. -/
theorem nodup_length_le (M : Nat) : ∀ l : List Nat, l.Nodup → (∀ x ∈ l, x < M) → l.length ≤ M := by
  induction M with
  | zero =>
    intro l _ h
    cases l with
    | nil => simp
    | cons a l => exact absurd (h a List.mem_cons_self) (by omega)
  | succ M ih =>
    intro l hn h
    have h1 := ih (l.erase M) (hn.erase M) (by
      intro x hx
      have hx' := (List.Nodup.mem_erase_iff hn).1 hx
      have := h x hx'.2
      have := hx'.1
      omega)
    rw [List.length_erase] at h1
    split at h1 <;> omega

theorem core_length {a : Nfa} (hwf : a.WF) {e : List Nat} {start : Nat} (hs : start < a.n)
    {nodes : List Node} {amb : Bool} (h : Core a e start nodes amb) : nodes.length ≤ 2 ^ a.n := by
  have h1 := nodup_length_le (2 ^ a.n) ((List.range nodes.length).map (fun i => (nodeAt nodes i).nfas))
    (by
      rw [List.Nodup, List.pairwise_map]
      refine List.Pairwise.imp_of_mem ?_ List.pairwise_lt_range
      intro i j _ hj hij
      exact h.distinct i j hij (by simpa using hj))
    (by
      intro x hx
      simp only [List.mem_map, List.mem_range] at hx
      obtain ⟨i, hi, rfl⟩ := hx
      obtain ⟨w, _, hw, _⟩ := (h.ok i hi).word
      apply Nat.lt_pow_two_of_testBit
      intro k hk
      cases hb : (nodeAt nodes i).nfas.testBit k with
      | false => rfl
      | true =>
        have := ((hw k).1 hb).lt hwf hs
        omega)
  simpa using h1

/-- How the builder can fail, in terms of the NFA: for some word that a caller can read, a tag is
also defined by an expression, an expression has no value, or two exit values hold. -/
def Failure (a : Nfa) (start : Nat) (c : Crash) : Prop :=
  ∃ w, Open a start w ∧ (∃ q, After a start w q) ∧
    ((c = .exit2 ∧ (BadTag a a.exit (·.exits) start w ∨ BadTag a a.attr (·.attrs) start w)) ∨
    (c = .recursion ∧ ((∀ v, ¬ Calls a.exit (Tagged a (·.exits) start w) a.exit.results v) ∨
      ∀ v, ¬ Calls a.attr (Tagged a (·.attrs) start w) a.attr.results v)) ∨
    (c = .uninit ∧ Calls a.exit (Tagged a (·.exits) start w) a.exit.results .ambiguous))

theorem buildLoop_ok {a : Nfa} (hwf : a.WF) {e : List Nat} (he : ClosedRows a e) {start : Nat}
    (hs : start < a.n) : ∀ (fuel next : Nat) (nodes : List Node) (amb : Bool),
    BInv a e start next nodes amb → next ≤ nodes.length → 2 ^ a.n < fuel + next →
    (∃ nodes' amb' next', buildLoop a e fuel next (nodes, amb) = some (.ok (nodes', amb')) ∧
      nodes'.length ≤ next' ∧ BInv a e start next' nodes' amb') ∨
    (∃ c, buildLoop a e fuel next (nodes, amb) = some (.error c) ∧ Failure a start c) := by
  intro fuel
  induction fuel with
  | zero =>
    intro next nodes amb h hle hf
    have := core_length hwf hs h.core
    omega
  | succ fuel ih =>
    intro next nodes amb h hle hf
    unfold buildLoop
    by_cases hn : next < nodes.length
    · simp only [hn, if_true]
      cases hearly : (nodeAt nodes next).early with
      | none =>
        right
        refine ⟨.uninit, rfl, ?_⟩
        obtain ⟨w, hw1, hw2, hw3⟩ := (h.core.ok next hn).word
        obtain ⟨v, v', h1, _, _, h4, _⟩ := (h.core.ok next hn).verdict
        refine ⟨w, hw1, hw3, Or.inr (Or.inr ⟨rfl, ?_⟩)⟩
        rw [hearly] at h4
        cases v with
        | none => simp [Verdict.early] at h4
        | unique r => simp [Verdict.early] at h4
        | ambiguous => exact ((judge_ok hwf _ _ hs hw2 _).1 h1).2
      | some b =>
        cases b with
        | true =>
          simp only
          refine ih (next + 1) nodes amb ⟨h.core, ?_, ?_, ?_⟩ hn (by omega)
          · intro i hi hil
            by_cases hin : i = next
            · subst hin; exact Or.inl hearly
            · exact h.done i (by omega) hil
          · intro i hil hor
            apply h.rest i hil
            rcases hor with h1 | h1
            · exact Or.inl (by omega)
            · exact Or.inr h1
          · intro i hi hil
            by_cases hin : i = next
            · subst hin; rw [hearly]; simp
            · exact h.set i (by omega) hil
        | false =>
          simp only
          cases hx : expand a e next (nodeAt nodes next).nfas (List.range a.nt) (nodes, amb) with
          | error c =>
            right
            refine ⟨c, rfl, ?_⟩
            obtain ⟨w, hw1, hw2, hw3⟩ := (h.core.ok next hn).word
            obtain ⟨t, ht, hq, hbad⟩ := expand_error hwf he hs next _ w hw2 c _ _ hx
            have hnotEarly : ¬ EarlyAt a start w := by
              rintro ⟨r, hr1, hr2⟩
              obtain ⟨u, u', hu1, _, _, hu4, _⟩ := (h.core.ok next hn).verdict
              have hcu := ((judge_ok hwf _ _ hs hw2 u).1 hu1)
              have := judge_unique hu1 ((judge_ok hwf _ _ hs hw2 (.unique r)).2 ⟨hcu.1, hr1⟩)
              rw [this] at hu4
              rw [hearly] at hu4
              simp [Verdict.early, hr2] at hu4
            refine ⟨t :: w, ⟨by simpa using ht, hw1, hnotEarly⟩, hq, ?_⟩
            rcases hbad with hb | hb
            · exact Or.inl hb
            · exact Or.inr (Or.inl hb)
          | ok r =>
            obtain ⟨n', amb'⟩ := r
            simp only
            obtain ⟨r1, r2, r3, r4⟩ := expand_ok hwf he hs next _ (List.range a.nt) nodes n' amb amb'
              (fun _ => False) h.core hn (fun t ht => by simpa using ht) hearly rfl
              (fun _ hf => hf.elim) (fun _ _ hf => hf) List.nodup_range hx
            refine ih (next + 1) n' amb' ⟨r1, ?_, ?_, ?_⟩
              (Nat.lt_of_lt_of_le hn r2.len) (by omega)
            · intro i hi hil
              by_cases hin : i = next
              · subst hin
                exact Or.inr (fun t ht => r4 t (Or.inr (by simpa using ht)))
              · have hio : i < nodes.length := by omega
                rcases h.done i (by omega) hio with h1 | h1
                · left; rw [r2.early i hio]; exact h1
                · right
                  intro t ht
                  exact r2.link hio (by rw [r2.same i hio hin]) (h1 t ht)
            · intro i hil hor
              rcases Nat.lt_or_ge i nodes.length with hio | hio
              · have hin : i ≠ next := by
                  rintro rfl
                  rcases hor with h1 | h1
                  · omega
                  · rw [r2.early i hio, hearly] at h1; simp at h1
                rw [r2.same i hio hin]
                apply h.rest i hio
                rcases hor with h1 | h1
                · exact Or.inl (by omega)
                · right; rw [← r2.early i hio]; exact h1
              · exact r3 i hio hil
            · intro i hi hil
              have hio : i < nodes.length := by omega
              rw [r2.early i hio]
              by_cases hin : i = next
              · subst hin; rw [hearly]; simp
              · exact h.set i (by omega) hio
    · simp only [hn, if_false]
      exact Or.inl ⟨nodes, amb, next, rfl, by omega, h⟩

/-! ## The theorems -/

/-- The node list stands for the NFA: on every word that a caller reads to its end, the automaton
jams exactly when no NFA state is reachable, and otherwise it is in a state whose texts are the
verdicts for the tags of all reachable states. -/
structure Represents (a : Nfa) (start : Nat) (step : Nat → Nat → Option Nat) (count : Nat)
    (result attrib : Nat → Option Name) : Prop where
  jam : ∀ w, Open a start w → (run step 0 w = none ↔ ∀ q, ¬ After a start w q)
  state : ∀ w s, Open a start w → run step 0 w = some s → s < count ∧
    (∃ v, v ≠ .ambiguous ∧ Calls a.exit (Tagged a (·.exits) start w) a.exit.results v ∧ result s = v.text) ∧
    (∃ v, v ≠ .ambiguous ∧ Calls a.attr (Tagged a (·.attrs) start w) a.attr.results v ∧ attrib s = v.text)

/-- What a finished run of the builder guarantees about its node list. -/
structure Built (a : Nfa) (start : Nat) (nodes : List Node) : Prop where
  reads : ∀ w, Open a start w → match run (nodeStep nodes) 0 w with
    | none => ∀ q, ¬ After a start w q
    | some s => s < nodes.length ∧ SetOf a start w (nodeAt nodes s).nfas ∧ ∃ q, After a start w q
  minimal : ∀ i, i < nodes.length → ∃ w, Open a start w ∧ run (nodeStep nodes) 0 w = some i

theorem Open.tail {a : Nfa} {start t : Nat} {w : List Nat} (h : Open a start (t :: w)) :
    Open a start w := h.2.1

theorem binv_reads {a : Nfa} (hwf : a.WF) {e : List Nat} (he : ClosedRows a e) {start : Nat}
    (hs : start < a.n) {next : Nat} {nodes : List Node} {amb : Bool} (h : BInv a e start next nodes amb)
    (hfin : nodes.length ≤ next) : ∀ w, Open a start w → match run (nodeStep nodes) 0 w with
    | none => ∀ q, ¬ After a start w q
    | some s => s < nodes.length ∧ SetOf a start w (nodeAt nodes s).nfas ∧ ∃ q, After a start w q := by
  intro w
  induction w with
  | nil =>
    intro _
    simp only [run]
    refine ⟨h.core.pos, fun q => ?_, start, .nil (.refl start)⟩
    rw [h.core.first, he start hs q]
    exact ⟨.nil, fun hq => by cases hq with | nil h => exact h⟩
  | cons t w ih =>
    intro ho
    have hw := ih ho.tail
    rw [run]
    cases hr : run (nodeStep nodes) 0 w with
    | none =>
      rw [hr] at hw
      simp only [Option.bind_none]
      intro q hq
      cases hq with
      | read h1 _ _ => exact hw _ h1
    | some s =>
      rw [hr] at hw
      obtain ⟨hsl, hset, _⟩ := hw
      have hne : (nodeAt nodes s).early ≠ some true := by
        intro hx
        obtain ⟨v, v', h1, _, _, h4, _⟩ := (h.core.ok s hsl).verdict
        rw [hx] at h4
        cases v with
        | none => simp [Verdict.early] at h4
        | ambiguous => simp [Verdict.early] at h4
        | unique r =>
          simp only [Verdict.early, Option.some.injEq] at h4
          exact ho.2.2 ⟨r, ((judge_ok hwf _ _ hs hset _).1 h1).2, h4.symm⟩
      have hlink := (h.done s (by omega) hsl).resolve_left hne t ho.1
      have hsucc := successors_set hwf he hs hset t
      simp only [Option.bind_some, nodeStep]
      by_cases hf : (successors a e (nodeAt nodes s).nfas t).2 = true
      · obtain ⟨k, h1, h2, h3⟩ := hlink.2 hf
        rw [h2]
        refine ⟨h1, by rw [h3]; exact hsucc, ?_⟩
        obtain ⟨q, hq⟩ := (ne_zero_iff_testBit _).1 ((successors_found _ _ _ _).1 hf)
        exact ⟨q, (hsucc q).1 hq⟩
      · simp only [Bool.not_eq_true] at hf
        rw [hlink.1 hf]
        simp only [Option.join]
        intro q hq
        have h0 : ¬ (successors a e (nodeAt nodes s).nfas t).1 ≠ 0 := by
          rw [← successors_found, hf]; simp
        exact h0 ((ne_zero_iff_testBit _).2 ⟨q, (hsucc q).2 hq⟩)

theorem SetOf.unique {a : Nfa} {start : Nat} {w : List Nat} {x y : Nat} (h1 : SetOf a start w x)
    (h2 : SetOf a start w y) : x = y := by
  apply Nat.eq_of_testBit_eq
  intro k
  have := (h1 k).trans (h2 k).symm
  cases hx : x.testBit k <;> cases hy : y.testBit k <;> simp_all

theorem binv_minimal {a : Nfa} (hwf : a.WF) {e : List Nat} (he : ClosedRows a e) {start : Nat}
    (hs : start < a.n) {next : Nat} {nodes : List Node} {amb : Bool} (h : BInv a e start next nodes amb)
    (hfin : nodes.length ≤ next) (i : Nat) (hi : i < nodes.length) :
    ∃ w, Open a start w ∧ run (nodeStep nodes) 0 w = some i := by
  obtain ⟨w, hw1, hw2, q, hq⟩ := (h.core.ok i hi).word
  have hr := binv_reads hwf he hs h hfin w hw1
  refine ⟨w, hw1, ?_⟩
  cases hx : run (nodeStep nodes) 0 w with
  | none => rw [hx] at hr; exact absurd hq (hr q)
  | some s =>
    rw [hx] at hr
    obtain ⟨h1, h2, _⟩ := hr
    have heq := h2.unique hw2
    rcases Nat.lt_trichotomy s i with hlt | rfl | hlt
    · exact absurd heq (h.core.distinct s i hlt hi)
    · rfl
    · exact absurd heq.symm (h.core.distinct i s hlt h1)

theorem addDfa_first {a : Nfa} (hwf : a.WF) {e : List Nat} (he : ClosedRows a e) {start : Nat}
    (hs : start < a.n) : SetOf a start [] (e.getD start 0) := by
  intro q
  rw [he start hs q]
  exact ⟨.nil, fun hq => by cases hq with | nil h => exact h⟩

/-- Everything about `build_dfa` at once. -/
theorem buildDfa_total (a : Nfa) (hwf : a.WF) (hnt : 0 < a.nt) (start : Nat) (hs : start < a.n) :
    ∃ e, epsilonClosure a = some e ∧
      ((∃ nodes amb next, buildDfa a e start (2 ^ a.n + 1) = some (.ok (nodes, amb)) ∧
        nodes.length ≤ next ∧ ClosedRows a e ∧ BInv a e start next nodes amb) ∨
      (∃ c, buildDfa a e start (2 ^ a.n + 1) = some (.error c) ∧ Failure a start c)) := by
  obtain ⟨e, h1, _, he⟩ := epsilonClosure_correct a hwf
  refine ⟨e, h1, ?_⟩
  have he' : ClosedRows a e := he
  have hset := addDfa_first hwf he' hs
  unfold buildDfa
  rw [if_neg (by omega), addDfa_eq]
  have hq : ∃ q, After a start [] q := ⟨start, .nil (.refl start)⟩
  cases hv : judge a.exit (tagsOf a (·.exits) (e.getD start 0)) with
  | error c =>
    right
    refine ⟨c, rfl, [], trivial, hq, ?_⟩
    rcases judge_error hwf _ _ hs hset _ hv with ⟨h1, h2⟩ | ⟨h1, h2⟩
    · exact Or.inl ⟨h1, Or.inl h2⟩
    · exact Or.inr (Or.inl ⟨h1, Or.inl h2⟩)
  | ok v =>
    cases hv' : judge a.attr (tagsOf a (·.attrs) (e.getD start 0)) with
    | error c =>
      right
      refine ⟨c, rfl, [], trivial, hq, ?_⟩
      rcases judge_error hwf _ _ hs hset _ hv' with ⟨h1, h2⟩ | ⟨h1, h2⟩
      · exact Or.inl ⟨h1, Or.inr h2⟩
      · exact Or.inr (Or.inl ⟨h1, Or.inr h2⟩)
    | ok v' =>
      simp only
      have h0 : nodeAt [freshNode a (e.getD start 0) v v'] 0 = freshNode a (e.getD start 0) v v' := rfl
      have hb : BInv a e start 0 [freshNode a (e.getD start 0) v v']
          (v == .ambiguous || v' == .ambiguous) := by
        refine ⟨⟨by simp, rfl, ?_, ?_, ?_⟩, fun i hi => by omega, ?_, fun i hi => by omega⟩
        · intro i hi
          have : i = 0 := by simpa using hi
          subst this
          rw [h0]
          refine ⟨⟨[], trivial, hset, hq⟩, ⟨v, v', hv, hv', rfl, rfl, rfl, ?_⟩, by simp [freshNode]⟩
          rintro (rfl | rfl) <;> simp
        · intro i j hij hj; simp at hj; omega
        · intro hamb
          exact ⟨0, by simp, v, v', hv, hv', by simpa using hamb⟩
        · intro i hi _
          have : i = 0 := by simpa using hi
          subst this
          rw [h0]; rfl
      rcases buildLoop_ok hwf he' hs (2 ^ a.n + 1) 0 _ _ hb (by simp) (by omega)
        with ⟨n, b, x, h1, h2, h3⟩ | hbad
      · exact Or.inl ⟨n, b, x, h1, h2, he', h3⟩
      · exact Or.inr hbad

/-- **C26**: the subset construction ends for every NFA, after at most `2^n` states. If it does not
stop with one of the failures, then each word the caller reads leads to the node whose set is exactly
the set of NFA states reachable on that word, and every node is reached by some word. -/
theorem buildDfa_correct (a : Nfa) (hwf : a.WF) (hnt : 0 < a.nt) (start : Nat) (hs : start < a.n) :
    ∃ e out, epsilonClosure a = some e ∧ buildDfa a e start (2 ^ a.n + 1) = some out ∧
      (∀ nodes amb, out = .ok (nodes, amb) → Built a start nodes ∧ nodes.length ≤ 2 ^ a.n) ∧
      (∀ c, out = .error c → Failure a start c) := by
  obtain ⟨e, h1, h2⟩ := buildDfa_total a hwf hnt start hs
  rcases h2 with ⟨nodes, amb, next, h2, h3, he, h4⟩ | ⟨c, h2, h3⟩
  · refine ⟨e, _, h1, h2, ?_, fun c hc => by simp at hc⟩
    rintro nodes' amb' heq
    cases heq
    exact ⟨⟨binv_reads hwf he hs h4 h3, binv_minimal hwf he hs h4 h3⟩, core_length hwf hs h4.core⟩
  · refine ⟨e, _, h1, h2, fun _ _ hc => by simp at hc, ?_⟩
    rintro c' hc
    cases hc
    exact h3

/-- **C26, C29 (results)**: without ambiguity the automaton represents the NFA, even though states
with an early result have no transitions. -/
theorem buildDfa_represents (a : Nfa) (hwf : a.WF) (hnt : 0 < a.nt) (start : Nat) (hs : start < a.n)
    (e : List Nat) (he : epsilonClosure a = some e) (nodes : List Node)
    (h : buildDfa a e start (2 ^ a.n + 1) = some (.ok (nodes, false))) :
    Represents a start (nodeStep nodes) nodes.length (fun s => (nodeAt nodes s).result)
      (fun s => (nodeAt nodes s).attrib) := by
  obtain ⟨e', h1, h2⟩ := buildDfa_total a hwf hnt start hs
  rw [he] at h1
  cases h1
  rcases h2 with ⟨nodes', amb, next, h2, h3, he', h4⟩ | ⟨c, h2, h3⟩
  · rw [h] at h2
    cases h2
    have hr := binv_reads hwf he' hs h4 h3
    constructor
    · intro w hw
      have := hr w hw
      cases hx : run (nodeStep nodes) 0 w with
      | none => rw [hx] at this; simpa using this
      | some s =>
        rw [hx] at this
        obtain ⟨_, _, q, hq⟩ := this
        simp only [reduceCtorEq, false_iff]
        exact fun hn => hn q hq
    · intro w s hw hx
      have := hr w hw
      rw [hx] at this
      obtain ⟨hsl, hset, _⟩ := this
      obtain ⟨v, v', k1, k2, k3, k4, k5, k6⟩ := (h4.core.ok s hsl).verdict
      refine ⟨hsl, ⟨v, ?_, ((judge_ok hwf _ _ hs hset v).1 k1).2, k3⟩,
        ⟨v', ?_, ((judge_ok hwf _ _ hs hset v').1 k2).2, k5⟩⟩
      · rintro rfl; exact absurd (k6 (Or.inl rfl)) (by simp)
      · rintro rfl; exact absurd (k6 (Or.inr rfl)) (by simp)
  · rw [h] at h2; cases h2

/-- **C26 (ambiguity)**: the builder reports ambiguity exactly when two results hold for some
readable word. -/
theorem buildDfa_ambiguous_iff (a : Nfa) (hwf : a.WF) (hnt : 0 < a.nt) (start : Nat) (hs : start < a.n)
    (e : List Nat) (he : epsilonClosure a = some e) (nodes : List Node) (amb : Bool)
    (h : buildDfa a e start (2 ^ a.n + 1) = some (.ok (nodes, amb))) :
    amb = true ↔ ∃ w, Open a start w ∧ (∃ q, After a start w q) ∧
      (Calls a.exit (Tagged a (·.exits) start w) a.exit.results .ambiguous ∨
       Calls a.attr (Tagged a (·.attrs) start w) a.attr.results .ambiguous) := by
  obtain ⟨e', h1, h2⟩ := buildDfa_total a hwf hnt start hs
  rw [he] at h1
  cases h1
  rcases h2 with ⟨nodes', amb', next, h2, h3, he', h4⟩ | ⟨c, h2, h3⟩
  · rw [h] at h2
    cases h2
    have hr := binv_reads hwf he' hs h4 h3
    constructor
    · intro hamb
      obtain ⟨i, hi, v, v', k1, k2, k3⟩ := h4.core.ambEx hamb
      obtain ⟨w, hw1, hw2, hw3⟩ := (h4.core.ok i hi).word
      refine ⟨w, hw1, hw3, ?_⟩
      rcases k3 with rfl | rfl
      · exact Or.inl ((judge_ok hwf _ _ hs hw2 _).1 k1).2
      · exact Or.inr ((judge_ok hwf _ _ hs hw2 _).1 k2).2
    · rintro ⟨w, hw1, ⟨q, hq⟩, hw3⟩
      have hrw := hr w hw1
      cases hx : run (nodeStep nodes) 0 w with
      | none => rw [hx] at hrw; exact absurd hq (hrw q)
      | some s =>
        rw [hx] at hrw
        obtain ⟨hsl, hset, _⟩ := hrw
        obtain ⟨v, v', k1, k2, _, _, _, k6⟩ := (h4.core.ok s hsl).verdict
        apply k6
        rcases hw3 with hw3 | hw3
        · left
          have hb := ((judge_ok hwf _ _ hs hset _).1 k1).1
          exact judge_unique k1 ((judge_ok hwf _ _ hs hset _).2 ⟨hb, hw3⟩)
        · right
          have hb := ((judge_ok hwf _ _ hs hset _).1 k2).1
          exact judge_unique k2 ((judge_ok hwf _ _ hs hset _).2 ⟨hb, hw3⟩)
  · rw [h] at h2; cases h2

/-- The words `0`, `1* 0 0` and `1 1*`: state 0 loops on token 1, tag "a" is early. -/
def demoNfa : Nfa :=
  { states := [⟨[(some 1, 0), (some 0, 1), (none, 3)], [], []⟩, ⟨[(some 0, 2)], ["a".toList], []⟩,
      ⟨[(some 1, 2)], ["b".toList], ["x".toList]⟩, ⟨[(some 1, 4)], [], []⟩,
      ⟨[(none, 3)], ["c".toList], []⟩]
    nt := 2
    exit := ⟨[], [⟨"A".toList, .sym "a".toList, true⟩, ⟨"B".toList, .sym "b".toList, false⟩,
      ⟨"C".toList, .sym "c".toList, false⟩]⟩
    attr := ⟨[], [⟨"X".toList, .sym "x".toList, false⟩]⟩ }

example : demoNfa.WF ∧ 0 < demoNfa.nt ∧ 0 < demoNfa.n :=
  ⟨wf_of_all _ (by decide +kernel), by decide, by decide⟩
example : (epsilonClosure demoNfa).bind (fun e => buildDfa demoNfa e 0 33) = some (.ok
    ([⟨9, [some 1, some 2], none, some false, none⟩,
      ⟨2, [none, none], some "A".toList, some true, none⟩,
      ⟨25, [some 1, some 2], some "C".toList, some false, none⟩], false)) := by decide +kernel

/-- With both "a" and "b" on one state the result is ambiguous and `result_early` is read without
having been assigned. -/
theorem ambiguous_uninit :
    (epsilonClosure { demoNfa with states := [⟨[], ["a".toList, "b".toList], []⟩] }).bind (fun e =>
      buildDfa { demoNfa with states := [⟨[], ["a".toList, "b".toList], []⟩] } e 0 3) =
    some (.error .uninit) := by decide +kernel

end Jbo.Dfasyn
