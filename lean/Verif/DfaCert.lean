import Verif.DfaPipeThm
/-!
# Checked automata

A table automaton written out as a literal, with the set of NFA states of each of its states, and a
check, fast enough for the kernel, that it is the subset automaton of a given NFA.  Nothing here is a
model of the program: it is how theorems about a particular NFA are proved.
-/

namespace Jbo.Dfasyn

/-- Binary trees for lookup; the lowest bit of the index decides first. -/
inductive BT (α : Type) : Type
  | nil
  | leaf (a : α)
  | node (l r : BT α)

namespace BT
variable {α γ β : Type}

/-- The element at an index. -/
noncomputable def getD (t : BT α) (i : Nat) (x : α) : α :=
  BT.rec (motive := fun _ => Nat → α) (fun _ => x) (fun a i => match i with | 0 => a | _ + 1 => x)
    (fun _ _ l r i => Bool.rec (r (Nat.div i 2)) (l (Nat.div i 2)) (Nat.beq (Nat.mod i 2) 0)) t i

theorem getD_node (l r : BT α) (i : Nat) (x : α) : (BT.node l r).getD i x =
    match i % 2 with | 0 => l.getD (i / 2) x | _ + 1 => r.getD (i / 2) x := by
  show Bool.rec (motive := fun _ => α) (r.getD (i / 2) x) (l.getD (i / 2) x) (Nat.beq (i % 2) 0) = _
  cases i % 2 <;> rfl

def map (f : α → γ) : BT α → BT γ
  | .nil => .nil
  | .leaf a => .leaf (f a)
  | .node l r => .node (l.map f) (r.map f)

/-- `map`, evaluating the numbers as they come. -/
noncomputable def mapF (f : α → Nat) (t : BT α) : (BT Nat → β) → β :=
  BT.rec (motive := fun _ => (BT Nat → β) → β) (fun k => k .nil)
    (fun a k => Nat.rec (motive := fun _ => β) (k (.leaf 0)) (fun n _ => k (.leaf (Nat.succ n))) (f a))
    (fun _ _ l r k => l (fun l => r (fun r => k (.node l r)))) t

theorem mapF_eq (f : α → Nat) (t : BT α) (k : BT Nat → β) : t.mapF f k = k (t.map f) := by
  induction t generalizing k with
  | nil => rfl
  | leaf a =>
    show Nat.rec (motive := fun _ => β) (k (.leaf 0)) (fun n _ => k (.leaf (Nat.succ n))) (f a) = k (.leaf (f a))
    cases f a <;> rfl
  | node l r ihl ihr =>
    show l.mapF f (fun l => r.mapF f (fun r => k (.node l r))) = _
    rw [ihl, ihr]; rfl

theorem getD_map (f : α → γ) (t : BT α) (i : Nat) (x : α) : (t.map f).getD i (f x) = f (t.getD i x) := by
  induction t generalizing i with
  | nil => rfl
  | leaf a => simp only [map, getD]; cases i <;> rfl
  | node l r ihl ihr =>
    simp only [map, getD_node]
    cases i % 2 with
    | zero => exact ihl _
    | succ n => exact ihr _

/-- Equality, by one pass over the first tree. -/
noncomputable def beq (s : BT Nat) : BT Nat → Bool :=
  BT.rec (motive := fun _ => BT Nat → Bool)
    (fun t => BT.rec (motive := fun _ => Bool) true (fun _ => false) (fun _ _ _ _ => false) t)
    (fun a t => BT.rec (motive := fun _ => Bool) false (fun b => Nat.beq a b) (fun _ _ _ _ => false) t)
    (fun _ _ l r t => BT.rec (motive := fun _ => Bool) false (fun _ => false)
      (fun l' r' _ _ => Bool.rec (motive := fun _ => Bool) false (r r') (l l')) t) s

theorem eq_of_beq : ∀ (s t : BT Nat), s.beq t = true → s = t
  | .nil, .nil, _ => rfl
  | .leaf a, .leaf b, h => by rw [Nat.eq_of_beq_eq_true (show Nat.beq a b = true from h)]
  | .node l r, .node l' r', h => by
    have h : Bool.rec (motive := fun _ => Bool) false (r.beq r') (l.beq l') = true := h
    cases hl : l.beq l' with
    | true =>
      rw [hl] at h
      rw [eq_of_beq l l' hl, eq_of_beq r r' h]
    | false => rw [hl] at h; simp at h
  | .nil, .leaf _, h => by simp [beq] at h
  | .nil, .node _ _, h => by simp [beq] at h
  | .leaf _, .nil, h => by simp [beq] at h
  | .leaf _, .node _ _, h => by simp [beq] at h
  | .node _ _, .nil, h => by simp [beq] at h
  | .node _ _, .leaf _, h => by simp [beq] at h

/-- All elements are below `2 ^ N`. -/
noncomputable def allLt (N : Nat) (t : BT Nat) : Bool :=
  BT.rec (motive := fun _ => Bool) true (fun a => Nat.beq (Nat.shiftRight a N) 0) (fun _ _ l r => l && r) t

theorem getD_of_allLt {N : Nat} : ∀ (t : BT Nat), t.allLt N = true → ∀ i, t.getD i 0 < 2 ^ N
  | .nil, _, _ => Nat.two_pow_pos N
  | .leaf a, h, i => by
    have h := Nat.eq_of_beq_eq_true (show Nat.beq (Nat.shiftRight a N) 0 = true from h)
    cases i with
    | zero =>
      show a < 2 ^ N
      have h : a >>> N = 0 := h
      rw [Nat.shiftRight_eq_div_pow] at h
      exact (Nat.div_eq_zero_iff_lt (Nat.two_pow_pos N)).1 h
    | succ n => exact Nat.two_pow_pos N
  | .node l r, h, i => by
    have h : (l.allLt N && r.allLt N) = true := h
    rw [Bool.and_eq_true] at h
    rw [getD_node]
    cases i % 2 with
    | zero => exact getD_of_allLt l h.1 _
    | succ n => exact getD_of_allLt r h.2 _

/-- The elements with even and with odd index. -/
def split : List α → (List α → List α → β) → β
  | [], k => k [] []
  | [a], k => k [a] []
  | a :: b :: l, k => split l (fun e o => k (a :: e) (b :: o))

def evens : List α → List α
  | [] => []
  | [a] => [a]
  | a :: _ :: l => a :: evens l

def odds : List α → List α
  | [] => []
  | [_] => []
  | _ :: b :: l => b :: odds l

theorem split_eq (l : List α) (k : List α → List α → β) : split l k = k (evens l) (odds l) := by
  fun_induction split l k with
  | case1 => rfl
  | case2 => rfl
  | case3 a b l k ih => rw [ih]; rfl

theorem getElem?_evens (l : List α) (i : Nat) : (evens l)[i]? = l[2 * i]? := by
  fun_induction evens l generalizing i with
  | case1 => simp
  | case2 a => cases i <;> simp [Nat.mul_add]
  | case3 a b l ih =>
    cases i with
    | zero => rfl
    | succ n => rw [show 2 * (n + 1) = 2 * n + 1 + 1 from by omega]; simp [ih]

theorem getElem?_odds (l : List α) (i : Nat) : (odds l)[i]? = l[2 * i + 1]? := by
  fun_induction odds l generalizing i with
  | case1 => simp
  | case2 a => simp
  | case3 a b l ih =>
    cases i with
    | zero => rfl
    | succ n => rw [show 2 * (n + 1) + 1 = 2 * n + 1 + 1 + 1 from by omega]; simp [ih]

/-- The tree of a list of at most `2 ^ d` elements. -/
def of : Nat → List α → (BT α → β) → β
  | 0, l, k => match l with
    | [] => k .nil
    | a :: _ => k (.leaf a)
  | d + 1, l, k => match l with
    | [] => k .nil
    | a :: l => split (a :: l) (fun e o => of d e (fun e => of d o (fun o => k (.node e o))))

def ofL : Nat → List α → BT α
  | 0, l => match l with
    | [] => .nil
    | a :: _ => .leaf a
  | d + 1, l => match l with
    | [] => .nil
    | a :: l => .node (ofL d (evens (a :: l))) (ofL d (odds (a :: l)))

theorem of_eq (d : Nat) (l : List α) (k : BT α → β) : of d l k = k (ofL d l) := by
  induction d generalizing l k with
  | zero => cases l <;> rfl
  | succ d ih =>
    cases l with
    | nil => rfl
    | cons a l => simp only [of, ofL, split_eq, ih]

theorem evens_map (f : α → γ) (l : List α) : evens (l.map f) = (evens l).map f := by
  fun_induction evens l with
  | case1 => rfl
  | case2 => rfl
  | case3 a b l ih => simp [evens, ih]

theorem odds_map (f : α → γ) (l : List α) : odds (l.map f) = (odds l).map f := by
  fun_induction odds l with
  | case1 => rfl
  | case2 => rfl
  | case3 a b l ih => simp [odds, ih]

theorem map_ofL (f : α → γ) (d : Nat) (l : List α) : (ofL d l).map f = ofL d (l.map f) := by
  induction d generalizing l with
  | zero => cases l <;> rfl
  | succ d ih =>
    cases l with
    | nil => rfl
    | cons a l =>
      simp only [ofL, map, List.map_cons, ih]
      rw [← List.map_cons, evens_map, odds_map]

theorem length_evens (l : List α) (n : Nat) (h : l.length ≤ 2 * n) : (evens l).length ≤ n := by
  fun_induction evens l generalizing n with
  | case1 => simp
  | case2 a => simp at h ⊢; omega
  | case3 a b l ih =>
    simp at h ⊢
    have := ih (n - 1) (by omega)
    omega

theorem length_odds (l : List α) (n : Nat) (h : l.length ≤ 2 * n) : (odds l).length ≤ n := by
  fun_induction odds l generalizing n with
  | case1 => simp
  | case2 a => simp
  | case3 a b l ih =>
    simp at h ⊢
    have := ih (n - 1) (by omega)
    omega

theorem getD_ofL (d : Nat) (l : List α) (h : l.length ≤ 2 ^ d) (i : Nat) (x : α) :
    (ofL d l).getD i x = l.getD i x := by
  induction d generalizing l i with
  | zero =>
    match l, h with
    | [], _ => simp [ofL, getD]
    | [a], _ => cases i <;> simp [ofL, getD]
    | _ :: _ :: _, h => simp at h
  | succ d ih =>
    cases l with
    | nil => simp [ofL, getD]
    | cons a l =>
      have hp : 2 ^ (d + 1) = 2 * 2 ^ d := by rw [Nat.pow_succ]; omega
      rw [hp] at h
      simp only [ofL, getD_node]
      have hi := Nat.div_add_mod i 2
      cases hm : i % 2 with
      | zero =>
        simp only
        rw [ih _ (length_evens _ _ h), List.getD_eq_getElem?_getD, getElem?_evens,
          List.getD_eq_getElem?_getD, show 2 * (i / 2) = i from by omega]
      | succ n =>
        simp only
        rw [ih _ (length_odds _ _ h), List.getD_eq_getElem?_getD, getElem?_odds,
          List.getD_eq_getElem?_getD, show 2 * (i / 2) + 1 = i from by omega]

end BT

/-- `zipIdx`, evaluating the indices. -/
def zipF {α β : Type} : List α → Nat → (List (α × Nat) → β) → β
  | [], _, k => k []
  | a :: l, n, k => match n with
    | 0 => zipF l 1 (fun r => k ((a, 0) :: r))
    | m + 1 => zipF l (m + 2) (fun r => k ((a, m + 1) :: r))

theorem zipF_eq {α β : Type} (l : List α) (n : Nat) (k : List (α × Nat) → β) : zipF l n k = k (l.zipIdx n) := by
  induction l generalizing n k with
  | nil => rfl
  | cons a l ih => cases n <;> simp only [zipF, ih, List.zipIdx_cons]

/-! ## Numbers with fields -/

/-- Fields of `N` bits: the value `v` in field `t` for each pair `(t, v)`. -/
def fields (N : Nat) : List (Nat × Nat) → Nat
  | [] => 0
  | (t, v) :: l => v <<< (t * N) ||| fields N l

theorem fields_testBit (N : Nat) (l : List (Nat × Nat)) (hl : ∀ p ∈ l, p.2 < 2 ^ N) (t q : Nat) (hq : q < N) :
    (fields N l).testBit (t * N + q) = true ↔ ∃ v, (t, v) ∈ l ∧ v.testBit q = true := by
  induction l with
  | nil => simp [fields]
  | cons p l ih =>
    obtain ⟨u, v⟩ := p
    have ihl := ih (fun p hp => hl p (List.mem_cons_of_mem _ hp))
    have hv := hl (u, v) List.mem_cons_self
    simp only [fields, Nat.testBit_or, Bool.or_eq_true, ihl, Nat.testBit_shiftLeft, Bool.and_eq_true,
      decide_eq_true_eq, List.mem_cons, Prod.mk.injEq]
    constructor
    · rintro (⟨h1, h2⟩ | ⟨v', h1, h2⟩)
      · by_cases htu : t = u
        · subst htu
          rw [show t * N + q - t * N = q from by omega] at h2
          exact ⟨v, Or.inl ⟨rfl, rfl⟩, h2⟩
        · exfalso
          have hut : u < t := by
            rcases Nat.lt_or_ge u t with h | h
            · exact h
            · exfalso
              have : (t + 1) * N ≤ u * N := Nat.mul_le_mul_right N (by omega)
              rw [Nat.add_mul] at this
              omega
          have : (u + 1) * N ≤ t * N := Nat.mul_le_mul_right N (by omega)
          rw [Nat.add_mul] at this
          have h3 : N ≤ t * N + q - u * N := by omega
          have h4 : v < 2 ^ (t * N + q - u * N) :=
            Nat.lt_of_lt_of_le hv (Nat.pow_le_pow_right (by omega) h3)
          rw [Nat.testBit_lt_two_pow h4] at h2
          simp at h2
      · exact ⟨v', Or.inr h1, h2⟩
    · rintro ⟨v', ⟨rfl, rfl⟩ | h1, h2⟩
      · left
        exact ⟨by omega, by rw [show t * N + q - t * N = q from by omega]; exact h2⟩
      · exact Or.inr ⟨v', h1, h2⟩

/-! ## The check -/

/-- A state of the automaton: its set of NFA states, its destinations (fields of `W` bits, 0 for none,
otherwise the index plus 1), and its class. -/
structure CNode where
  set : List Nat
  row : Nat
  cls : Nat

/-- What the states of a class have in common: which tags (bits are indices into the list of tag
names) and which verdicts (0 for none, otherwise the index of the result plus 1). -/
structure CClass where
  exits : Nat
  attrs : Nat
  exit : Nat
  attr : Nat

/-- The verdict with a number. -/
def verdictOf (x : Evaluator) : Nat → Verdict
  | 0 => .none
  | k + 1 => match x.results[k]? with
    | none => .ambiguous
    | some r => .unique r

/-- A certificate. -/
structure Cert where
  W : Nat
  exitNames : List Name
  attrNames : List Name
  classes : List CClass
  nodes : List CNode

/-- The bits of a list of indices. -/
def bitsOf : List Nat → Nat
  | [] => 0
  | s :: l => 1 <<< s ||| bitsOf l

/-- The names as bits. -/
def nameBits (names : List Name) : List Name → Nat
  | [] => 0
  | n :: l => 1 <<< names.idxOf n ||| nameBits names l

/-- One step of the closure for the state with index `i`. -/
noncomputable def cloStep (T : BT Nat) (s : NState × Nat) : Nat :=
  1 <<< s.2 ||| go s.1.trans
where
  go : List (Option Nat × Nat) → Nat
    | [] => 0
    | (none, d) :: l => T.getD d 0 ||| go l
    | (some _, _) :: l => go l

/-- `k` steps of the closure, evaluated. -/
noncomputable def cloIter {β : Type} (S : BT (NState × Nat)) : Nat → BT Nat → (BT Nat → β) → β
  | 0, T, k => k T
  | n + 1, T, k => S.mapF (cloStep T) (fun T => cloIter S n T k)

/-- What can be read from a state: closures of the destinations in the fields of the tokens, then two
fields for the tags. -/
noncomputable def post (T : BT Nat) (N : Nat) (xs as : List Name) (nt : Nat) (s : NState × Nat) : Nat :=
  fields N (go s.1.trans) ||| fields N [(nt, nameBits xs s.1.exits), (nt + 1, nameBits as s.1.attrs)]
where
  go : List (Option Nat × Nat) → List (Nat × Nat)
    | [] => []
    | (none, _) :: l => go l
    | (some t, d) :: l => (t, T.getD d 0) :: go l

/-- The union over a set. -/
noncomputable def unionOf (P : BT Nat) (l : List Nat) : Nat :=
  List.rec 0 (fun s _ u => Nat.lor (P.getD s 0) u) l

/-- The destination for a token. -/
def destOf (W row t : Nat) : Nat := (row >>> (W * t)) % 2 ^ W

/-- The fields that the destinations in a row call for, for the tokens below a number. -/
noncomputable def rowFields (B : BT Nat) (W row : Nat) : Nat → List (Nat × Nat)
  | 0 => []
  | t + 1 => match destOf W row t with
    | 0 => rowFields B W row t
    | d + 1 => (t, B.getD d 0) :: rowFields B W row t

/-- All destinations exist. -/
def rowOk (len W row : Nat) : Nat → Bool
  | 0 => true
  | t + 1 => Nat.ble (destOf W row t) len && rowOk len W row t

/-- The check of one state. -/
noncomputable def nodeOk (P B : BT Nat) (N nt W len : Nat) (cs : List CClass) (nd : CNode) : Bool :=
  match cs[nd.cls]? with
  | none => false
  | some c =>
    Nat.beq (unionOf P nd.set)
      (fields N (rowFields B W nd.row nt) ||| fields N [(nt, c.exits), (nt + 1, c.attrs)])
    && rowOk len W nd.row nt && !nd.set.isEmpty

/-- The check of a class. -/
def classOk (a : Nfa) (c : Cert) (k : CClass) : Bool :=
  decide (k.exits < 2 ^ c.exitNames.length) && decide (k.attrs < 2 ^ c.attrNames.length) &&
  decide (evaluateResult a.exit (fun n => k.exits.testBit (c.exitNames.idxOf n)) =
    .ok (verdictOf a.exit k.exit)) &&
  decide (evaluateResult a.attr (fun n => k.attrs.testBit (c.attrNames.idxOf n)) =
    .ok (verdictOf a.attr k.attr)) &&
  decide (k.exit ≤ a.exit.results.length) && decide (k.attr ≤ a.attr.results.length)

/-- The check of the automaton; `rounds` is the number of rounds for the closure. -/
noncomputable def Cert.graphOk (c : Cert) (a : Nfa) (start rounds depth : Nat) : Bool :=
  zipF a.states 0 (fun Z =>
  BT.of depth Z (fun S =>
  S.mapF (fun s => 1 <<< s.2) (fun T =>
  cloIter S rounds T (fun T =>
  S.mapF (cloStep T) (fun T' =>
  S.mapF (post T a.n c.exitNames c.attrNames a.nt) (fun P =>
  BT.of depth c.nodes (fun C =>
  C.mapF (fun nd => bitsOf nd.set) (fun B =>
    T.beq T' && B.allLt a.n && Nat.beq (B.getD 0 0) (T.getD start 0) &&
    c.nodes.all (nodeOk P B a.n a.nt c.W c.nodes.length c.classes)))))))))

/-- The checks that are not about the graph. -/
def Cert.namesOk (c : Cert) (a : Nfa) (start depth : Nat) : Bool :=
  a.states.all (fun s => s.trans.all (fun tr => decide (tr.2 < a.states.length) &&
    (match tr.1 with | none => true | some t => decide (t < a.nt)))) &&
  a.states.all (fun s => s.exits.all c.exitNames.contains && s.attrs.all c.attrNames.contains) &&
  c.exitNames.all (fun n => (a.exit.lookup n).isNone) && c.attrNames.all (fun n => (a.attr.lookup n).isNone) &&
  c.classes.all (classOk a c) &&
  decide (start < a.n) && decide (0 < a.nt) && decide (a.n ≤ 2 ^ depth) && decide (c.nodes.length ≤ 2 ^ depth) &&
  decide (c.exitNames.length < a.n) && decide (c.attrNames.length < a.n) && decide (0 < c.nodes.length)

/-! ## The automaton of a certificate -/

def Cert.node (c : Cert) (i : Nat) : CNode := c.nodes.getD i ⟨[], 0, 0⟩

/-- The transition. -/
def Cert.step (c : Cert) (nt i t : Nat) : Option Nat :=
  if t < nt then match destOf c.W (c.node i).row t with
    | 0 => none
    | d + 1 => some d
  else none

def Cert.cls (c : Cert) (i : Nat) : CClass := c.classes.getD (c.node i).cls ⟨0, 0, 0, 0⟩

end Jbo.Dfasyn
