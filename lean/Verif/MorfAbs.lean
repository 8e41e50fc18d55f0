import Verif.Morf
import Verif.MorfCert
import Verif.BcAbs
/-!
# The scanner without its loop

The variables of `morf_scan` after a text, as functions of the text (last letter first), and the
proof that the loop on the generated tables computes them.
-/

namespace Jbo.Morf
open Jbo.Dfasyn

/-- A letter with its position. -/
abbrev At := Nat × Char

/-- The front end: the consonant register, the vowel register and the last action. -/
structure Fe where
  L : Nat
  S : Nat
  vsm : Nat × Nat × Nat
  lastAct : Nat
deriving DecidableEq, Repr

def Fe.start : Fe := ⟨0, 0, (1, 1, 1), 0⟩

def Fe.entry (f : Fe) (c : Char) : Nat × Nat × Bool × Bool := inact f.L f.S (mapchar c % 32)

def Fe.tok (f : Fe) (c : Char) : Nat := token f.L f.S (mapchar c % 32) (f.vsm.2.1, f.vsm.2.2, vmapchar c)

def Fe.next (f : Fe) (c : Char) : Fe :=
  let act := (f.entry c).2.1
  ⟨if act = 0 then 0 else if act = 1 then s2l.getD f.S 0 else f.L,
   if act = 0 then 0 else if act = 1 then mapchar c % 32 else f.S,
   (f.vsm.2.1, f.vsm.2.2, vmapchar c), act⟩

/-- The state of the front end after a text (last letter first). -/
def fe : List Char → Fe
  | [] => .start
  | c :: r => (fe r).next c

/-- The tokens of a text, both last first. -/
def toks : List Char → List Nat
  | [] => []
  | c :: r => (fe r).tok c :: toks r

def chars (r : List At) : List Char := r.map (·.2)

/-- The state of the automaton after a text: a node of the certificate, `none` once it is stuck. -/
def node (r : List Char) : Option Nat := run (morfCert.step 21) 0 (toks r)

def inhibited : List Char → Bool
  | [] => false
  | c :: r => inhibited r || ((fe r).entry c).2.2.2

/-- A letter that begins a piece. -/
def isStart (c : Char) (r : List Char) : Bool :=
  (((fe r).entry c).2.2.1 && !inhibited (c :: r)) || r.isEmpty

def starts : List At → List Nat
  | [] => []
  | a :: r => if isStart a.2 (chars r) then a.1 :: starts r else starts r

def isCstart (c : Char) (r : List Char) : Bool := (fe r).lastAct == 2 && ((fe r).entry c).2.1 == 1

def cstarts : List At → List Nat
  | [] => []
  | a :: r => if isCstart a.2 (chars r) then a.1 :: cstarts r else cstarts r

def upper (r : List Char) : Bool := r.any (fun c => decide (128 ≤ mapchar c))

def attrName (i : Nat) : Name := Bc.textOf atUnknown (verdictOf morfNfa.attr (morfCert.cls i).attr)
def exitName (i : Nat) : Name := Bc.textOf rUnknown (verdictOf morfNfa.exit (morfCert.cls i).exit)

def p1 (r : List At) : Option Nat := r.head?.map (·.1)
def p2 (r : List At) : Option Nat := r.tail.head?.map (·.1)

/-- The hyphen of the kinds given: the letter before the last one, at the last time that the state had
one of two attributes and another letter came. -/
def hyph (n n' : Name) : List At → Option Nat
  | [] => none
  | _ :: r => match node (chars r) with
    | none => hyph n n' r
    | some i => if attrName i = n ∨ attrName i = n' then p2 r else hyph n n' r

/-- The tables are made from `morf_nfa.in`, with any sorting routine and with or without `-ud`, with
the default results of `morf_nfa.in:928,1034`. -/
def Tables (M : Generated) : Prop :=
  ∃ q ud a start nodes, morfSource.compile = some (a, start) ∧ dfasyn q ud a start = some (.ok nodes) ∧
    M = generate rUnknown atUnknown a.nt nodes

set_option maxRecDepth 100000 in
theorem morf_small : morfCert.nodes.length ≤ 32768 ∧ morfCert.nodes.length * morfNfa.nt ≤ 65535 ∧
    morfCert.classes.all (fun k => Nat.beq k.exit 0 == false || Nat.beq k.attr 0) = true ∧
    morfCert.nodes.all (fun nd => decide (nd.cls < morfCert.classes.length)) = true := by
  decide +kernel

/-- `dfasyn` makes tables from `morf_nfa.in`: the file is compiled without a complaint, no state of the
automaton is ambiguous, and everything fits the types of the tables. -/
theorem tables_exist (q : Sorter) (ud : Bool) : ∃ a start nodes, morfSource.compile = some (a, start) ∧
    dfasyn q ud a start = some (.ok nodes) ∧ nodes.length ≤ 1719 := by
  obtain ⟨h1, h2, h3, h4⟩ := morf_small
  obtain ⟨nodes, h, hl, _⟩ := cert_tables morf_certOk (by decide) h1 h2 h3 h4 q ud
  have : morfCert.nodes.length = 1719 := by decide +kernel
  exact ⟨_, _, nodes, morf_compiles, h, by omega⟩

/-- Reading tokens with the tables. -/
theorem tables_read {M : Generated} (hM : Tables M) (w : List Nat) (hw : ∀ t ∈ w, t < 21) :
    match run (morfCert.step 21) 0 w with
    | none => tabRun M.tab w = some (.ok (-1))
    | some i => ∃ n : Nat, tabRun M.tab w = some (.ok n) ∧ Bc.entry M.exitval n = .ok (exitName i) ∧
        Bc.entry M.attrtab n = .ok (attrName i) := by
  obtain ⟨q, ud, a, start, nodes, h1, h2, h3⟩ := hM
  rw [morf_compiles] at h1
  simp only [Option.some.injEq, Prod.mk.injEq] at h1
  obtain ⟨ha, hs⟩ := h1
  subst ha hs
  obtain ⟨k1, k2, k3, k4⟩ := morf_small
  obtain ⟨nodes', h4, _, _, h5⟩ := cert_tables morf_certOk (by decide) k1 k2 k3 k4 q ud
  rw [h2] at h4
  simp only [Option.some.injEq, Except.ok.injEq] at h4
  subst h4
  have hread := h5 rUnknown atUnknown w (open_of_tokens (by decide) w hw)
  rw [show morfNfa.nt = 21 from rfl] at hread
  rw [h3, show morfNfa.nt = 21 from rfl]
  cases hrun : run (morfCert.step 21) 0 w with
  | none => rw [hrun] at hread; exact hread
  | some i =>
    rw [hrun] at hread
    obtain ⟨n, e1, e2, e3⟩ := hread
    exact ⟨n, e1, Bc.entry_of e2, Bc.entry_of e3⟩

theorem ite_le {p : Prop} [Decidable p] {a b : Nat × Nat × Bool × Bool} (ha : a.1 ≤ 15) (hb : b.1 ≤ 15) :
    (if p then a else b).1 ≤ 15 := by split <;> assumption

theorem inact_le (i s g : Nat) : (inact i s g).1 ≤ 15 := by
  unfold inact
  dsimp only
  repeat' apply ite_le
  all_goals first | decide | (dsimp only; split <;> decide)

theorem vcheck_le (i j k : Nat) : vcheck i j k ≤ 20 := by
  unfold vcheck
  repeat' split
  all_goals simp

theorem token_lt (L S G : Nat) (v : Nat × Nat × Nat) : token L S G v < 21 := by
  have h1 := inact_le L S G
  have h2 := vcheck_le v.1 v.2.1 v.2.2
  unfold token
  simp only
  repeat' split
  all_goals omega

theorem toks_lt (r : List Char) : ∀ t ∈ toks r, t < 21 := by
  induction r with
  | nil => simp [toks]
  | cons c r ih =>
    intro t ht
    rcases List.mem_cons.1 ht with rfl | ht
    · exact token_lt _ _ _ _
    · exact ih t ht

/-- The variables after a text. -/
structure VarsOk (M : Generated) (v : Vars) (r : List At) : Prop where
  L : v.L = (fe (chars r)).L
  S : v.S = (fe (chars r)).S
  vsm : v.vsm = (fe (chars r)).vsm
  lastAct : v.lastAct = (fe (chars r)).lastAct
  inhibited : v.inhibited = inhibited (chars r)
  initial : v.initial = (chars r).isEmpty
  upper : v.upper = upper (chars r)
  starts : v.starts = starts r
  cstarts : v.cstarts = cstarts r
  p1 : v.p1 = p1 r
  p2 : v.p2 = p2 r
  hyph3 : v.hyph3 = hyph atS33 atXS33 r
  hyph4 : v.hyph4 = hyph atS34 atXS34 r
  state : tabRun M.tab (toks (chars r)) = some (.ok v.state)

theorem varsOk_start (M : Generated) : VarsOk M .start [] := by
  constructor <;> rfl

/-- The letters of the rest of a word with their positions. -/
def lettersAt : Nat → List Char → List At
  | _, [] => []
  | pos, c :: rest => if c = ',' then lettersAt (pos + 1) rest else (pos, c) :: lettersAt (pos + 1) rest

theorem letterStep_ok {M : Generated} (hM : Tables M) {v : Vars} {r : List At} (h : VarsOk M v r)
    {i : Nat} (hi : node (chars r) = some i) (pos : Nat) (c : Char)
    (hc : (cstarts ((pos, c) :: r)).length ≤ 65536) :
    ∃ v', letterStep M v pos c = .ok v' ∧ VarsOk M v' ((pos, c) :: r) ∧
      (v'.state < 0 ↔ node (chars ((pos, c) :: r)) = none) := by
  have h1 := tables_read hM (toks (chars r)) (toks_lt _)
  have h2 := tables_read hM (toks (c :: chars r)) (toks_lt _)
  unfold node at hi
  rw [hi] at h1
  obtain ⟨n, e1, _, e3⟩ := h1
  have hst : v.state = n := by
    have := h.state
    rw [e1] at this
    simp only [Option.some.injEq, Except.ok.injEq] at this
    exact this.symm
  have htok : token v.L v.S (mapchar c % 32) (v.vsm.2.1, v.vsm.2.2, vmapchar c) = (fe (chars r)).tok c := by
    unfold Fe.tok; rw [h.L, h.S, h.vsm]
  have hent : inact v.L v.S (mapchar c % 32) = (fe (chars r)).entry c := by
    unfold Fe.entry; rw [h.L, h.S]
  have hstep : ∃ ns, nextState M.tab ((fe (chars r)).tok c) 3 v.state = some (.ok ns) ∧
      tabRun M.tab (toks (c :: chars r)) = some (.ok ns) ∧ (ns < 0 ↔ node (c :: chars r) = none) := by
    have htr : tabRun M.tab (toks (c :: chars r)) = nextState M.tab ((fe (chars r)).tok c) 3 v.state := by
      rw [toks, tabRun, e1, hst]
    unfold node
    cases hrun : run (morfCert.step 21) 0 (toks (c :: chars r)) with
    | none =>
      rw [hrun] at h2
      exact ⟨-1, by rw [← htr]; exact h2, h2, by simp⟩
    | some j =>
      rw [hrun] at h2
      obtain ⟨m, e4, _⟩ := h2
      exact ⟨m, by rw [← htr]; exact e4, e4, by simp⟩
  obtain ⟨ns, hn1, hn2, hn3⟩ := hstep
  have hne : ¬ (v.lastAct = 2 ∧ ((fe (chars r)).entry c).2.1 = 1 ∧ 65536 ≤ v.cstarts.length) := by
    rintro ⟨h1, h2, h'⟩
    rw [h.cstarts] at h'
    rw [h.lastAct] at h1
    have : cstarts ((pos, c) :: r) = pos :: cstarts r := by
      rw [cstarts, if_pos]
      simp [isCstart, h1, h2]
    rw [this, List.length_cons] at hc
    omega
  generalize hres : letterStep M v pos c = res
  unfold letterStep at hres
  simp only [hent, htok] at hres
  rw [if_neg hne, hst, e3] at hres
  simp only at hres
  rw [← hst, hn1] at hres
  simp only at hres
  subst hres
  refine ⟨_, rfl, ?_, ?_⟩
  · have hattr : ∀ a b, hyph a b ((pos, c) :: r) = if attrName i = a ∨ attrName i = b then p2 r else hyph a b r := by
      intro a b
      rw [hyph]
      unfold node
      rw [hi]
    refine ⟨?_, ?_, ?_, ?_, ?_, ?_, ?_, ?_, ?_, ?_, ?_, ?_, ?_, ?_⟩
    · simp only [chars, List.map_cons, fe, Fe.next, h.L, h.S]
    · simp only [chars, List.map_cons, fe, Fe.next, h.S]
    · simp only [chars, List.map_cons, fe, Fe.next, h.vsm]
    · rfl
    · simp only [h.inhibited]; rfl
    · rfl
    · simp only [h.upper, upper, chars, List.map_cons, List.any_cons]
      rw [Bool.or_comm]
    · simp only [starts, h.starts, h.initial, h.inhibited, isStart, Jbo.Morf.inhibited]; rfl
    · simp only [cstarts, h.cstarts, h.lastAct, isCstart, Bool.and_eq_true, beq_iff_eq]
    · rfl
    · simp only [h.p1]; rfl
    · simp only [hattr, h.hyph3, h.p2]
    · simp only [hattr, h.hyph4, h.p2]
    · exact hn2
  · exact hn3

theorem node_none_cons {r : List Char} (h : node r = none) (c : Char) : node (c :: r) = none := by
  unfold node at h ⊢
  rw [toks, run, h]; rfl

theorem node_none_append {r : List Char} (h : node r = none) (x : List Char) : node (x ++ r) = none := by
  induction x with
  | nil => exact h
  | cons c x ih => exact node_none_cons ih c

theorem cstarts_append_le (x r : List At) : (cstarts r).length ≤ (cstarts (x ++ r)).length := by
  induction x with
  | nil => exact Nat.le_refl _
  | cons a x ih =>
    rw [List.cons_append, cstarts]
    split
    · rw [List.length_cons]; omega
    · exact ih

/-- A text up to the letter at which the automaton gets stuck. -/
def reach : List At → List At
  | [] => []
  | a :: r => match node (chars r) with
    | none => reach r
    | some _ => a :: r

theorem reach_append {r : List At} {a : At} {j : Nat} (h : node (chars r) = some j)
    (hn : node (chars (a :: r)) = none) (x : List At) : reach (x ++ a :: r) = a :: r := by
  induction x with
  | nil => rw [List.nil_append, reach, h]
  | cons b x ih =>
    have : node (chars (x ++ a :: r)) = none := by
      have := node_none_append hn (chars x)
      rwa [show chars x ++ chars (a :: r) = chars (x ++ a :: r) from by simp [chars]] at this
    rw [List.cons_append, reach, this]
    exact ih

theorem loop_ok {M : Generated} (hM : Tables M) (rest : List Char) : ∀ (pos : Nat) (v : Vars) (r : List At),
    VarsOk M v r → (∃ i, node (chars r) = some i) →
    (cstarts ((lettersAt pos rest).reverse ++ r)).length ≤ 65536 →
    ∃ v', loop M rest pos v = .ok v' ∧
      match node (chars ((lettersAt pos rest).reverse ++ r)) with
      | none => v'.state < 0 ∧ ∃ r', r' ≠ [] ∧ r' <:+ (lettersAt pos rest).reverse ++ r ∧ v'.starts = starts r' ∧
          r' = reach ((lettersAt pos rest).reverse ++ r)
      | some _ => ¬ v'.state < 0 ∧ VarsOk M v' ((lettersAt pos rest).reverse ++ r) := by
  induction rest with
  | nil =>
    intro pos v r h ⟨i, hi⟩ _
    refine ⟨v, rfl, ?_⟩
    simp only [lettersAt, List.reverse_nil, List.nil_append]
    rw [hi]
    refine ⟨?_, h⟩
    have h1 := tables_read hM (toks (chars r)) (toks_lt _)
    unfold node at hi
    rw [hi] at h1
    obtain ⟨n, e1, _⟩ := h1
    rw [h.state] at e1
    simp only [Option.some.injEq, Except.ok.injEq] at e1
    omega
  | cons c rest ih =>
    intro pos v r h hi hlen
    rw [loop]
    by_cases hc : c = ','
    · rw [if_pos hc]
      rw [lettersAt, if_pos hc] at hlen ⊢
      exact ih (pos + 1) v r h hi hlen
    · rw [if_neg hc]
      rw [lettersAt, if_neg hc] at hlen ⊢
      rw [List.reverse_cons, List.append_assoc, List.singleton_append] at hlen ⊢
      obtain ⟨i, hi⟩ := hi
      obtain ⟨v', h1, h2, h3⟩ := letterStep_ok hM h hi pos c
        (Nat.le_trans (cstarts_append_le _ _) hlen)
      rw [h1]
      simp only
      cases hn : node (chars ((pos, c) :: r)) with
      | none =>
        rw [if_pos (h3.2 hn)]
        refine ⟨v', rfl, ?_⟩
        have : node (chars ((lettersAt (pos + 1) rest).reverse ++ (pos, c) :: r)) = none := by
          have := node_none_append hn (chars (lettersAt (pos + 1) rest).reverse)
          rwa [show chars (lettersAt (pos + 1) rest).reverse ++ chars ((pos, c) :: r) =
            chars ((lettersAt (pos + 1) rest).reverse ++ (pos, c) :: r) from by simp [chars]] at this
        rw [this]
        exact ⟨h3.2 hn, (pos, c) :: r, by simp, List.suffix_append _ _, h2.starts, (reach_append hi hn _).symm⟩
      | some j =>
        rw [if_neg (fun hlt => by rw [h3.1 hlt] at hn; cases hn)]
        exact ih (pos + 1) v' ((pos, c) :: r) h2 ⟨j, hn⟩ hlen

/-- The letters of a word with their positions, last first. -/
def backwards (s : List Char) : List At := (lettersAt 0 s).reverse

/-- What the scanner finds: the end of the function, for the final state of the automaton. -/
def result (B : Generated) (cultural : Bool) (s : List Char) (i : Nat) : Except Crash Result :=
  let r := backwards s
  let c := classify (exitName i)
  finish B cultural s
    ⟨0, 0, (0, 0, 0), 0, false, false, upper (chars r), starts r, cstarts r, none, none, hyph atS33 atXS33 r,
      hyph atS34 atXS34 r, 0⟩ c.1 c.2

theorem lettersAt_length (pos : Nat) (s : List Char) : (lettersAt pos s).length ≤ s.length := by
  induction s generalizing pos with
  | nil => simp [lettersAt]
  | cons c s ih =>
    rw [lettersAt]
    have := ih (pos + 1)
    split <;> simp only [List.length_cons] <;> omega

theorem cstarts_length (r : List At) : (cstarts r).length ≤ r.length := by
  induction r with
  | nil => simp [cstarts]
  | cons a r ih =>
    rw [cstarts]
    split <;> simp only [List.length_cons] <;> omega

/-- The scanner, without the loop.  (The buffers of all callers hold 65536 characters; a longer word
might overflow `cstart`.) -/
theorem morfScan_reach {M B : Generated} (hM : Tables M) (cultural : Bool) (s : List Char) (hs : s.length ≤ 65536) :
    match node (chars (backwards s)) with
    | none => ∃ r, r ≠ [] ∧ r <:+ backwards s ∧ morfScan M B cultural s = .ok ⟨.bogus, (starts r).reverse, .none⟩ ∧
        r = reach (backwards s)
    | some i => morfScan M B cultural s = result B cultural s i := by
  have hlen : (cstarts (backwards s)).length ≤ 65536 := by
    have h1 := cstarts_length (backwards s)
    have h2 := lettersAt_length 0 s
    unfold backwards at *
    rw [List.length_reverse] at h1
    omega
  have h := loop_ok hM s 0 .start [] (varsOk_start M) ⟨0, rfl⟩ (by simpa [backwards] using hlen)
  rw [List.append_nil] at h
  obtain ⟨v, h1, h2⟩ := h
  unfold morfScan
  rw [h1]
  simp only
  change match node (chars (backwards s)) with
      | none => v.state < 0 ∧ ∃ r', r' ≠ [] ∧ r' <:+ backwards s ∧ v.starts = starts r' ∧ r' = reach (backwards s)
      | some _ => ¬ v.state < 0 ∧ VarsOk M v (backwards s) at h2
  cases hn : node (chars (backwards s)) with
  | none =>
    rw [hn] at h2
    obtain ⟨h2, r, h3, h4, h5, h6⟩ := h2
    simp only
    rw [if_pos h2, h5]
    exact ⟨r, h3, h4, rfl, h6⟩
  | some i =>
    rw [hn] at h2
    obtain ⟨h3, h4⟩ := h2
    simp only
    rw [if_neg h3]
    have h5 := tables_read hM (toks (chars (backwards s))) (toks_lt _)
    unfold node at hn
    rw [hn] at h5
    obtain ⟨n, e1, e2, _⟩ := h5
    rw [h4.state] at e1
    simp only [Option.some.injEq, Except.ok.injEq] at e1
    rw [e1, e2]
    simp only [result, finish, h4.starts, h4.cstarts, h4.upper, h4.hyph3, h4.hyph4]

theorem morfScan_eq {M B : Generated} (hM : Tables M) (cultural : Bool) (s : List Char) (hs : s.length ≤ 65536) :
    match node (chars (backwards s)) with
    | none => ∃ r, r ≠ [] ∧ r <:+ backwards s ∧ morfScan M B cultural s = .ok ⟨.bogus, (starts r).reverse, .none⟩
    | some i => morfScan M B cultural s = result B cultural s i := by
  have h := morfScan_reach (B := B) hM cultural s hs
  revert h
  cases node (chars (backwards s)) with
  | none => exact fun ⟨r, h1, h2, h3, _⟩ => ⟨r, h1, h2, h3⟩
  | some i => exact id

end Jbo.Morf
