import Verif.MorfSplitCert
/-!
# Cutting words: the automaton

The automaton of the morphology together with its runs on the text since the last beginning of a word and
since the one before.
-/

namespace Jbo.Morf
open Jbo.Dfasyn

/-- The state.  `D` is the state of the automaton, `E1` and `E2` those after the text since the last and
the last but one beginning (0 for none, otherwise plus 1), `n` counts beginnings up to 2, `b1` and `b2`
say that the text before these beginnings is a series of cmavo or nothing, `u3`, `u4`, `v3`, `v4` that the
hyphens are known to be the same. -/
structure Split where
  D : Nat
  E1 : Nat
  E2 : Nat
  n : Nat
  inh : Bool
  b1 : Bool
  b2 : Bool
  u3 : Bool
  u4 : Bool
  v3 : Bool
  v4 : Bool
deriving DecidableEq, Repr

def Split.dec (e : Nat) : Split :=
  ⟨e % 2048, (e >>> 11) % 2048, (e >>> 22) % 2048, (e >>> 33) % 4, e.testBit 35, e.testBit 36, e.testBit 37,
   e.testBit 38, e.testBit 39, e.testBit 40, e.testBit 41⟩

def Split.same (x y : Split) : Bool :=
  Nat.beq x.D y.D && Nat.beq x.E1 y.E1 && Nat.beq x.E2 y.E2 && Nat.beq x.n y.n && boolSame x.inh y.inh &&
  boolSame x.b1 y.b1 && boolSame x.b2 y.b2 && boolSame x.u3 y.u3 && boolSame x.u4 y.u4 && boolSame x.v3 y.v3 &&
  boolSame x.v4 y.v4

theorem Split.same_eq (x y : Split) (h : x.same y = true) : x = y := by
  unfold Split.same at h
  simp only [Bool.and_eq_true] at h
  obtain ⟨⟨⟨⟨⟨⟨⟨⟨⟨⟨h1, h2⟩, h3⟩, h4⟩, h5⟩, h6⟩, h7⟩, h8⟩, h9⟩, h10⟩, h11⟩ := h
  cases x; cases y
  simp only [Split.mk.injEq]
  exact ⟨Nat.eq_of_beq_eq_true h1, Nat.eq_of_beq_eq_true h2, Nat.eq_of_beq_eq_true h3, Nat.eq_of_beq_eq_true h4,
    boolSame_eq h5, boolSame_eq h6, boolSame_eq h7, boolSame_eq h8, boolSame_eq h9, boolSame_eq h10, boolSame_eq h11⟩

/-- The attributes for the hyphen after three letters, and after four. -/
def is3 (a : Nat) : Bool := Nat.beq a 1 || Nat.beq a 3
def is4 (a : Nat) : Bool := Nat.beq a 2 || Nat.beq a 4

/-- Whether the hyphens are the same after one more letter. -/
def up (q x y : Bool) : Bool := (x && y) || (!x && !y && q)

noncomputable def Split.step (G X : BT Nat) (s : Split) (t : Nat) : Option Split :=
  match dst G s.D t with
  | 0 => none
  | d + 1 =>
    let inh := s.inh || isInh t
    let a := attrX X s.D
    let a1 := attrN X s.E1
    let a2 := attrN X s.E2
    if Nat.beq s.n 0 || (isSet t && !inh) then
      some ⟨d, dst G 0 t, nxt G s.E1 t, if Nat.beq s.n 0 then 1 else 2, inh, Nat.beq s.n 0 || Nat.beq (exitX X s.D) 22,
        s.b1, false, false, up s.u3 (is3 a) (is3 a1), up s.u4 (is4 a) (is4 a1)⟩
    else
      some ⟨d, nxt G s.E1 t, nxt G s.E2 t, s.n, inh, s.b1, s.b2, up s.u3 (is3 a) (is3 a1), up s.u4 (is4 a) (is4 a1),
        up s.v3 (is3 a) (is3 a2), up s.v4 (is4 a) (is4 a2)⟩

/-- Exit values that mean brivla, good or bad. -/
def isBrivla (k : Nat) : Bool := Nat.ble 1 k && Nat.ble k 20
/-- The last beginning does not count. -/
def isDec (k : Nat) : Bool := isIn [2, 4, 5, 6, 8, 9, 10, 13, 14, 17, 18, 20] k
/-- The two numbers with the same name as another one. -/
def canon (k : Nat) : Nat := if Nat.beq k 6 then 4 else if Nat.beq k 10 then 8 else k
def isLong (k : Nat) : Bool := isIn [12, 13, 15, 17] k
def isCvc (k : Nat) : Bool := isIn [14, 16, 18] k

/-- What is to be shown of every state. -/
noncomputable def Split.good (X : BT Nat) (s : Split) : Bool :=
  let k := exitX X s.D
  !isBrivla k ||
  (if isDec k then
    Nat.beq s.n 2 && s.b2 && Nat.beq (canon (exitN X s.E2)) (canon k) && (!isLong k || s.v4) && (!isCvc k || s.v3)
  else
    s.b1 && Nat.beq (canon (exitN X s.E1)) (canon k) && (!isLong k || s.u4) && (!isCvc k || s.u3))

set_option maxRecDepth 100000 in
theorem split_closed : withGraph (fun G X =>
    closedP Split.dec Split.same (Split.step G X) splitStates 13 42 13 21) = true := by decide +kernel

set_option maxRecDepth 100000 in
theorem split_good : withGraph (fun _ X => splitStates.all (fun e => (Split.dec e).good X)) = true := by
  decide +kernel

end Jbo.Morf
