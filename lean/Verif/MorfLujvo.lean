import Verif.MorfLujvoCert
import Verif.MorfCmavo
import Verif.MorfSplit
/-!
# Lujvo and gismu: the automaton of the scanner beside the grammar
-/

namespace Jbo.Morf
open Jbo.Dfasyn Jbo.Lujvo.Nfa

/-! ## The grammar on tokens -/

/-- The tests, on tokens. -/
def onTok : Test → Nat → Bool
  | .cons, t => Nat.ble 4 t && Nat.ble t 15
  | .med, t => Nat.ble 7 t && Nat.ble t 15 && !Nat.beq t 12
  | .nomed, t => Nat.beq t 12
  | .ini, t => Nat.beq t 8 || Nat.beq t 9 || Nat.beq t 15
  | .iniNB, t => Nat.beq t 8 || Nat.beq t 9
  | .bt, t => Nat.beq t 15
  | .v, t => Nat.beq t 1
  | .dip, t => Nat.beq t 16
  | .apos, t => Nat.beq t 2
  | .y, t => Nat.beq t 3
  | .r, t => Nat.beq t 4
  | .n, t => Nat.beq t 5
  | .nr, t => Nat.beq t 7

/-- The positions after one more token. -/
def after1 (Q : List Item) (t : Nat) : List Item :=
  Q.flatMap (fun q => (rules q).flatMap (fun r => if onTok r.1 t then r.2 else []))

def VSet.norm (v : VSet) : VSet :=
  ⟨v.A, v.B, if v.B.isEmpty then [] else v.M, if v.B2.isEmpty || v.M2.isEmpty then [] else v.B2,
    if v.B2.isEmpty || v.M2.isEmpty then [] else v.M2, v.G⟩

def VSet.next (v : VSet) (t : Nat) : VSet :=
  (VSet.mk (after1 v.A t) (after1 v.B t) (after1 v.M t) (after1 v.B2 t) (after1 v.M2 t) (after1 v.G t)).norm

/-- The same positions. -/
def sameSet (a b : List Item) : Bool := a.all (b.contains ·) && b.all (a.contains ·)

def VSet.same (v w : VSet) : Bool :=
  sameSet v.A w.A && sameSet v.B w.B && sameSet v.M w.M && sameSet v.B2 w.B2 && sameSet v.M2 w.M2 && sameSet v.G w.G

def vset (i : Nat) : VSet := vsets.getD i ⟨[], [], [], [], [], []⟩

def vnext (i t : Nat) : Nat := (vnextTab >>> (7 * (21 * i + t))) % 128

def vnextOk (i : Nat) (v : VSet) : Bool :=
  (List.range 21).all (fun t => Nat.ble (vnext i t) 90 && (v.next t).same (vset (vnext i t)))

set_option maxRecDepth 100000 in
theorem vnext_check : ((List.range 91).all (fun i => vnextOk i (vset i))) = true := by decide +kernel

/-- Whether a word may end here. -/
def ends (Q : List Item) : Bool := Q.any final
def VSet.luj (v : VSet) : Bool := ends v.A || (ends v.B && !ends v.M) || (ends v.B2 && ends v.M2)
def VSet.gis (v : VSet) : Bool := ends v.G

/-! ## Both together -/

/-- The state.  `D` is the state of the automaton (0 for none, otherwise plus 1), `n` counts beginnings
up to 3, `v` is the number of a set of positions; `L` and `K` tell about the last letters, as long as
`v` is not 0. -/
structure Luj where
  D : Nat
  n : Nat
  inh : Bool
  L : Nat
  K : Nat
  v : Nat
deriving DecidableEq, Repr

def Luj.dec (e : Nat) : Luj :=
  ⟨e % 2048, (e >>> 11) % 4, e.testBit 13, (e >>> 14) % 4, (e >>> 16) % 8, (e >>> 19) % 128⟩

def Luj.same (x y : Luj) : Bool :=
  Nat.beq x.D y.D && Nat.beq x.n y.n && boolSame x.inh y.inh && Nat.beq x.L y.L && Nat.beq x.K y.K && Nat.beq x.v y.v

theorem Luj.same_eq (x y : Luj) (h : x.same y = true) : x = y := by
  unfold Luj.same at h
  simp only [Bool.and_eq_true] at h
  obtain ⟨⟨⟨⟨⟨h1, h2⟩, h3⟩, h4⟩, h5⟩, h6⟩ := h
  cases x; cases y
  simp only [Luj.mk.injEq]
  exact ⟨Nat.eq_of_beq_eq_true h1, Nat.eq_of_beq_eq_true h2, boolSame_eq h3, Nat.eq_of_beq_eq_true h4,
    Nat.eq_of_beq_eq_true h5, Nat.eq_of_beq_eq_true h6⟩

/-- The token can come from a letter of kind `k` (1 for n, 2 for r, 3 for d and t, 0 for others). -/
def feas (L K k t : Nat) : Bool := feasTab.testBit (21 * ((L * 5 + K) * 4 + k) + t)

/-- The number of beginnings. -/
def count (n t : Nat) (inh : Bool) : Nat :=
  if Nat.beq n 0 || (isSet t && !inh) then (if Nat.ble 2 n then 3 else n + 1) else n

noncomputable def Luj.next (G : BT Nat) (s : Luj) (k t : Nat) : Option Luj :=
  let v := vnext s.v t
  let d := nxt G s.D t
  let inh := s.inh || isInh t
  let n := count s.n t inh
  if Nat.beq v 0 then
    if Nat.beq d 0 || Nat.beq n 3 then none else some ⟨d, n, inh, 0, 0, 0⟩
  else
    let a := actOf t
    some ⟨d, n, inh, if Nat.beq a 0 then 0 else if Nat.beq a 1 then (if Nat.ble 3 s.K then 3 else s.K) else s.L,
      if Nat.beq a 0 then 0 else if Nat.beq a 1 then (if Nat.beq k 0 then 4 else k) else s.K, v⟩

noncomputable def Luj.step (G : BT Nat) (s : Luj) (sym : Nat) : Option Luj :=
  let t := sym % 21
  let k := sym / 21
  if Nat.beq s.v 0 then (if Nat.beq k 0 then s.next G 0 t else none)
  else if feas s.L s.K k t then s.next G k t
  else none

/-- The exit value is the one for a lujvo or a gismu, and the count of beginnings makes it one word. -/
def isOne (a b b' k n : Nat) : Bool := (Nat.beq k a && Nat.beq n 1) || ((Nat.beq k b || Nat.beq k b') && Nat.beq n 2)

/-- What is to be shown of every state. -/
noncomputable def Luj.good (X : BT Nat) (s : Luj) : Bool :=
  let k := exitN X s.D
  boolSame (isOne 3 4 6 k s.n) (vset s.v).luj && boolSame (isOne 1 2 2 k s.n) (vset s.v).gis

set_option maxRecDepth 100000 in
theorem luj_closed : withGraph (fun G _ =>
    closedP Luj.dec Luj.same (Luj.step G) lujStates 12 26 12 84) = true := by decide +kernel

set_option maxRecDepth 100000 in
theorem luj_good : withGraph (fun _ X => lujStates.all (fun e => (Luj.dec e).good X)) = true := by
  decide +kernel

end Jbo.Morf
