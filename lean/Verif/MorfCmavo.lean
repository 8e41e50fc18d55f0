import Verif.MorfCmavoCert
import Verif.MorfCut
/-!
# Series of cmavo: the automaton and what its states mean
-/

namespace Jbo.Morf
open Jbo.Dfasyn

/-- The state.  `D` is the state of the automaton of the morphology, `la` the last action of the front
end.  `k` tells about the pieces: 3 if nothing is known; otherwise all pieces but the last are single
cmavo, and the last one is a piece on which the automaton is in state `E` (`k = 0`), a consonant
(`k = 1`) or a consonant and `y` (`k = 2`), the latter two begun after a `y`. -/
structure Series where
  D : Nat
  E : Nat
  k : Nat
  la : Nat
  inh : Bool
deriving DecidableEq, Repr

def Series.dec (e : Nat) : Series := ⟨e % 2048, (e >>> 11) % 2048, (e >>> 22) % 4, (e >>> 24) % 4, e.testBit 26⟩

def Series.same (x y : Series) : Bool :=
  Nat.beq x.D y.D && Nat.beq x.E y.E && Nat.beq x.k y.k && Nat.beq x.la y.la && boolSame x.inh y.inh

theorem Series.same_eq (x y : Series) (h : x.same y = true) : x = y := by
  unfold Series.same at h
  simp only [Bool.and_eq_true] at h
  obtain ⟨⟨⟨⟨h1, h2⟩, h3⟩, h4⟩, h5⟩ := h
  cases x; cases y
  simp only [Series.mk.injEq]
  refine ⟨Nat.eq_of_beq_eq_true h1, Nat.eq_of_beq_eq_true h2, Nat.eq_of_beq_eq_true h3, Nat.eq_of_beq_eq_true h4,
    boolSame_eq h5⟩

/-- The action that goes with a token. -/
def actOf (t : Nat) : Nat := if t == 3 || t == 19 || t == 20 then 2 else if Nat.ble 4 t && Nat.ble t 15 then 1 else 0

/-- The next piece. -/
def after (k E : Nat) : Nat × Nat := match k, E with
  | 0, 0 => (3, 0)
  | 0, E + 1 => (0, E + 1)
  | k + 1, _ => (k + 1, 0)

/-- What happens to `k` and `E`. -/
noncomputable def Series.piece (G X : BT Nat) (s : Series) (t : Nat) (inh : Bool) : Nat × Nat :=
  let first := Nat.beq s.E 0 && Nat.beq s.k 0
  let c := Nat.beq s.la 2 && Nat.beq (actOf t) 1
  if first || (isSet t && !inh) then
    if Nat.beq s.k 0 && !c && (first || Nat.beq (exitN X s.E) 22) then after 0 (dst G 0 t) else (3, 0)
  else if c then
    if (Nat.beq s.k 0 && Nat.beq (exitN X s.E) 23) || Nat.beq s.k 2 then (1, 0) else (3, 0)
  else
    if Nat.beq s.k 0 then after 0 (nxt G s.E t)
    else if Nat.beq s.k 1 && Nat.beq t 3 then (2, 0)
    else (3, 0)

noncomputable def Series.step (G X : BT Nat) (s : Series) (t : Nat) : Option Series :=
  match dst G s.D t with
  | 0 => none
  | d + 1 =>
    let inh := s.inh || isInh t
    let p := s.piece G X t inh
    some ⟨d, p.2, p.1, actOf t, inh⟩

/-- What is to be shown of every state. -/
noncomputable def Series.good (X : BT Nat) (s : Series) : Bool :=
  let k := exitX X s.D
  (!Nat.beq k 22 || (Nat.beq s.k 0 && Nat.beq (exitN X s.E) 22)) &&
  (!Nat.beq k 23 || Nat.beq s.k 2 || (Nat.beq s.k 0 && Nat.beq (exitN X s.E) 23))

set_option maxRecDepth 100000 in
theorem series_closed : withGraph (fun G X =>
    closedP Series.dec Series.same (Series.step G X) cmavoStates 12 27 12 21) = true := by decide +kernel

set_option maxRecDepth 100000 in
theorem series_good : withGraph (fun _ X => cmavoStates.all (fun e => (Series.dec e).good X)) = true := by
  decide +kernel

set_option maxRecDepth 100000 in
/-- Nothing can be read after an unknown token. -/
theorem no_unk : (morfCert.nodes.all (fun nd => Nat.beq (destOf 11 nd.row 0) 0)) = true := by
  decide +kernel

end Jbo.Morf
