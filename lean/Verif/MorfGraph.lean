import Verif.MorfAbs
import Verif.DfaProd
/-!
# The automaton of the morphology as trees, for checks by the kernel
-/

namespace Jbo.Morf
open Jbo.Dfasyn

/-- The verdicts of a state in one number. -/
def verdicts (nd : CNode) : Nat :=
  (morfCert.classes.getD nd.cls ⟨0, 0, 0, 0⟩).exit + 32 * (morfCert.classes.getD nd.cls ⟨0, 0, 0, 0⟩).attr

/-- The rows and the verdicts as trees. -/
def graphG : BT Nat := BT.ofL 11 (morfCert.nodes.map (·.row))
def graphX : BT Nat := BT.ofL 11 (morfCert.nodes.map verdicts)

/-- To compute with the trees. -/
noncomputable def withGraph (k : BT Nat → BT Nat → Bool) : Bool :=
  BT.of 11 morfCert.nodes (fun N => N.mapF (·.row) (fun G => N.mapF verdicts (fun X => k G X)))

theorem withGraph_eq (k : BT Nat → BT Nat → Bool) : withGraph k = k graphG graphX := by
  unfold withGraph graphG graphX
  rw [BT.of_eq, BT.mapF_eq, BT.mapF_eq, BT.map_ofL, BT.map_ofL]

/-- The destination from a state; 0 for none, otherwise the state plus 1. -/
noncomputable def dst (G : BT Nat) (i t : Nat) : Nat := destOf 11 (G.getD i 0) t

/-- The destination from a state or none. -/
noncomputable def nxt (G : BT Nat) (e t : Nat) : Nat := match e with
  | 0 => 0
  | i + 1 => dst G i t

/-- The number of the exit value and of the attribute of a state; 0 for none. -/
noncomputable def exitX (X : BT Nat) (i : Nat) : Nat := X.getD i 0 % 32
noncomputable def attrX (X : BT Nat) (i : Nat) : Nat := X.getD i 0 / 32

/-- The same for a state or none. -/
noncomputable def exitN (X : BT Nat) (e : Nat) : Nat := match e with
  | 0 => 0
  | i + 1 => exitX X i
noncomputable def attrN (X : BT Nat) (e : Nat) : Nat := match e with
  | 0 => 0
  | i + 1 => attrX X i

/-- The state after a text, with 0 for none. -/
def nodeN (r : List Char) : Nat := match node r with
  | none => 0
  | some i => i + 1

theorem nodes_length : morfCert.nodes.length ≤ 2 ^ 11 := by decide +kernel

theorem graphG_getD (i : Nat) : graphG.getD i 0 = (morfCert.node i).row := by
  unfold graphG Cert.node
  rw [BT.getD_ofL _ _ (by rw [List.length_map]; exact nodes_length)]
  rw [List.getD_eq_getElem?_getD, List.getD_eq_getElem?_getD, List.getElem?_map]
  cases morfCert.nodes[i]? <;> rfl

theorem class0 : morfCert.classes.getD 0 ⟨0, 0, 0, 0⟩ = ⟨0, 0, 0, 0⟩ := rfl

theorem graphX_getD (i : Nat) : graphX.getD i 0 = (morfCert.cls i).exit + 32 * (morfCert.cls i).attr := by
  unfold graphX Cert.cls Cert.node
  rw [BT.getD_ofL _ _ (by rw [List.length_map]; exact nodes_length)]
  rw [List.getD_eq_getElem?_getD, List.getD_eq_getElem?_getD (l := morfCert.nodes), List.getElem?_map]
  cases morfCert.nodes[i]? with
  | some nd => rfl
  | none =>
    simp only [Option.map_none, Option.getD_none]
    rw [class0]; rfl

theorem classes_exit : morfCert.classes.all (fun k => Nat.ble k.exit 31) = true := by decide +kernel

theorem exit_lt (i : Nat) : (morfCert.cls i).exit < 32 := by
  unfold Cert.cls
  rw [List.getD_eq_getElem?_getD]
  cases hk : morfCert.classes[(morfCert.node i).cls]? with
  | none => simp
  | some k =>
    have := List.all_eq_true.1 classes_exit k (List.mem_of_getElem? hk)
    have := Nat.le_of_ble_eq_true this
    simp only [Option.getD_some]; omega

theorem exitX_eq (i : Nat) : exitX graphX i = (morfCert.cls i).exit := by
  have := exit_lt i
  rw [exitX, graphX_getD]; omega

theorem attrX_eq (i : Nat) : attrX graphX i = (morfCert.cls i).attr := by
  have := exit_lt i
  rw [attrX, graphX_getD]; omega

theorem step_eq {i t : Nat} (ht : t < 21) : morfCert.step 21 i t = match dst graphG i t with
    | 0 => none
    | d + 1 => some d := by
  unfold Cert.step dst
  rw [if_pos ht, graphG_getD]
  rfl

theorem nodeN_nil : nodeN [] = 1 := rfl

theorem nodeN_cons (c : Char) (r : List Char) : nodeN (c :: r) = nxt graphG (nodeN r) ((fe r).tok c) := by
  have ht : (fe r).tok c < 21 := toks_lt (c :: r) _ (by simp [toks])
  unfold nodeN node
  rw [toks, run]
  cases h : run (morfCert.step 21) 0 (toks r) with
  | none => rfl
  | some i =>
    simp only [Option.bind_some]
    rw [step_eq ht, nxt]
    cases dst graphG i ((fe r).tok c) <;> rfl

/-! ## The exit values by number -/

/-- What the scanner makes of the exit value with a number. -/
def kind (k : Nat) : Word × Bool := classify (Bc.textOf rUnknown (verdictOf morfNfa.exit k))

theorem classify_exitName (i : Nat) : classify (exitName i) = kind (morfCert.cls i).exit := rfl

end Jbo.Morf
