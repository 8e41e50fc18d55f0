import Verif.MorfNameCert
import Verif.MorfCmavoInv
import Verif.MorfSpec
/-!
# Names: the shape of every text that the scanner takes for a name
-/

namespace Jbo.Morf
open Jbo.Dfasyn

/-- The state.  `b` tells about the text: 0 nothing read, 1 ends in a consonant, 2 in a vowel, 3 in a lone
`y`, 4 in an apostrophe, and could begin a name for the test of `bccheck.c`; 5 that it has a lone `y`
with another `y` after it; 6 nothing. -/
structure NameSt where
  D : Nat
  b : Nat
deriving DecidableEq, Repr

def NameSt.dec (e : Nat) : NameSt := ⟨e % 2048, (e >>> 11) % 8⟩

def NameSt.same (x y : NameSt) : Bool := Nat.beq x.D y.D && Nat.beq x.b y.b

theorem NameSt.same_eq (x y : NameSt) (h : x.same y = true) : x = y := by
  unfold NameSt.same at h
  rw [Bool.and_eq_true] at h
  cases x; cases y
  simp only [NameSt.mk.injEq]
  exact ⟨Nat.eq_of_beq_eq_true h.1, Nat.eq_of_beq_eq_true h.2⟩

/-- 0 unknown, 1 vowel, 2 `y`, 3 apostrophe, 4 consonant. -/
def group (t : Nat) : Nat :=
  if isIn [1, 16, 17, 18] t then 1 else if isIn [3, 19, 20] t then 2 else if Nat.beq t 2 then 3
  else if Nat.ble 4 t && Nat.ble t 15 then 4 else 0

def shapeNext (b g : Nat) : Nat :=
  if Nat.ble 5 b then b
  else if Nat.beq g 1 then (if Nat.beq b 3 then 6 else 2)
  else if Nat.beq g 2 then (if Nat.ble b 1 then 3 else if Nat.beq b 3 then 5 else 2)
  else if Nat.beq g 3 then (if Nat.beq b 2 || Nat.beq b 3 then 4 else 6)
  else if Nat.beq g 4 then (if Nat.beq b 4 then 6 else 1)
  else 6

noncomputable def NameSt.step (G : BT Nat) (s : NameSt) (t : Nat) : Option NameSt :=
  match dst G s.D t with
  | 0 => none
  | d + 1 => some ⟨d, shapeNext s.b (group t)⟩

set_option maxRecDepth 100000 in
theorem name_closed : withGraph (fun G _ =>
    closedP NameSt.dec NameSt.same (NameSt.step G) nameStates 11 14 11 21) = true := by decide +kernel

set_option maxRecDepth 100000 in
theorem name_good : withGraph (fun _ X => nameStates.all (fun e =>
    !Nat.beq (exitX X (NameSt.dec e).D) 21 || Nat.beq (NameSt.dec e).b 1 || Nat.beq (NameSt.dec e).b 5)) = true := by
  decide +kernel

/-! ## Letters -/

/-- What the two maps of characters have in common. -/
def bothMaps (c : Char) : Bool :=
  (!isIn consSet (mapchar c % 32) || (Nat.ble 6 (Bc.mapchar c) && Nat.ble (Bc.mapchar c) 8)) &&
  (!isIn vowelSet (mapchar c % 32) || Nat.ble (Bc.mapchar c) 4) &&
  (!(mapchar c % 32 == 25) || Nat.beq (Bc.mapchar c) 5) &&
  (!(mapchar c % 32 == 30) || Nat.beq (Bc.mapchar c) 9)

theorem bothMaps_small : ∀ n < 128, bothMaps (Char.ofNat n) = true := by decide +kernel

theorem bothMaps_all (c : Char) : bothMaps c = true := by
  rcases Nat.lt_or_ge c.toNat 128 with h | h
  · have := bothMaps_small c.toNat h
    rwa [Char.ofNat_toNat] at this
  · unfold bothMaps
    rw [mapchar_big h]
    rfl

/-- The letter for a token that can be read. -/
theorem tok_letter {f : Fe} (hf : FeOk f) (c : Char) (ht : f.tok c ≠ 0) :
    (group (f.tok c) = 1 ∧ Bc.mapchar c < 5) ∨ (group (f.tok c) = 2 ∧ Bc.mapchar c = 5) ∨
    (group (f.tok c) = 3 ∧ Bc.mapchar c = 9) ∨ (group (f.tok c) = 4 ∧ 6 ≤ Bc.mapchar c ∧ Bc.mapchar c ≤ 8) := by
  have hb := bothMaps_all c
  unfold bothMaps at hb
  simp only [Bool.and_eq_true, Bool.or_eq_true, Bool.not_eq_true', beq_eq_false_iff_ne] at hb
  obtain ⟨⟨⟨b1, b2⟩, b3⟩, b4⟩ := hb
  have he := entryOk f.L f.S (mapchar c % 32) (Nat.mod_lt _ (by decide))
  have hle := inact_le f.L f.S (mapchar c % 32)
  have ht' : f.tok c = token f.L f.S (mapchar c % 32) (f.vsm.2.1, f.vsm.2.2, vmapchar c) := rfl
  unfold token at ht'
  generalize inact f.L f.S (mapchar c % 32) = e at he hle ht'
  dsimp only at ht'
  by_cases h1 : e.1 = 1
  · rw [if_pos h1] at ht'
    have hvw := he.vowel h1
    have := vcheck_vowel f.vsm.2.1 f.vsm.2.2 _ ((charOkP c).vowel hvw)
    rw [← ht'] at this
    left
    constructor
    · rcases this with h | h | h | h | h
      · exact absurd h ht
      all_goals rw [h]; rfl
    · rcases b2 with b2 | b2
      · rw [hvw] at b2; cases b2
      · have := Nat.le_of_ble_eq_true b2; omega
  · rw [if_neg h1] at ht'
    by_cases h3 : e.1 = 3
    · rw [if_pos h3] at ht'
      have hy := he.y h3
      rw [(charOkP c).y hy] at ht'
      have := vcheck_y f.vsm.2.1 f.vsm.2.2
      rw [← ht'] at this
      right; left
      constructor
      · rcases this with h | h | h | h
        · exact absurd h ht
        all_goals rw [h]; rfl
      · rcases b3 with b3 | b3
        · exact absurd hy b3
        · exact Nat.eq_of_beq_eq_true b3
    · rw [if_neg h3, if_neg (fun h => hf.near h.2)] at ht'
      rw [ht'] at ht ⊢
      by_cases h2 : e.1 = 2
      · right; right; left
        refine ⟨by rw [h2]; rfl, ?_⟩
        rcases b4 with b4 | b4
        · exact absurd (he.apos h2) b4
        · exact Nat.eq_of_beq_eq_true b4
      · right; right; right
        have h4 : 4 ≤ e.1 := by omega
        refine ⟨?_, ?_⟩
        · have : ∀ t, 4 ≤ t → t ≤ 15 → group t = 4 := by
            intro t h1 h2
            have : ∀ t < 16, 4 ≤ t → group t = 4 := by decide
            exact this t (by omega) h1
          exact this _ h4 hle
        · rcases b1 with b1 | b1
          · rw [he.cons h4] at b1; cases b1
          · exact ⟨Nat.le_of_ble_eq_true b1.1, Nat.le_of_ble_eq_true b1.2⟩

/-! ## Shapes -/

/-- The text as it is written, in small letters. -/
def low (r : List Char) : List Char := (r.map Char.toLower).reverse

theorem low_cons (c : Char) (r : List Char) : low (c :: r) = low r ++ [c.toLower] := by simp [low]

def baseOf : Nat → Bc.Base
  | 0 => .start
  | 1 => .c
  | 2 => .v
  | 3 => .y
  | _ => .a

/-- What `b` says about a text. -/
def Shows (b : Nat) (s : List Char) : Prop :=
  (b ≤ 4 → Bc.Shaped s ∧ Bc.BaseOk (baseOf b) s) ∧ (b = 5 → DoubleY s)

theorem shows_next {b : Nat} {s : List Char} (h : Shows b s) (c : Char) (hc : c ≠ ',') {g : Nat}
    (hg : (g = 1 ∧ Bc.mapchar c < 5) ∨ (g = 2 ∧ Bc.mapchar c = 5) ∨ (g = 3 ∧ Bc.mapchar c = 9) ∨
      (g = 4 ∧ 6 ≤ Bc.mapchar c ∧ Bc.mapchar c ≤ 8)) : Shows (shapeNext b g) (s ++ [c.toLower]) := by
  by_cases hb : 5 ≤ b
  · have : shapeNext b g = b := by unfold shapeNext; rw [if_pos (Nat.ble_eq_true_of_le hb)]
    rw [this]
    refine ⟨fun h' => by omega, fun h' => ?_⟩
    obtain ⟨u, v, h1, h2⟩ := h.2 h'
    exact ⟨u, v ++ [c.toLower], by rw [h1]; simp, h2⟩
  · obtain ⟨h1, h2⟩ := h.1 (by omega)
    have hn := Bc.nextBase_spec h2 h1 c hc
    have six : Shows 6 (s ++ [c.toLower]) := ⟨fun h => by omega, fun h => by omega⟩
    have good : ∀ b', b' ≤ 4 → Bc.nextBase (baseOf b) (Bc.mapchar c) = some (baseOf b') → Shows b' (s ++ [c.toLower]) := by
      intro b' hb' he
      rw [he] at hn
      exact ⟨fun _ => hn, fun h => by omega⟩
    have hb5 : b = 0 ∨ b = 1 ∨ b = 2 ∨ b = 3 ∨ b = 4 := by omega
    rcases hg with ⟨rfl, hm⟩ | ⟨rfl, hm⟩ | ⟨rfl, hm⟩ | ⟨rfl, hm1, hm2⟩
    · rcases hb5 with rfl | rfl | rfl | rfl | rfl
      · exact good 2 (by decide) (by simp [Bc.nextBase, baseOf, hm])
      · exact good 2 (by decide) (by simp [Bc.nextBase, baseOf, hm])
      · exact good 2 (by decide) (by simp [Bc.nextBase, baseOf]; omega)
      · exact six
      · exact good 2 (by decide) (by simp [Bc.nextBase, baseOf]; omega)
    · rcases hb5 with rfl | rfl | rfl | rfl | rfl
      · exact good 3 (by decide) (by simp [Bc.nextBase, baseOf, hm])
      · exact good 3 (by decide) (by simp [Bc.nextBase, baseOf, hm])
      · exact good 2 (by decide) (by simp [Bc.nextBase, baseOf, hm])
      · refine ⟨fun h => absurd h (by decide), fun _ => ?_⟩
        obtain ⟨u, h3, h4⟩ := h2
        exact ⟨u, [], by rw [h3, (Bc.okc c).y.2 hm]; simp, h4⟩
      · exact good 2 (by decide) (by simp [Bc.nextBase, baseOf, hm])
    · rcases hb5 with rfl | rfl | rfl | rfl | rfl
      · exact six
      · exact six
      · exact good 4 (by decide) (by simp [Bc.nextBase, baseOf, hm])
      · exact good 4 (by decide) (by simp [Bc.nextBase, baseOf, hm])
      · exact six
    · have h5 : ¬ Bc.mapchar c < 5 := by omega
      have h6 : ¬ Bc.mapchar c < 6 := by omega
      have h7 : ¬ Bc.mapchar c = 5 := by omega
      have h8 : Bc.mapchar c < 9 := by omega
      rcases hb5 with rfl | rfl | rfl | rfl | rfl
      · exact good 1 (by decide) (by simp [Bc.nextBase, baseOf, h5, h7, h8])
      · exact good 1 (by decide) (by simp [Bc.nextBase, baseOf, h5, h7, h8])
      · exact good 1 (by decide) (by simp [Bc.nextBase, baseOf, h6, h8])
      · exact good 1 (by decide) (by simp [Bc.nextBase, baseOf, h6, h8])
      · exact six

theorem shows_all (r : List Char) (hr : NoComma r) (hn : node r ≠ none) :
    ∃ e ∈ nameStates, node r = some (NameSt.dec e).D ∧ Shows (NameSt.dec e).b (low r) := by
  induction r with
  | nil =>
    refine ⟨nameStates.headD 0, by decide, ?_⟩
    have : NameSt.dec (nameStates.headD 0) = ⟨0, 0⟩ := by decide
    rw [this]
    exact ⟨rfl, ⟨fun _ => ⟨Bc.knows_start.shaped, rfl⟩, by simp⟩⟩
  | cons c r ih =>
    have hr' : NoComma r := fun c hc => hr c (List.mem_cons_of_mem _ hc)
    have hn' : node r ≠ none := fun h => hn (node_none_cons h c)
    obtain ⟨e, he, hD, hS⟩ := ih hr' hn'
    have hN := nodeN_cons c r
    have hD' : nodeN r = (NameSt.dec e).D + 1 := by unfold nodeN; rw [hD]
    rw [hD', nxt] at hN
    cases hd : dst graphG (NameSt.dec e).D ((fe r).tok c) with
    | zero =>
      exfalso
      rw [hd] at hN
      apply hn
      unfold nodeN at hN
      cases hx : node (c :: r) with
      | none => rfl
      | some i => rw [hx] at hN; simp at hN
    | succ d =>
      have htok : (fe r).tok c ≠ 0 := by
        intro h0
        rw [h0, unk_dead] at hd; cases hd
      have hnode : node (c :: r) = some d := by
        rw [hd] at hN
        unfold nodeN at hN
        cases hx : node (c :: r) with
        | none => rw [hx] at hN; simp at hN
        | some i =>
          rw [hx] at hN
          have : i = d := by simpa using hN
          rw [this]
      have hstep : (NameSt.dec e).step graphG ((fe r).tok c) =
          some ⟨d, shapeNext (NameSt.dec e).b (group ((fe r).tok c))⟩ := by
        unfold NameSt.step; rw [hd]
      have hc := name_closed
      rw [withGraph_eq] at hc
      obtain ⟨e', h3, h4⟩ := closedP_step NameSt.same_eq (by decide) hc he (toks_lt (c :: r) _ (by simp [toks])) hstep
      refine ⟨e', h3, ?_, ?_⟩
      · rw [h4]; exact hnode
      · rw [h4, low_cons]
        exact shows_next hS c (hr c List.mem_cons_self) (tok_letter (feOk hr') c htok)

/-- A name for the scanner has the shape of a name for `is_bad_cmene`, or a double `y`. -/
theorem name_shape {r : List Char} (hr : NoComma r) {i : Nat} (hi : node r = some i) (hk : (morfCert.cls i).exit = 21) :
    (Bc.Shaped (low r) ∧ Bc.EndsInConsonant (low r)) ∨ DoubleY (low r) := by
  obtain ⟨e, he, hD, hS⟩ := shows_all r hr (by rw [hi]; simp)
  have hg := name_good
  rw [withGraph_eq] at hg
  have hg := List.all_eq_true.1 hg e he
  rw [hi] at hD
  rw [← Option.some.inj hD, exitX_eq, hk] at hg
  simp only [Nat.beq_refl, Bool.not_true, Bool.false_or, Bool.or_eq_true, beq_iff] at hg
  rcases hg with hg | hg
  · left
    obtain ⟨h1, h2⟩ := hS.1 (by omega)
    rw [hg] at h2
    exact ⟨h1, h2⟩
  · exact Or.inr (hS.2 hg)

end Jbo.Morf
