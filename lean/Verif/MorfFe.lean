import Verif.MorfGraph
import Verif.BcThm
/-!
# The front end at the beginning of a word

Where the scanner puts the beginning of a word, its front end forgets everything before.
-/

namespace Jbo.Morf
open Jbo.Dfasyn

theorem ite_any {α : Type} {P : α → Prop} {c : Prop} [Decidable c] {x y : α} (h1 : c → P x) (h2 : ¬ c → P y) :
    P (if c then x else y) := by
  split
  · exact h1 ‹_›
  · exact h2 ‹_›

/-- What every entry of the table satisfies. -/
structure EntryOk (i s g : Nat) (e : Nat × Nat × Bool × Bool) : Prop where
  set : e.2.2.1 = (e.1 == 4 || e.1 == 5 || e.1 == 6)
  inh : e.2.2.2 = (Nat.ble 7 e.1 && Nat.ble e.1 15)
  act1 : e.2.1 = 1 ↔ 4 ≤ e.1
  act2 : e.2.1 = 2 ↔ e.1 = 3
  act0 : e.1 = 1 → e.2.1 = 0
  act2' : e.1 = 2 → e.2.1 = 0
  fresh : e.2.2.1 = true → i = 0 ∧ isIn vowelOrNone s = true
  cons : 4 ≤ e.1 → isIn consSet g = true
  vowel : e.1 = 1 → isIn vowelSet g = true
  apos : e.1 = 2 → g = 30
  y : e.1 = 3 → g = 25

theorem inSub {a b : List Nat} (h : a.all (isIn b) = true) {g : Nat} (hg : isIn a g = true) : isIn b g = true := by
  unfold isIn at hg
  obtain ⟨x, hx, he⟩ := List.any_eq_true.1 hg
  have := Nat.eq_of_beq_eq_true he
  subst this
  exact List.all_eq_true.1 h _ hx

/-- Both letters of a pair. -/
theorem pair_cons {l : List Nat} (h : l.all (fun p => isIn consSet (p % 32)) = true) {s g : Nat}
    (hp : isIn l (32 * s + g) = true) (hg : g < 32) : isIn consSet g = true := by
  obtain ⟨x, hx, he⟩ := List.any_eq_true.1 hp
  have := Nat.eq_of_beq_eq_true he
  have h1 := List.all_eq_true.1 h _ hx
  rw [← this] at h1
  rwa [show (32 * s + g) % 32 = g from by omega] at h1

theorem entryOk (i s g : Nat) (hg : g < 32) : EntryOk i s g (inact i s g) := by
  unfold inact
  simp only []
  apply ite_any
  · intro h
    refine ⟨rfl, rfl, by decide, by decide, by decide, by decide, by simp, ?_, by simp, by simp, by simp⟩
    intro _
    simp only [Bool.or_eq_true, Bool.and_eq_true, beq_iff_eq] at h
    rcases h with ⟨_, h⟩ | ⟨_, h⟩ <;> rw [h] <;> decide
  intro _
  apply ite_any
  · intro h
    simp only [Bool.and_eq_true] at h
    split <;> exact ⟨rfl, rfl, by decide, by decide, by decide, by decide, by simp, fun _ => h.2.1, by simp, by simp, by simp⟩
  intro _
  apply ite_any
  · intro h
    simp only [Bool.and_eq_true] at h
    split <;> exact ⟨rfl, rfl, by decide, by decide, by decide, by decide, by simp, fun _ => h.2.1, by simp, by simp, by simp⟩
  intro _
  apply ite_any
  · intro h
    simp only [Bool.and_eq_true, beq_iff_eq] at h
    refine ⟨rfl, rfl, by decide, by decide, by decide, by decide, by simp, ?_, by simp, by simp, by simp⟩
    intro _; rw [h.2]; decide
  intro _
  apply ite_any
  · intro h
    exact ⟨rfl, rfl, by decide, by decide, by decide, by decide, by simp, by simp, fun _ => h, by simp, by simp⟩
  intro _
  apply ite_any
  · intro h
    exact ⟨rfl, rfl, by decide, by decide, by decide, by decide, by simp, by simp, by simp, fun _ => by simpa using h, by simp⟩
  intro _
  apply ite_any
  · intro h
    exact ⟨rfl, rfl, by decide, by decide, by decide, by decide, by simp, by simp, by simp, by simp, fun _ => by simpa using h⟩
  intro _
  apply ite_any
  · intro h
    simp only [Bool.and_eq_true, beq_iff_eq] at h
    exact ⟨rfl, rfl, by decide, by decide, by decide, by decide, fun _ => h.1, fun _ => by rw [h.2]; decide, by simp, by simp, by simp⟩
  intro _
  apply ite_any
  · intro h
    simp only [Bool.and_eq_true, beq_iff_eq] at h
    exact ⟨rfl, rfl, by decide, by decide, by decide, by decide, fun _ => h.1, fun _ => by rw [h.2]; decide, by simp, by simp, by simp⟩
  intro _
  apply ite_any
  · intro h
    simp only [Bool.and_eq_true, beq_iff_eq] at h
    exact ⟨rfl, rfl, by decide, by decide, by decide, by decide, fun _ => h.1, fun _ => h.2, by simp, by simp, by simp⟩
  intro _
  apply ite_any
  · intro h
    simp only [Bool.and_eq_true, beq_iff_eq] at h
    exact ⟨rfl, rfl, by decide, by decide, by decide, by decide, by simp, fun _ => by rw [h.2]; decide, by simp, by simp, by simp⟩
  intro _
  apply ite_any
  · intro h
    simp only [Bool.and_eq_true, beq_iff_eq] at h
    exact ⟨rfl, rfl, by decide, by decide, by decide, by decide, by simp, fun _ => h.2 ▸ h.1, by simp, by simp, by simp⟩
  intro _
  apply ite_any
  · intro h
    simp only [Bool.and_eq_true] at h
    exact ⟨rfl, rfl, by decide, by decide, by decide, by decide, by simp, fun _ => inSub (by decide) h.2, by simp, by simp, by simp⟩
  intro _
  apply ite_any
  · intro h
    simp only [Bool.and_eq_true] at h
    exact ⟨rfl, rfl, by decide, by decide, by decide, by decide, by simp, fun _ => inSub (by decide) h.2, by simp, by simp, by simp⟩
  intro _
  apply ite_any
  · intro h
    simp only [Bool.and_eq_true] at h
    exact ⟨rfl, rfl, by decide, by decide, by decide, by decide, by simp, fun _ => inSub (by decide) h.2, by simp, by simp, by simp⟩
  intro _
  apply ite_any
  · intro h
    simp only [Bool.and_eq_true] at h
    exact ⟨rfl, rfl, by decide, by decide, by decide, by decide, by simp, fun _ => pair_cons (by decide) h.2 hg, by simp, by simp, by simp⟩
  intro _
  apply ite_any
  · intro h
    exact ⟨rfl, rfl, by decide, by decide, by decide, by decide, by simp, fun _ => pair_cons (by decide) h hg, by simp, by simp, by simp⟩
  intro _
  apply ite_any
  · intro h
    split <;> exact ⟨rfl, rfl, by decide, by decide, by decide, by decide, by simp, fun _ => pair_cons (by decide) h hg, by simp, by simp, by simp⟩
  intro _
  apply ite_any
  · intro h
    simp only [Bool.and_eq_true] at h
    split <;> exact ⟨rfl, rfl, by decide, by decide, by decide, by decide, by simp, fun _ => h.2, by simp, by simp, by simp⟩
  intro _
  exact ⟨rfl, rfl, by decide, by decide, by decide, by decide, by simp, by simp, by simp, by simp, by simp⟩

/-! ## Characters -/

/-- What the two tables say about one character. -/
def charOk (c : Char) : Bool :=
  (!isIn consSet (mapchar c % 32) || Nat.beq (vmapchar c) 1) &&
  (!isIn vowelSet (mapchar c % 32) || Nat.ble 3 (vmapchar c)) &&
  (!(mapchar c % 32 == 25) || Nat.beq (vmapchar c) 2) &&
  (!(mapchar c % 32 == 30) || c == '\'') &&
  (Nat.ble (vmapchar c) 7) && (!Nat.ble (vmapchar c) 0 || c == ',')

theorem charOk_small : ∀ n < 128, charOk (Char.ofNat n) = true := by decide +kernel

theorem mapchar_big {c : Char} (h : 128 ≤ c.toNat) : mapchar c = 31 := by
  unfold mapchar
  have h1 : ¬ (c ≤ 'z') := fun hh => by
    have : c.toNat ≤ 'z'.toNat := hh
    rw [show 'z'.toNat = 122 from rfl] at this; omega
  have h2 : ¬ (c ≤ 'Z') := fun hh => by
    have : c.toNat ≤ 'Z'.toNat := hh
    rw [show 'Z'.toNat = 90 from rfl] at this; omega
  rw [if_neg (fun x => h1 x.2), if_neg (fun x => h2 x.2), if_neg (Bc.big_ne h (by decide))]

theorem vmapchar_big {c : Char} (h : 128 ≤ c.toNat) : vmapchar c = 1 := by
  unfold vmapchar
  have hne : ∀ d : Char, d.toNat < 128 → c ≠ d := fun d hd => Bc.big_ne h hd
  rw [if_neg (hne _ (by decide)), if_neg, if_neg, if_neg, if_neg, if_neg, if_neg]
  all_goals
    rintro (h | h)
    · exact hne _ (by decide) h
    · exact hne _ (by decide) h

theorem charOk_all (c : Char) : charOk c = true := by
  rcases Nat.lt_or_ge c.toNat 128 with h | h
  · have := charOk_small c.toNat h
    rwa [Char.ofNat_toNat] at this
  · unfold charOk
    rw [mapchar_big h, vmapchar_big h]
    rfl

/-- A character that is not a comma: what `vmapchar` says about it. -/
structure CharOk (c : Char) : Prop where
  cons : isIn consSet (mapchar c % 32) = true → vmapchar c = 1
  vowel : isIn vowelSet (mapchar c % 32) = true → 3 ≤ vmapchar c
  y : mapchar c % 32 = 25 → vmapchar c = 2
  apos : mapchar c % 32 = 30 → c = '\''
  comma : vmapchar c = 0 → c = ','

theorem charOkP (c : Char) : CharOk c := by
  have h := charOk_all c
  unfold charOk at h
  simp only [Bool.and_eq_true, Bool.or_eq_true, Bool.not_eq_true', beq_iff_eq] at h
  obtain ⟨⟨⟨⟨⟨h1, h2⟩, h3⟩, h4⟩, _⟩, h6⟩ := h
  refine ⟨fun h => ?_, fun h => ?_, fun h => ?_, fun h => ?_, fun h => ?_⟩
  · rcases h1 with h1 | h1
    · rw [h] at h1; cases h1
    · exact Nat.eq_of_beq_eq_true h1
  · rcases h2 with h2 | h2
    · rw [h] at h2; cases h2
    · exact Nat.le_of_ble_eq_true h2
  · rcases h3 with h3 | h3
    · rw [h] at h3; cases h3
    · exact Nat.eq_of_beq_eq_true h3
  · rcases h4 with h4 | h4
    · rw [h] at h4; cases h4
    · exact h4
  · rcases h6 with h6 | h6
    · rw [h] at h6; cases h6
    · exact h6

/-! ## States of the front end -/

def NoComma (r : List Char) : Prop := ∀ c ∈ r, c ≠ ','

/-- What holds of the front end after letters. -/
structure FeOk (f : Fe) : Prop where
  S : f.S = 0 ∨ isIn consSet f.S = true
  near : f.vsm.2.2 ≠ 0

theorem cons_not_vowel {s : Nat} (h : isIn consSet s = true) : isIn vowelOrNone s = false := by
  obtain ⟨x, hx, he⟩ := List.any_eq_true.1 h
  have := Nat.eq_of_beq_eq_true he
  subst this
  revert hx
  generalize hl : consSet = l
  intro hx
  have : l.all (fun s => !isIn vowelOrNone s) = true := by rw [← hl]; decide
  have := List.all_eq_true.1 this _ hx
  simpa using this

theorem feOk_next {f : Fe} (h : FeOk f) (c : Char) (hc : c ≠ ',') : FeOk (f.next c) := by
  have he := entryOk f.L f.S (mapchar c % 32) (Nat.mod_lt _ (by decide))
  constructor
  · unfold Fe.next Fe.entry
    dsimp only
    split
    · exact Or.inl rfl
    · split
      · rename_i h1
        exact Or.inr (he.cons (he.act1.1 h1))
      · exact h.S
  · intro h0
    exact hc ((charOkP c).comma h0)

theorem feOk {r : List Char} (h : NoComma r) : FeOk (fe r) := by
  induction r with
  | nil => exact ⟨Or.inl rfl, by decide⟩
  | cons c r ih =>
    exact feOk_next (ih (fun c hc => h c (List.mem_cons_of_mem _ hc))) c (h c List.mem_cons_self)

/-- Two states of the front end that treat every continuation alike. -/
structure Fe.Same (f g : Fe) : Prop where
  L : f.L = g.L
  S : f.S = g.S
  act : f.lastAct = g.lastAct
  near : f.vsm.2.2 = g.vsm.2.2
  far : f.vsm.2.2 ≠ 1 → f.vsm.2.1 = g.vsm.2.1

theorem same_entry {f g : Fe} (h : f.Same g) (c : Char) : f.entry c = g.entry c := by
  unfold Fe.entry; rw [h.L, h.S]

theorem vcheck_one (i i' k : Nat) : vcheck i 1 k = vcheck i' 1 k := by
  unfold vcheck
  simp

theorem same_tok {f g : Fe} (h : f.Same g) (c : Char) : f.tok c = g.tok c := by
  unfold Fe.tok
  rw [h.L, h.S]
  by_cases h1 : f.vsm.2.2 = 1
  · have h2 : g.vsm.2.2 = 1 := h.near ▸ h1
    unfold token
    simp only [h1, h2]
    rw [vcheck_one f.vsm.2.1 g.vsm.2.1]
    simp
  · rw [h.near, h.far h1]

theorem same_next {f g : Fe} (h : f.Same g) (c : Char) : (f.next c).Same (g.next c) := by
  constructor
  · unfold Fe.next; simp only [same_entry h, h.S, h.L]
  · unfold Fe.next; simp only [same_entry h, h.S]
  · unfold Fe.next; simp only [same_entry h]
  · rfl
  · intro _; exact h.near

/-- The front end forgets everything when a word begins. -/
theorem reset {f : Fe} (hf : FeOk f) {c : Char} (h : (f.entry c).2.2.1 = true) :
    f.entry c = Fe.start.entry c ∧ f.tok c = Fe.start.tok c ∧ (f.next c).Same (Fe.start.next c) := by
  have he := entryOk f.L f.S (mapchar c % 32) (Nat.mod_lt _ (by decide))
  obtain ⟨hL, hS⟩ := he.fresh h
  have hS0 : f.S = 0 := by
    rcases hf.S with h1 | h1
    · exact h1
    · rw [cons_not_vowel h1] at hS; cases hS
  have h0 : f.entry c = Fe.start.entry c := by
    unfold Fe.entry; rw [hL, hS0]; rfl
  have htok : 4 ≤ (f.entry c).1 := by
    have h1 := he.set
    unfold Fe.entry at h ⊢
    rw [h] at h1
    have := h1.symm
    simp only [Bool.or_eq_true, beq_iff_eq] at this
    omega
  have hv : vmapchar c = 1 := (charOkP c).cons (he.cons htok)
  refine ⟨h0, ?_, ?_, ?_, ?_, rfl, ?_⟩
  · unfold Fe.tok token
    unfold Fe.entry at htok
    rw [hL, hS0] at htok ⊢
    have e : (inact 0 0 (mapchar c % 32)).1 ≠ 1 ∧ (inact 0 0 (mapchar c % 32)).1 ≠ 3 := by omega
    rw [show Fe.start.L = 0 from rfl, show Fe.start.S = 0 from rfl]
    simp only [e.1, e.2, if_false]
    rw [if_neg (fun hh => hf.near hh.2), if_neg (by decide)]
  · unfold Fe.next; simp only [h0, hL, hS0]; rfl
  · unfold Fe.next; simp only [h0, hS0]; rfl
  · unfold Fe.next; simp only [h0]
  · intro h1; exact absurd hv h1

/-- The tokens that begin words and those that end the search for beginnings. -/
def isSet (t : Nat) : Bool := t == 4 || t == 5 || t == 6
def isInh (t : Nat) : Bool := Nat.ble 7 t && Nat.ble t 15

theorem vcheck_kinds (i j k : Nat) : vcheck i j k = 0 ∨ vcheck i j k = 1 ∨ vcheck i j k = 3 ∨ 16 ≤ vcheck i j k := by
  unfold vcheck
  repeat' split
  all_goals simp

theorem tok_flags {f : Fe} (hf : FeOk f) (c : Char) :
    (f.entry c).2.2.1 = isSet (f.tok c) ∧ (f.entry c).2.2.2 = isInh (f.tok c) := by
  have he := entryOk f.L f.S (mapchar c % 32) (Nat.mod_lt _ (by decide))
  have h1 := he.set
  have h2 := he.inh
  unfold Fe.entry Fe.tok token isSet isInh
  generalize inact f.L f.S (mapchar c % 32) = e at h1 h2
  rw [h1, h2]
  dsimp only
  have hv := vcheck_kinds f.vsm.2.1 f.vsm.2.2 (vmapchar c)
  generalize vcheck f.vsm.2.1 f.vsm.2.2 (vmapchar c) = v at hv
  have hsm : (v == 4 || v == 5 || v == 6) = false ∧ (Nat.ble 7 v && Nat.ble v 15) = false := by
    rcases hv with hv | hv | hv | hv
    · subst hv; decide
    · subst hv; decide
    · subst hv; decide
    · constructor
      · simp only [Bool.or_eq_false_iff, beq_eq_false_iff_ne]; omega
      · rw [Bool.and_eq_false_iff]; right
        cases h : Nat.ble v 15 with
        | false => rfl
        | true => exact absurd (Nat.le_of_ble_eq_true h) (by omega)
  by_cases h3 : e.1 = 1
  · rw [if_pos h3, hsm.1, hsm.2, h3]; decide
  · rw [if_neg h3]
    by_cases h4 : e.1 = 3
    · rw [if_pos h4, hsm.1, hsm.2, h4]; decide
    · rw [if_neg h4, if_neg (fun h => hf.near h.2)]
      exact ⟨rfl, rfl⟩

end Jbo.Morf
