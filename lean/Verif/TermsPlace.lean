import Verif.TermsSpec
import Mathlib.Data.List.Forall2
/-!
# The arrays of `assign_places` hold the places of the specification
-/

namespace Jbo.Terms
open Spec

/-- The entries that the code builds: FA 1 to 5 or `fai`. -/
def Entry.Ok : Entry → Prop
  | .fa p _ => (1 ≤ p ∧ p ≤ 5) ∨ p = faiOffset
  | _ => True

/-- The chains that the code builds: SE 2 to 5. -/
def LC.Ok : LC → Prop
  | .se c _ => 2 ≤ c ∧ c ≤ 5
  | .links es => ∀ e ∈ es, e.Ok
  | _ => True

/-- A number that counts from 1. -/
def Spec.Surf.Pos : Surf → Prop
  | .num k => 1 ≤ k
  | .fai k => 1 ≤ k

/-- The `jai` of a chain. -/
def jais : List LC → Nat
  | [] => 0
  | .jai :: rest => jais rest + 1
  | .jaiTag .. :: rest => jais rest + 1
  | _ :: rest => jais rest

theorem exchange_inj {c k l : Nat} (h : exchange c k = exchange c l) : k = l := by
  unfold exchange at h
  split at h <;> split at h <;> (try split at h) <;> (try split at h) <;> omega

theorem exchange_pos {c k : Nat} (hc : 2 ≤ c) (hk : 1 ≤ k) : 1 ≤ exchange c k := by
  unfold exchange; split <;> (try split) <;> omega

theorem exchange_lt {c k : Nat} (hc : c ≤ 5) (hk : k < 20) : exchange c k < 20 := by
  unfold exchange; split <;> (try split) <;> omega

/-- Added places of a chain are younger than those of its inner part. -/
theorem target_depth {lc : List LC} {s : Surf} {d : Nat} :
    (∀ t u, target lc s = some (.tag d t u) → d < lc.length) ∧ (target lc s = some (.event d) → d < lc.length) := by
  induction lc generalizing s with
  | nil => cases s <;> simp [target]
  | cons e rest ih =>
    have : ∀ s, (∀ t u, target rest s = some (.tag d t u) → d < (e :: rest).length) ∧
        (target rest s = some (.event d) → d < (e :: rest).length) := by
      intro s
      have h := @ih s
      refine ⟨fun t u h' => ?_, fun h' => ?_⟩
      · have := h.1 t u h'; simp only [List.length_cons]; omega
      · have := h.2 h'; simp only [List.length_cons]; omega
    cases e with
    | links es => exact this s
    | se c id => cases s <;> exact this _
    | jai =>
      cases s with
      | num k =>
        simp only [target]
        split
        · refine ⟨by simp, ?_⟩
          intro h
          simp only [Option.some.injEq, Target.event.injEq] at h
          simp only [List.length_cons]; omega
        · exact this _
      | fai k => simp only [target]; split <;> exact this _
    | jaiTag t u =>
      cases s with
      | num k =>
        simp only [target]
        split
        · refine ⟨?_, by simp⟩
          intro a b h
          simp only [Option.some.injEq, Target.tag.injEq] at h
          simp only [List.length_cons]; omega
        · exact this _
      | fai k => simp only [target]; split <;> exact this _

/-- Different places of a selbri are different places of the word. -/
theorem target_inj {lc : List LC} (hlc : ∀ e ∈ lc, e.Ok) {s s' : Surf} (hs : s.Pos) (hs' : s'.Pos) {t : Target}
    (h : target lc s = some t) (h' : target lc s' = some t) : s = s' := by
  induction lc generalizing s s' with
  | nil =>
    cases s <;> cases s' <;> simp only [target, Option.some.injEq, reduceCtorEq] at h h'
    rw [← h'] at h; rw [Target.ord.inj h]
  | cons e rest ih =>
    have hr : ∀ e ∈ rest, e.Ok := fun x hx => hlc x (List.mem_cons_of_mem _ hx)
    have ih := @ih hr
    have he := hlc e (List.mem_cons_self ..)
    cases e with
    | links es => exact ih hs hs' h h'
    | se c id =>
      have hc : 2 ≤ c := he.1
      cases s with
      | num k =>
        cases s' with
        | num l =>
          have := ih (s := .num (exchange c k)) (s' := .num (exchange c l)) (exchange_pos hc hs) (exchange_pos hc hs') h h'
          simp only [Surf.num.injEq] at this
          rw [exchange_inj this]
        | fai l =>
          have := ih (s := .num (exchange c k)) (s' := .fai l) (exchange_pos hc hs) hs' h h'
          cases this
      | fai k =>
        cases s' with
        | num l =>
          have := ih (s' := .num (exchange c l)) (s := .fai k) hs (exchange_pos hc hs') h h'
          cases this
        | fai l => exact ih (s := .fai k) (s' := .fai l) hs hs' h h'
    | jai =>
      have fresh : ∀ x : Surf, target rest x ≠ some (.event rest.length) := by
        intro x hx; exact Nat.lt_irrefl _ (target_depth.2 hx)
      cases s with
      | num k =>
        simp only [target] at h
        cases s' with
        | num l =>
          simp only [target] at h'
          split at h <;> split at h'
          · subst_vars; rfl
          · cases h; exact absurd h' (fresh _)
          · cases h'; exact absurd h (fresh _)
          · exact ih (s := .num k) (s' := .num l) hs hs' h h'
        | fai l =>
          simp only [target] at h'
          split at h
          · cases h; split at h' <;> exact absurd h' (fresh _)
          · split at h'
            · have := ih (s := .num k) (s' := .num 1) hs (Nat.le_refl 1) h h'
              simp only [Surf.num.injEq] at this; contradiction
            · have := ih (s := .num k) (s' := .fai (l - 1)) hs (by simp only [Surf.Pos]; omega) h h'
              cases this
      | fai k =>
        simp only [target] at h
        cases s' with
        | num l =>
          simp only [target] at h'
          split at h'
          · cases h'; split at h <;> exact absurd h (fresh _)
          · split at h
            · have := ih (s' := .num l) (s := .num 1) (Nat.le_refl 1) hs' h h'
              simp only [Surf.num.injEq] at this; exact absurd this.symm (by assumption)
            · have := ih (s' := .num l) (s := .fai (k - 1)) (by simp only [Surf.Pos]; omega) hs' h h'
              cases this
        | fai l =>
          simp only [target] at h'
          simp only [Surf.Pos] at hs hs'
          split at h <;> split at h'
          · rw [show k = l by omega]
          · have := ih (s := .num 1) (s' := .fai (l - 1)) (Nat.le_refl 1) (by simp only [Surf.Pos]; omega) h h'
            cases this
          · have := ih (s' := .num 1) (s := .fai (k - 1)) (by simp only [Surf.Pos]; omega) (Nat.le_refl 1) h h'
            cases this
          · have := ih (s := .fai (k - 1)) (s' := .fai (l - 1)) (by simp only [Surf.Pos]; omega) (by simp only [Surf.Pos]; omega) h h'
            simp only [Surf.fai.injEq] at this
            rw [show k = l by omega]
    | jaiTag t0 u0 =>
      have fresh : ∀ x : Surf, target rest x ≠ some (.tag rest.length t0 u0) := by
        intro x hx; exact Nat.lt_irrefl _ (target_depth.1 _ _ hx)
      cases s with
      | num k =>
        simp only [target] at h
        cases s' with
        | num l =>
          simp only [target] at h'
          split at h <;> split at h'
          · subst_vars; rfl
          · cases h; exact absurd h' (fresh _)
          · cases h'; exact absurd h (fresh _)
          · exact ih (s := .num k) (s' := .num l) hs hs' h h'
        | fai l =>
          simp only [target] at h'
          split at h
          · cases h; split at h' <;> exact absurd h' (fresh _)
          · split at h'
            · have := ih (s := .num k) (s' := .num 1) hs (Nat.le_refl 1) h h'
              simp only [Surf.num.injEq] at this; contradiction
            · have := ih (s := .num k) (s' := .fai (l - 1)) hs (by simp only [Surf.Pos]; omega) h h'
              cases this
      | fai k =>
        simp only [target] at h
        cases s' with
        | num l =>
          simp only [target] at h'
          split at h'
          · cases h'; split at h <;> exact absurd h (fresh _)
          · split at h
            · have := ih (s' := .num l) (s := .num 1) (Nat.le_refl 1) hs' h h'
              simp only [Surf.num.injEq] at this; exact absurd this.symm (by assumption)
            · have := ih (s' := .num l) (s := .fai (k - 1)) (by simp only [Surf.Pos]; omega) hs' h h'
              cases this
        | fai l =>
          simp only [target] at h'
          simp only [Surf.Pos] at hs hs'
          split at h <;> split at h'
          · rw [show k = l by omega]
          · have := ih (s := .num 1) (s' := .fai (l - 1)) (Nat.le_refl 1) (by simp only [Surf.Pos]; omega) h h'
            cases this
          · have := ih (s' := .num 1) (s := .fai (k - 1)) (by simp only [Surf.Pos]; omega) (Nat.le_refl 1) h h'
            cases this
          · have := ih (s := .fai (k - 1)) (s' := .fai (l - 1)) (by simp only [Surf.Pos]; omega) (by simp only [Surf.Pos]; omega) h h'
            simp only [Surf.fai.injEq] at this
            rw [show k = l by omega]

/-- A numbered place always means something. -/
theorem target_num (lc : List LC) (k : Nat) : ∃ t, target lc (.num k) = some t := by
  induction lc generalizing k with
  | nil => exact ⟨_, rfl⟩
  | cons e rest ih =>
    cases e with
    | links es => exact ih k
    | se c id => exact ih _
    | jai => simp only [target]; split <;> first | exact ⟨_, rfl⟩ | exact ih k
    | jaiTag t u => simp only [target]; split <;> first | exact ⟨_, rfl⟩ | exact ih k

/-- There are as many `fai` places as `jai`. -/
theorem target_fai (lc : List LC) (k : Nat) (hk : 1 ≤ k) : (target lc (.fai k)).isSome = true ↔ k ≤ jais lc := by
  induction lc generalizing k with
  | nil => simp [target, jais]; omega
  | cons e rest ih =>
    have h1 : (target rest (.num 1)).isSome = true := by
      obtain ⟨t, ht⟩ := target_num rest 1; rw [ht]; rfl
    cases e with
    | links es => exact ih k hk
    | se c id => exact ih k hk
    | jai =>
      simp only [target, jais]
      split
      · simp only [h1, true_iff]; omega
      · rw [ih (k - 1) (by omega)]; omega
    | jaiTag t u =>
      simp only [target, jais]
      split
      · simp only [h1, true_iff]; omega
      · rw [ih (k - 1) (by omega)]; omega

/-! ## The invariant -/

/-- What an element of the arrays says about the place. -/
def Place.seen (p : Place) : Option Seen :=
  match p.type with
  | .ord => some (.ord p.pos)
  | .tag t u => some (.tag t u)

/-- A label is right: nothing is asked of the place of a bare `jai`. -/
def Right (x : Option Seen) (t : Target) : Prop := t.seen = none ∨ x = t.seen

/-- The arrays are the places of the chain `lc`, and those in `F` are taken. -/
structure Inv (lc : List LC) (F : List Target) (a : Arrays) : Prop where
  num : ∀ k, 1 ≤ k → k < 20 → ∀ t, target lc (.num k) = some t →
    (a.place k).valid = true ∧ ((a.place k).taken = true ↔ t ∈ F) ∧ Right (a.place k).seen t
  fai : ∀ k, 1 ≤ k → k < 20 →
    ((a.fai k).valid = true ↔ k ≤ jais lc) ∧ (∀ t, target lc (.fai k) = some t → Right (a.fai k).seen t)

theorem Inv.congr {lc : List LC} {F F' : List Target} {a : Arrays} (h : Inv lc F a) (hF : ∀ t, t ∈ F ↔ t ∈ F') : Inv lc F' a :=
  ⟨fun k h1 h2 t ht => by
    obtain ⟨a1, a2, a3⟩ := h.num k h1 h2 t ht
    exact ⟨a1, a2.trans (hF t), a3⟩, h.fai⟩

theorem inv_init : Inv [] [] .init := by
  refine ⟨fun k _ _ t ht => ?_, fun k h1 _ => ⟨?_, fun t ht => ?_⟩⟩
  · simp only [target, Option.some.injEq] at ht
    subst ht
    simp [Arrays.init, Place.seen, Target.seen, Right]
  · simp [Arrays.init, jais]; omega
  · simp [target] at ht

/-- Taking place `k`. -/
theorem inv_take {lc : List LC} (hlc : ∀ e ∈ lc, e.Ok) {F : List Target} {a : Arrays} (h : Inv lc F a) {k : Nat} (h1 : 1 ≤ k)
    (_h2 : k < 20) {t : Target} (ht : target lc (.num k) = some t) :
    Inv lc (t :: F) { a with place := put a.place k { a.place k with taken := true } } := by
  refine ⟨fun j hj1 hj2 u hu => ?_, h.fai⟩
  obtain ⟨a1, a2, a3⟩ := h.num j hj1 hj2 u hu
  simp only [put]
  by_cases hjk : j = k
  · subst hjk
    rw [hu] at ht; cases ht
    simp only [if_true, List.mem_cons, true_or]
    exact ⟨a1, trivial, a3⟩
  · rw [if_neg hjk]
    refine ⟨a1, ?_, a3⟩
    rw [a2, List.mem_cons]
    constructor
    · exact fun x => .inr x
    · rintro (rfl | x)
      · exact absurd (Surf.num.inj (target_inj hlc (s := .num j) (s' := .num k) hj1 h1 hu ht)) hjk
      · exact x

/-- Taking a `fai` place. -/
theorem inv_take_fai {lc : List LC} (hlc : ∀ e ∈ lc, e.Ok) {F : List Target} {a : Arrays} (h : Inv lc F a) {k : Nat} (h1 : 1 ≤ k)
    {t : Target} (ht : target lc (.fai k) = some t) :
    Inv lc (t :: F) { a with fai := put a.fai k { a.fai k with taken := true } } := by
  refine ⟨fun j hj1 hj2 u hu => ?_, fun j hj1 hj2 => ?_⟩
  · obtain ⟨a1, a2, a3⟩ := h.num j hj1 hj2 u hu
    refine ⟨a1, ?_, a3⟩
    show (a.place j).taken = true ↔ _
    rw [a2, List.mem_cons]
    constructor
    · exact fun x => .inr x
    · rintro (rfl | x)
      · have := target_inj hlc (s := .num j) (s' := .fai k) hj1 h1 hu ht
        cases this
      · exact x
  · obtain ⟨a1, a2⟩ := h.fai j hj1 hj2
    simp only [put]
    by_cases hjk : j = k
    · subst hjk; simp only [if_true]; exact ⟨a1, a2⟩
    · rw [if_neg hjk]; exact ⟨a1, a2⟩

/-! ## Assigning a group of terms -/

/-- What an event says about a term. -/
def Ev.seen : Ev → Option (Nat × Head × Option Seen)
  | .label i l => some (i, l.head, some (match l.jai with
    | none => .ord l.pos
    | some (t, u) => .tag t u))
  | _ => none

/-- The event labels the term with the right place. -/
def Says (h : Head) (e : Ev) (p : Nat × Target) : Prop := ∃ x, e.seen = some (p.1, h, x) ∧ Right x p.2

theorem fixup_seen (id : Nat) (pl : Place) (h : Head) : (fixup id pl h).seen = some (id, h, pl.seen) := by
  unfold fixup Ev.seen Place.seen
  cases pl.type <;> rfl

/-- The terms with FA and their places. -/
def faPairs (T : Surf → Option Target) (es : List Entry) : List (Nat × Target) :=
  es.filterMap (fun e => match e with
    | .fa p id => (T (named p)).map (fun t => (id, t))
    | _ => none)

theorem shownFa_eq {T : Surf → Option Target} {F b es ts F'} (h : Seated T F b es ts F') : shownFa es ts = faPairs T es := by
  induction h with
  | nil => rfl
  | pos _ _ _ _ _ ih => simp only [shownFa, faPairs, List.filterMap_cons]; exact ih
  | @fa F b p id es ts F' _ _ ih =>
    simp only [faPairs, List.filterMap_cons]
    cases hT : T (named p) with
    | none => simp only [shownFa, Option.map_none]; exact ih
    | some t => simp only [shownFa, Option.map_some]; rw [ih]; rfl
  | @fai F b p id es ts F' _ _ ih =>
    simp only [faPairs, List.filterMap_cons]
    cases hT : T (named p) with
    | none => simp only [shownFa, Option.map_none]; exact ih
    | some t => simp only [shownFa, Option.map_some]; rw [ih]; rfl
  | fiha _ ih => simp only [shownFa, faPairs, List.filterMap_cons]; exact ih
  | tag _ ih => simp only [shownFa, faPairs, List.filterMap_cons]; exact ih

theorem assignFa_ok {lc : List LC} (hlc : ∀ e ∈ lc, e.Ok) (h : Head) {es : List Entry} (hes : ∀ e ∈ es, e.Ok) {F : List Target}
    {a : Arrays} (hi : Inv lc F a) :
    ∃ a' evs, assignFa h es a = .ok (a', evs) ∧ Inv lc (faTargets (target lc) es ++ F) a' ∧
      List.Forall₂ (Says h) evs (faPairs (target lc) es) := by
  induction es generalizing F a with
  | nil => exact ⟨a, [], rfl, hi, .nil⟩
  | cons e es ih =>
    have ih := fun {F a} (hi : Inv lc F a) => ih (fun x hx => hes x (List.mem_cons_of_mem _ hx)) hi
    have he := hes e (List.mem_cons_self ..)
    cases e with
    | pos id => exact ih hi
    | fiha id => exact ih hi
    | tag id => exact ih hi
    | fa p id =>
      rcases he with ⟨h1, h5⟩ | rfl
      · have hlt : p < faiOffset := by unfold faiOffset; omega
        have hn : named p = .num p := by rw [named, if_pos hlt]
        obtain ⟨t, ht⟩ := target_num lc p
        obtain ⟨v1, v2, v3⟩ := hi.num p h1 (by omega) t ht
        obtain ⟨a', evs, e1, e2, e3⟩ := ih (inv_take hlc hi h1 (by omega) ht)
        refine ⟨a', fixup id (a.place p) h :: evs, ?_, ?_, ?_⟩
        · rw [assignFa, if_pos hlt, at_, if_pos (by unfold maxPos; omega)]
          simp only [v1] at e1
          simp only [bind, Except.bind, v1, if_true]
          rw [e1]; rfl
        · refine e2.congr (fun x => ?_)
          simp only [faTargets, List.filterMap_cons, hn, ht, List.mem_append, List.mem_cons]
          constructor
          · rintro (x | x | x) <;> first | exact .inl (.inr x) | exact .inl (.inl x) | exact .inr x
          · rintro ((x | x) | x) <;> first | exact .inr (.inl x) | exact .inl x | exact .inr (.inr x)
        · simp only [faPairs, List.filterMap_cons, hn, ht, Option.map_some]
          exact .cons ⟨_, fixup_seen .., v3⟩ e3
      · have hlt : ¬ faiOffset < faiOffset := Nat.lt_irrefl _
        have hn : named faiOffset = .fai 1 := by rw [named, if_neg hlt]; rfl
        obtain ⟨v1, v2⟩ := hi.fai 1 (Nat.le_refl 1) (by omega)
        cases hv : (a.fai 1).valid with
        | false =>
          have hnone : target lc (.fai 1) = none := by
            have := (not_congr (target_fai lc 1 (Nat.le_refl 1))).2 (fun hc => by rw [v1.2 hc] at hv; cases hv)
            cases ht : target lc (.fai 1) with
            | none => rfl
            | some t => rw [ht] at this; simp at this
          obtain ⟨a', evs, e1, e2, e3⟩ := ih hi
          refine ⟨a', evs, ?_, ?_, ?_⟩
          · rw [assignFa, if_neg hlt]
            simp only [Nat.sub_self, Nat.zero_add]
            rw [at_, if_pos (by unfold maxPos; omega)]
            simp only [bind, Except.bind, hv, if_neg (show ¬ (false = true) by decide)]
            exact e1
          · refine e2.congr (fun x => ?_)
            simp only [faTargets, List.filterMap_cons, hn, hnone]
          · simp only [faPairs, List.filterMap_cons, hn, hnone, Option.map_none]
            exact e3
        | true =>
          obtain ⟨t, ht⟩ := Option.isSome_iff_exists.1 ((target_fai lc 1 (Nat.le_refl 1)).2 (v1.1 hv))
          obtain ⟨a', evs, e1, e2, e3⟩ := ih (inv_take_fai hlc hi (Nat.le_refl 1) ht)
          refine ⟨a', fixup id (a.fai 1) h :: evs, ?_, ?_, ?_⟩
          · rw [assignFa, if_neg hlt]
            simp only [Nat.sub_self, Nat.zero_add]
            rw [at_, if_pos (by unfold maxPos; omega)]
            simp only [hv] at e1
            simp only [bind, Except.bind, hv, if_true]
            rw [e1]; rfl
          · refine e2.congr (fun x => ?_)
            simp only [faTargets, List.filterMap_cons, hn, ht, List.mem_append, List.mem_cons]
            constructor
            · rintro (x | x | x) <;> first | exact .inl (.inr x) | exact .inl (.inl x) | exact .inr x
            · rintro ((x | x) | x) <;> first | exact .inr (.inl x) | exact .inl x | exact .inr (.inr x)
          · simp only [faPairs, List.filterMap_cons, hn, ht, Option.map_some]
            exact .cons ⟨_, fixup_seen .., v2 t ht⟩ e3

theorem firstFree_ok {f : Nat → Place} {b k : Nat} (h : firstFree f b = .ok k) :
    b ≤ k ∧ k < 20 ∧ (f k).taken = false ∧ ∀ j, b ≤ j → j < k → (f j).taken = true := by
  rw [firstFree_eq] at h
  split at h
  · split at h
    · rename_i h1 h2
      obtain ⟨a1, a2, a3, a4⟩ := firstFree_ok h
      refine ⟨by omega, a2, a3, fun j hj1 hj2 => ?_⟩
      by_cases hj : j = b
      · rw [hj]; exact h2
      · exact a4 j (by omega) hj2
    · rename_i h1 h2
      cases h
      exact ⟨Nat.le_refl _, h1, by simpa using h2, fun j h3 h4 => by omega⟩
  · cases h
termination_by 20 - b
decreasing_by unfold maxPos at *; omega

theorem assignPos_ok {lc : List LC} (hlc : ∀ e ∈ lc, e.Ok) (h : Head) {es : List Entry} (hes : ∀ e ∈ es, e.Ok) {F : List Target}
    {b : Nat} (hb : 1 ≤ b) {a a' : Arrays} {evs : List Ev} (hi : Inv lc F a) (hr : assignPos h es b a = .ok (a', evs)) :
    ∃ ts F', Seated (target lc) F b es ts F' ∧ Inv lc F' a' ∧ List.Forall₂ (Says h) evs (shownPos es ts) := by
  induction es generalizing F a b evs with
  | nil => cases hr; exact ⟨[], F, .nil, hi, .nil⟩
  | cons e es ih =>
    have hes' : ∀ e ∈ es, e.Ok := fun x hx => hes x (List.mem_cons_of_mem _ hx)
    cases e with
    | pos id =>
      rw [assignPos] at hr
      simp only [bind, Except.bind] at hr
      split at hr
      · cases hr
      rename_i k hk
      split at hr
      · cases hr
      rename_i p hp
      cases hr
      obtain ⟨b1, b2, b3, b4⟩ := firstFree_ok hk
      obtain ⟨t, ht⟩ := target_num lc k
      obtain ⟨v1, v2, v3⟩ := hi.num k (by omega) b2 t ht
      obtain ⟨ts, F', e1, e2, e3⟩ := ih hes' (by omega) (inv_take hlc hi (by omega) b2 ht) hp
      refine ⟨some t :: ts, F', .pos b1 ht ?_ ?_ e1, e2, ?_⟩
      · intro hm; rw [v2.2 hm] at b3; cases b3
      · intro j j1 j2
        obtain ⟨u, hu⟩ := target_num lc j
        exact ⟨u, (hi.num j (by omega) (by omega) u hu).2.1.1 (b4 j j1 j2), hu⟩
      · exact .cons ⟨_, fixup_seen .., v3⟩ e3
    | fa p id =>
      rw [assignPos] at hr
      by_cases hp : p < faiOffset
      · rw [if_pos hp] at hr
        obtain ⟨ts, F', e1, e2, e3⟩ := ih hes' (by omega) hi hr
        exact ⟨_, F', .fa hp e1, e2, e3⟩
      · rw [if_neg hp] at hr
        obtain ⟨ts, F', e1, e2, e3⟩ := ih hes' hb hi hr
        exact ⟨_, F', .fai (by omega) e1, e2, e3⟩
    | fiha id =>
      obtain ⟨ts, F', e1, e2, e3⟩ := ih hes' hb hi hr
      exact ⟨_, F', .fiha e1, e2, e3⟩
    | tag id =>
      obtain ⟨ts, F', e1, e2, e3⟩ := ih hes' hb hi hr
      exact ⟨_, F', .tag e1, e2, e3⟩

theorem assignTerms_ok {lc : List LC} (hlc : ∀ e ∈ lc, e.Ok) (h : Head) {es : List Entry} (hes : ∀ e ∈ es, e.Ok) {F : List Target}
    {b : Nat} (hb : 1 ≤ b) {a a' : Arrays} {evs : List Ev} (hi : Inv lc F a) (hr : assignTerms h es b a = .ok (a', evs)) :
    ∃ ts F', Seated (target lc) (faTargets (target lc) es ++ F) b es ts F' ∧ Inv lc F' a' ∧
      List.Forall₂ (Says h) evs (shown es ts) := by
  obtain ⟨a1, e1, f1, f2, f3⟩ := assignFa_ok hlc h hes hi
  rw [assignTerms, f1] at hr
  simp only [bind, Except.bind] at hr
  split at hr
  · cases hr
  rename_i p hp
  cases hr
  obtain ⟨ts, F', g1, g2, g3⟩ := assignPos_ok hlc h hes hb f2 hp
  exact ⟨ts, F', g1, g2, by rw [shown, shownFa_eq g1]; exact List.rel_append f3 g3⟩

/-! ## The chain -/

theorem seated_sub {T : Surf → Option Target} {F b es ts F'} (h : Seated T F b es ts F') :
    ∀ x ∈ F', x ∈ F ∨ ∃ s, T s = some x := by
  induction h with
  | nil => exact fun x hx => .inl hx
  | pos _ hT _ _ _ ih =>
    intro x hx
    rcases ih x hx with h | h
    · rcases List.mem_cons.1 h with rfl | h
      · exact .inr ⟨_, hT⟩
      · exact .inl h
    · exact .inr h
  | fa _ _ ih => exact ih
  | fai _ _ ih => exact ih
  | fiha _ ih => exact ih
  | tag _ ih => exact ih

theorem faTargets_sub {T : Surf → Option Target} {es : List Entry} : ∀ x ∈ faTargets T es, ∃ s, T s = some x := by
  intro x hx
  obtain ⟨e, _, he⟩ := List.mem_filterMap.1 hx
  cases e with
  | fa p id => exact ⟨_, he⟩
  | pos id => cases he
  | fiha id => cases he
  | tag id => cases he

/-- The places held in a chain are younger than it. -/
theorem chained_depth {lc : List LC} {s F} (h : Chained lc s F) :
    ∀ d, (∀ t u, Target.tag d t u ∈ F → d < lc.length) ∧ (Target.event d ∈ F → d < lc.length) := by
  induction h with
  | nil => intro d; simp
  | se _ ih => intro d; simp only [List.length_cons]; exact ⟨fun t u h => Nat.lt_succ_of_lt ((ih d).1 t u h), fun h => Nat.lt_succ_of_lt ((ih d).2 h)⟩
  | jai _ ih => intro d; simp only [List.length_cons]; exact ⟨fun t u h => Nat.lt_succ_of_lt ((ih d).1 t u h), fun h => Nat.lt_succ_of_lt ((ih d).2 h)⟩
  | jaiTag _ ih => intro d; simp only [List.length_cons]; exact ⟨fun t u h => Nat.lt_succ_of_lt ((ih d).1 t u h), fun h => Nat.lt_succ_of_lt ((ih d).2 h)⟩
  | links _ hs ih =>
    intro d
    simp only [List.length_cons]
    refine ⟨fun t u h => ?_, fun h => ?_⟩
    · rcases seated_sub hs _ h with h | ⟨s, h⟩
      · rcases List.mem_append.1 h with h | h
        · obtain ⟨s, h⟩ := faTargets_sub _ h
          exact Nat.lt_succ_of_lt (target_depth.1 _ _ h)
        · exact Nat.lt_succ_of_lt ((ih d).1 t u h)
      · exact Nat.lt_succ_of_lt (target_depth.1 _ _ h)
    · rcases seated_sub hs _ h with h | ⟨s, h⟩
      · rcases List.mem_append.1 h with h | h
        · obtain ⟨s, h⟩ := faTargets_sub _ h
          exact Nat.lt_succ_of_lt (target_depth.2 h)
        · exact Nat.lt_succ_of_lt ((ih d).2 h)
      · exact Nat.lt_succ_of_lt (target_depth.2 h)

theorem inv_swap {lc : List LC} {F : List Target} {a : Arrays} {c id : Nat} (h2 : 2 ≤ c) (h5 : c ≤ 5) (h : Inv lc F a) :
    Inv (.se c id :: lc) F { a with place := swap1 a.place c } := by
  refine ⟨fun k k1 k2 t ht => ?_, fun k k1 k2 => h.fai k k1 k2⟩
  have := h.num (exchange c k) (exchange_pos h2 k1) (exchange_lt h5 k2) t ht
  have e : swap1 a.place c k = a.place (exchange c k) := by
    unfold swap1 put exchange
    by_cases hc : k = c
    · rw [if_pos hc]
      subst hc
      rw [if_neg (by omega), if_pos rfl]
    · rw [if_neg hc]
      by_cases hk : k = 1
      · rw [if_pos hk, if_pos hk]
      · rw [if_neg hk, if_neg hk, if_neg hc]
  simp only [e]
  exact this

theorem firstInvalid_eq {f : Nat → Place} {m : Nat} (hf : ∀ k, 1 ≤ k → k < 20 → ((f k).valid = true ↔ k ≤ m)) (j : Nat) (hj : 1 ≤ j)
    (hm : j ≤ m + 1) : firstInvalid f j = if m + 1 < 20 then .ok (m + 1) else .error .bounds := by
  rw [firstInvalid_step]
  by_cases h : j < maxPos
  · rw [if_pos h]
    by_cases hv : (f j).valid = true
    · rw [if_pos hv]
      have := (hf j hj h).1 hv
      exact firstInvalid_eq hf (j + 1) (by omega) (by omega)
    · rw [if_neg hv]
      have := (not_congr (hf j hj h)).1 hv
      unfold maxPos at h
      rw [show j = m + 1 by omega, if_pos (by omega)]
  · rw [if_neg h, if_neg (by unfold maxPos at h; omega)]
termination_by 20 - j
decreasing_by unfold maxPos at *; omega

/-- `jai`, with or without a tag, when the old first place is not held. -/
theorem inv_jai {lc : List LC} {e : LC} {F : List Target} {a : Arrays} {f : Nat → Place} {ty : PT} {nt : Target}
    (h : Inv lc F a) (hf : faiShift a = .ok f)
    (free : ∀ x, target lc (.num 1) = some x → x ∉ F) (fresh : nt ∉ F)
    (hnum : ∀ k, target (e :: lc) (.num k) = if k = 1 then some nt else target lc (.num k))
    (hfai : ∀ k, target (e :: lc) (.fai k) = if k ≤ 1 then target lc (.num 1) else target lc (.fai (k - 1)))
    (hj : jais (e :: lc) = jais lc + 1)
    (hty : ∀ p v tk, Right (Place.seen ⟨ty, v, tk, p⟩) nt) :
    Inv (e :: lc) F ⟨put a.place 1 { a.place 1 with type := ty, valid := true }, f⟩ := by
  obtain ⟨t1, ht1⟩ := target_num lc 1
  obtain ⟨p1, p2, p3⟩ := h.num 1 (Nat.le_refl 1) (by omega) t1 ht1
  rw [faiShift, firstInvalid_eq (fun k k1 k2 => (h.fai k k1 k2).1) 1 (Nat.le_refl 1) (by omega)] at hf
  by_cases hm : jais lc + 1 < 20
  · rw [if_pos hm] at hf
    simp only [bind, Except.bind, pure, Except.pure, Except.ok.injEq] at hf
    refine ⟨fun k k1 k2 t ht => ?_, fun k k1 k2 => ?_⟩
    · rw [hnum] at ht
      simp only [put]
      by_cases hk : k = 1
      · rw [if_pos hk] at ht
        cases ht
        rw [if_pos hk]
        refine ⟨rfl, ?_, hty ..⟩
        constructor
        · intro x; exact absurd (p2.1 x) (free t1 ht1)
        · intro x; exact absurd x fresh
      · rw [if_neg hk] at ht ⊢
        exact h.num k k1 k2 t ht
    · rw [hfai, hj]
      simp only [← hf, put]
      by_cases hk : k = 1
      · rw [if_pos hk, if_pos (by omega)]
        refine ⟨by rw [p1]; simp only [true_iff]; omega, fun t ht => ?_⟩
        rw [ht1] at ht; cases ht; exact p3
      · rw [if_neg hk, if_neg (show ¬ k ≤ 1 by omega)]
        by_cases hk' : k ≤ jais lc + 1
        · rw [if_pos ⟨by omega, hk'⟩]
          obtain ⟨b1, b2⟩ := h.fai (k - 1) (by omega) (by omega)
          exact ⟨by rw [b1]; omega, b2⟩
        · rw [if_neg (show ¬ (1 < k ∧ k ≤ jais lc + 1) by omega)]
          obtain ⟨b1, b2⟩ := h.fai k k1 k2
          refine ⟨by rw [b1]; omega, fun t ht => ?_⟩
          have := (target_fai lc (k - 1) (by omega)).1 (by rw [ht]; rfl)
          omega
  · rw [if_neg hm] at hf
    cases hf

/-- No `jai` stands outside a selbri whose first place is held already by a linked sumti. -/
def Clean (lc : List LC) : Prop :=
  ∀ l e rest s F, lc = l ++ e :: rest → (e = .jai ∨ ∃ t u, e = .jaiTag t u) → Chained rest s F →
    ∀ x, target rest (.num 1) = some x → x ∉ F

theorem Clean.tail {e : LC} {lc : List LC} (h : Clean (e :: lc)) : Clean lc :=
  fun l e' rest s F hl => h (e :: l) e' rest s F (by rw [hl]; rfl)

theorem chain_ok {lc : List LC} (hlc : ∀ e ∈ lc, e.Ok) (hc : Clean lc) (h : Head) {a : Arrays} {evs : List Ev}
    (hr : chain h lc .init = .ok (a, evs)) : ∃ s F, Chained lc s F ∧ Inv lc F a ∧ List.Forall₂ (Says h) evs s := by
  induction lc generalizing a evs with
  | nil => cases hr; exact ⟨[], [], .nil, inv_init, .nil⟩
  | cons e rest ih =>
    rw [chain] at hr
    simp only [bind, Except.bind] at hr
    split at hr
    · cases hr
    rename_i p hp
    split at hr
    · cases hr
    rename_i q hq
    cases hr
    have hr' : ∀ e ∈ rest, e.Ok := fun x hx => hlc x (List.mem_cons_of_mem _ hx)
    have he := hlc e (List.mem_cons_self ..)
    obtain ⟨s, F, c1, c2, c3⟩ := ih hr' hc.tail hp
    cases e with
    | links es =>
      obtain ⟨ts, F', g1, g2, g3⟩ := assignTerms_ok hr' h he (by omega) c2 hq
      exact ⟨_, F', .links c1 g1, ⟨g2.num, g2.fai⟩, List.rel_append c3 g3⟩
    | se c id =>
      cases hq
      exact ⟨s, F, .se c1, inv_swap he.1 he.2 c2, by rw [List.append_nil]; exact c3⟩
    | jaiTag t u =>
      simp only [chainStep, bind, Except.bind] at hq
      split at hq
      · cases hq
      rename_i f hf
      cases hq
      exact ⟨s, F, .jaiTag c1, inv_jai (nt := .tag rest.length t u) c2 hf (hc [] _ rest s F rfl (.inr ⟨t, u, rfl⟩) c1)
        (fun hm => Nat.lt_irrefl _ ((chained_depth c1 _).1 _ _ hm)) (fun k => rfl) (fun k => rfl) rfl
        (fun _ _ _ => .inr rfl), by rw [List.append_nil]; exact c3⟩
    | jai =>
      simp only [chainStep, bind, Except.bind] at hq
      split at hq
      · cases hq
      rename_i f hf
      cases hq
      exact ⟨s, F, .jai c1, inv_jai (nt := .event rest.length) c2 hf (hc [] _ rest s F rfl (.inl rfl) c1)
        (fun hm => Nat.lt_irrefl _ ((chained_depth c1 _).2 hm)) (fun k => rfl) (fun k => rfl) rfl
        (fun _ _ _ => .inl rfl), by rw [List.append_nil]; exact c3⟩

/-- **The labels are the places.** -/
theorem assignPlaces_ok {lc : List LC} (hlc : ∀ e ∈ lc, e.Ok) (hc : Clean lc) {pre post : List Entry} (hpre : ∀ e ∈ pre, e.Ok)
    (hpost : ∀ e ∈ post, e.Ok) (h : Head) {evs : List Ev} (hr : assignPlaces pre post lc h = .ok evs) :
    ∃ s, Places lc pre post s ∧ List.Forall₂ (Says h) evs s := by
  rw [assignPlaces] at hr
  simp only [bind, Except.bind] at hr
  split at hr
  · cases hr
  rename_i p hp
  split at hr
  · cases hr
  rename_i q hq
  split at hr
  · cases hr
  rename_i r hr'
  cases hr
  obtain ⟨s, F, c1, c2, c3⟩ := chain_ok hlc hc h hp
  obtain ⟨t1, F1, g1, g2, g3⟩ := assignTerms_ok hlc h hpre (by omega) c2 hq
  obtain ⟨t2, F2, k1, k2, k3⟩ := assignTerms_ok hlc h hpost (by omega) g2 hr'
  exact ⟨_, ⟨s, F, t1, F1, t2, F2, c1, g1, k1, rfl⟩, List.rel_append (List.rel_append c3 g3) k3⟩

end Jbo.Terms
