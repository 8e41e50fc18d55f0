import Verif.DfaBuildThm

/-!
# Merging equivalent states
-/

namespace Jbo.Dfasyn

/-! ## Comparison functions -/

/-- A comparison function that `qsort` can use on the elements satisfying `p`. -/
structure Lawful {α : Type} (p : α → Prop) (c : α → α → Int) : Prop where
  swap : ∀ a b, p a → p b → (c b a ≤ 0 ↔ 0 ≤ c a b)
  trans : ∀ a b d, p a → p b → p d → c a b ≤ 0 → c b d ≤ 0 → c a d ≤ 0

namespace Lawful
variable {α : Type} {p : α → Prop} {c : α → α → Int}

theorem total (h : Lawful p c) (a b : α) (ha : p a) (hb : p b) : c a b ≤ 0 ∨ c b a ≤ 0 := by
  have := h.swap a b ha hb; omega

theorem zero_iff (h : Lawful p c) (a b : α) (ha : p a) (hb : p b) : c a b = 0 ↔ c a b ≤ 0 ∧ c b a ≤ 0 := by
  have := h.swap a b ha hb; omega

theorem zero_symm (h : Lawful p c) {a b : α} (ha : p a) (hb : p b) (hz : c a b = 0) : c b a = 0 := by
  rw [h.zero_iff b a hb ha]; exact ((h.zero_iff a b ha hb).1 hz).symm

theorem zero_trans (h : Lawful p c) {a b d : α} (ha : p a) (hb : p b) (hd : p d) (h1 : c a b = 0)
    (h2 : c b d = 0) : c a d = 0 := by
  obtain ⟨h3, h4⟩ := (h.zero_iff _ _ ha hb).1 h1
  obtain ⟨h5, h6⟩ := (h.zero_iff _ _ hb hd).1 h2
  exact (h.zero_iff _ _ ha hd).2 ⟨h.trans _ _ _ ha hb hd h3 h5, h.trans _ _ _ hd hb ha h6 h4⟩

theorem refl (h : Lawful p c) {a : α} (ha : p a) : c a a = 0 := by
  have := h.swap a a ha ha; omega

/-- Nothing after a strictly greater element equals the first. -/
theorem strict (h : Lawful p c) {a b d : α} (ha : p a) (hb : p b) (hd : p d) (h1 : c a b ≤ 0)
    (h2 : c a b ≠ 0) (h3 : c b d ≤ 0) : c a d ≠ 0 := by
  intro hz
  have h4 := ((h.zero_iff _ _ ha hd).1 hz).2
  exact h2 ((h.zero_iff _ _ ha hb).2 ⟨h1, h.trans _ _ _ hb hd ha h3 h4⟩)

end Lawful

/-- First by a key, then by another comparison. -/
theorem lawful_lex {α : Type} {p : α → Prop} {c : α → α → Int} {d : α → α → Int} (f : α → Int)
    (hc : Lawful p c)
    (hd : ∀ a b, d a b = if f a < f b then -1 else if f a > f b then 1 else c a b) : Lawful p d := by
  constructor
  · intro a b ha hb
    have := hc.swap a b ha hb
    rw [hd, hd]
    split <;> split <;> (try split) <;> (try split) <;> omega
  · intro a b e ha hb he h1 h2
    have := hc.trans a b e ha hb he
    rw [hd] at h1 h2 ⊢
    split at h1 <;> split at h2 <;> split <;> (try split at h1) <;> (try split at h2) <;>
      (try split) <;> omega

theorem strcmp_lawful : Lawful (fun _ => True) strcmp := by
  constructor
  · intro a
    induction a with
    | nil => intro b; cases b <;> simp [strcmp]
    | cons x a ih =>
      intro b _ _
      cases b with
      | nil => simp [strcmp]
      | cons y b =>
        have := ih b trivial trivial
        simp only [strcmp]
        split <;> split <;> omega
  · intro a
    induction a with
    | nil => intro b d _ _ _ h1 h2; cases d <;> simp [strcmp]
    | cons x a ih =>
      intro b d _ _ _ h1 h2
      cases b with
      | nil => simp [strcmp] at h1
      | cons y b =>
        cases d with
        | nil => simp [strcmp] at h2
        | cons z d =>
          have := ih b d trivial trivial trivial
          simp only [strcmp] at h1 h2 ⊢
          split at h1 <;> split at h2 <;> split <;> (try split at h1) <;> (try split at h2) <;>
            (try split) <;> omega

theorem strcmp_zero : ∀ s t, strcmp s t = 0 ↔ s = t := by
  intro s
  induction s with
  | nil => intro t; cases t <;> simp [strcmp]
  | cons x s ih =>
    intro t
    cases t with
    | nil => simp [strcmp]
    | cons y t =>
      simp only [strcmp, List.cons.injEq]
      have hxy : x = y ↔ x.toNat = y.toNat := by
        constructor
        · intro h; rw [h]
        · intro h; exact Char.toNat_inj.1 h
      rw [hxy, ← ih t]
      split
      · omega
      · split
        · omega
        · constructor
          · intro h; exact ⟨by omega, h⟩
          · intro h; exact h.2

/-- What the merging keeps of a state: the result, and the attribute if there is a result. -/
def face (nd : Node) : Option Name × Option Name :=
  (nd.result, if nd.result.isSome then nd.attrib else none)

theorem initialCompare_zero (a b : Node) : initialCompare a b = 0 ↔ face a = face b := by
  obtain ⟨_, _, ra, _, aa⟩ := a
  obtain ⟨_, _, rb, _, ab⟩ := b
  unfold initialCompare face
  cases ra with
  | none => cases rb <;> simp
  | some r =>
    cases rb with
    | none => simp
    | some r' =>
      have hz := strcmp_zero r r'
      simp only [Option.isSome_some, if_true, Prod.mk.injEq, Option.some.injEq]
      rw [← hz]
      split
      · constructor
        · omega
        · intro h; omega
      · split
        · constructor
          · omega
          · intro h; omega
        · have h0 : strcmp r r' = 0 := by omega
          simp only [h0, true_and]
          cases aa with
          | none => cases ab <;> simp
          | some s =>
            cases ab with
            | none => simp
            | some s' => simp [strcmp_zero]

theorem initialCompare_lawful : Lawful (fun _ => True) initialCompare := by
  have hsw : ∀ s t, (strcmp t s ≤ 0 ↔ 0 ≤ strcmp s t) := fun s t => strcmp_lawful.swap s t trivial trivial
  have htr : ∀ s t u, strcmp s t ≤ 0 → strcmp t u ≤ 0 → strcmp s u ≤ 0 :=
    fun s t u => strcmp_lawful.trans s t u trivial trivial trivial
  constructor
  · rintro ⟨_, _, ra, _, aa⟩ ⟨_, _, rb, _, ab⟩ _ _
    cases ra with
    | none => cases rb <;> simp [initialCompare]
    | some r =>
      cases rb with
      | none => simp [initialCompare]
      | some r' =>
        have h1 := hsw r r'
        have h2 := hsw r' r
        cases aa with
        | none => cases ab <;> simp only [initialCompare] <;> split <;> split <;> (try split) <;> (try split) <;> omega
        | some s =>
          cases ab with
          | none => simp only [initialCompare]; split <;> split <;> (try split) <;> (try split) <;> omega
          | some s' =>
            have h3 := hsw s s'
            simp only [initialCompare]; split <;> split <;> (try split) <;> (try split) <;> omega
  · rintro ⟨_, _, ra, _, aa⟩ ⟨_, _, rb, _, ab⟩ ⟨_, _, rd, _, ad⟩ _ _ _
    cases ra with
    | none => cases rb <;> cases rd <;> simp [initialCompare]
    | some r =>
      cases rb with
      | none => simp [initialCompare]
      | some r' =>
        cases rd with
        | none => simp [initialCompare]
        | some r'' =>
          have h1 := hsw r r'
          have h2 := hsw r' r''
          have h3 := hsw r r''
          have h4 := htr r r' r''
          have h5 := htr r'' r' r
          have h6 := htr r' r'' r
          have h7 := htr r'' r r'
          have h8 := hsw r' r
          have h9 := hsw r'' r'
          simp only [initialCompare]
          intro k1 k2
          by_cases z : strcmp r r'' < 0
          · simp [z]
          · have e1 : ¬ strcmp r r' > 0 := by
              intro hx; rw [if_neg (by omega), if_pos hx] at k1; omega
            have e2 : ¬ strcmp r' r'' > 0 := by
              intro hx; rw [if_neg (by omega), if_pos hx] at k2; omega
            have e3 : ¬ strcmp r r' < 0 := by omega
            have e4 : ¬ strcmp r' r'' < 0 := by omega
            have e5 : ¬ strcmp r r'' > 0 := by omega
            rw [if_neg e3, if_neg e1] at k1
            rw [if_neg e4, if_neg e2] at k2
            rw [if_neg z, if_neg e5]
            cases aa with
            | none => cases ab <;> cases ad <;> simp_all
            | some s =>
              cases ab with
              | none => simp at k1
              | some s' =>
                cases ad with
                | none => simp at k2
                | some s'' => exact htr s s' s'' k1 k2

theorem compareMaps_zero (c : Classes) : ∀ xs ys : List (Option Nat), xs.length = ys.length →
    (compareMaps c xs ys = 0 ↔ xs.map (destClass c) = ys.map (destClass c)) := by
  intro xs
  induction xs with
  | nil => intro ys h; cases ys <;> simp_all [compareMaps]
  | cons x xs ih =>
    intro ys h
    cases ys with
    | nil => simp at h
    | cons y ys =>
      have := ih ys (by simpa using h)
      simp only [compareMaps, List.map_cons, List.cons.injEq]
      split
      · constructor
        · omega
        · intro h; omega
      · split
        · constructor
          · omega
          · intro h; omega
        · rw [this]
          constructor
          · intro h; exact ⟨by omega, h⟩
          · intro h; exact h.2

theorem compareMaps_lawful (c : Classes) (n : Nat) :
    Lawful (fun xs : List (Option Nat) => xs.length = n) (compareMaps c) := by
  induction n with
  | zero =>
    constructor
    · intro a b ha hb
      rw [List.length_eq_zero_iff.1 ha, List.length_eq_zero_iff.1 hb]; simp [compareMaps]
    · intro a b d ha hb hd _ _
      rw [List.length_eq_zero_iff.1 ha]; simp [compareMaps]
  | succ n ih =>
    constructor
    · intro a b ha hb
      cases a with
      | nil => simp at ha
      | cons x a =>
        cases b with
        | nil => simp at hb
        | cons y b =>
          have := ih.swap a b (by simpa using ha) (by simpa using hb)
          simp only [compareMaps]
          split <;> split <;> (try split) <;> (try split) <;> omega
    · intro a b d ha hb hd h1 h2
      cases a with
      | nil => simp at ha
      | cons x a =>
        cases b with
        | nil => simp at hb
        | cons y b =>
          cases d with
          | nil => simp at hd
          | cons z d =>
            have := ih.trans a b d (by simpa using ha) (by simpa using hb) (by simpa using hd)
            simp only [compareMaps] at h1 h2 ⊢
            split at h1 <;> split at h2 <;> split <;> (try split at h1) <;> (try split at h2) <;>
              (try split) <;> omega

/-- The maps of all states have the length `nt` and lead to existing states. -/
def GoodNodes (nt : Nat) (nodes : List Node) : Prop :=
  ∀ i, i < nodes.length → (nodeAt nodes i).map.length = nt ∧
    ∀ d, some d ∈ (nodeAt nodes i).map → d < nodes.length

theorem generalCompare_lawful {nt : Nat} {nodes : List Node} (hg : GoodNodes nt nodes) (c : Classes) :
    Lawful (fun i => i < nodes.length) (generalCompare nodes c) := by
  have h0 : Lawful (fun i => i < nodes.length)
      (fun i j => compareMaps c (nodeAt nodes i).map (nodeAt nodes j).map) := by
    constructor
    · intro a b ha hb
      exact (compareMaps_lawful c nt).swap _ _ (hg a ha).1 (hg b hb).1
    · intro a b d ha hb hd
      exact (compareMaps_lawful c nt).trans _ _ _ (hg a ha).1 (hg b hb).1 (hg d hd).1
  have h1 := lawful_lex (fun i => (classSig c (nodeAt nodes i).map : Int)) h0
    (d := fun i j => if (classSig c (nodeAt nodes i).map : Int) < classSig c (nodeAt nodes j).map then -1
      else if (classSig c (nodeAt nodes i).map : Int) > classSig c (nodeAt nodes j).map then 1
      else compareMaps c (nodeAt nodes i).map (nodeAt nodes j).map) (fun _ _ => rfl)
  refine lawful_lex (fun i => (c i : Int)) h1 ?_
  intro a b
  simp only [generalCompare, Int.ofNat_lt, gt_iff_lt]

theorem generalCompare_zero {nt : Nat} {nodes : List Node} (hg : GoodNodes nt nodes) (c : Classes)
    (i j : Nat) (hi : i < nodes.length) (hj : j < nodes.length) :
    generalCompare nodes c i j = 0 ↔
      c i = c j ∧ (nodeAt nodes i).map.map (destClass c) = (nodeAt nodes j).map.map (destClass c) := by
  have hz := compareMaps_zero c (nodeAt nodes i).map (nodeAt nodes j).map
    (by rw [(hg i hi).1, (hg j hj).1])
  have hsig : (nodeAt nodes i).map.map (destClass c) = (nodeAt nodes j).map.map (destClass c) →
      classSig c (nodeAt nodes i).map = classSig c (nodeAt nodes j).map := by
    have key : ∀ m : List (Option Nat), classSig c m = (m.map (destClass c)).foldl
        (fun sig d => if d < 0 then sig else increment sig (d.toNat % 16)) 0 := by
      intro m
      unfold classSig
      rw [List.foldl_map]
      congr 1
      funext sig d
      cases d with
      | none => simp [destClass]
      | some d =>
        have : ¬ ((c d : Int) < 0) := by omega
        simp [destClass, this]
    intro h
    rw [key, key, h]
  rw [← hz]
  simp only [generalCompare]
  constructor
  · intro h
    split at h
    · omega
    · split at h
      · omega
      · split at h
        · omega
        · split at h
          · omega
          · exact ⟨by omega, h⟩
  · rintro ⟨h1, h2⟩
    have h3 := hsig (hz.1 h2)
    rw [if_neg (by omega), if_neg (by omega), if_neg (by omega), if_neg (by omega)]
    exact h2

theorem generalCompare_class {nodes : List Node} {c : Classes} {i j : Nat}
    (h : generalCompare nodes c i j ≤ 0) : c i ≤ c j := by
  simp only [generalCompare] at h
  split at h
  · omega
  · split at h <;> omega

/-! ## Initial classes -/

theorem assignLoop_spec (nodes : List Node) : ∀ (rest : List Nat) (prev last : Nat) (c : Classes),
    c prev = last → (prev :: rest).Nodup →
    (prev :: rest).Pairwise (fun i j => initialCompare (nodeAt nodes i) (nodeAt nodes j) ≤ 0) →
    let r := assignLoop nodes prev last c rest
    (∀ x, x ∉ rest → r.1 x = c x) ∧
    last ≤ r.2 ∧
    (∀ x ∈ prev :: rest, last ≤ r.1 x ∧ r.1 x ≤ r.2) ∧
    (∀ x ∈ prev :: rest, ∀ y ∈ prev :: rest,
      (r.1 x = r.1 y ↔ initialCompare (nodeAt nodes x) (nodeAt nodes y) = 0)) ∧
    (∀ v, last ≤ v → v ≤ r.2 → ∃ x ∈ prev :: rest, r.1 x = v) := by
  intro rest
  have L := initialCompare_lawful
  induction rest with
  | nil =>
    intro prev last c hc _ _
    simp only [assignLoop]
    refine ⟨fun _ _ => trivial, Nat.le_refl _, ?_, ?_, ?_⟩
    · intro x hx; simp at hx; subst hx; omega
    · intro x hx y hy; simp at hx hy; subst hx; subst hy; simp [L.refl trivial]
    · intro v h1 h2; exact ⟨prev, by simp, by omega⟩
  | cons i rest ih =>
    intro prev last c hc hnd hs
    have hnd' := (List.nodup_cons.1 hnd).2
    have hpi : prev ∉ i :: rest := (List.nodup_cons.1 hnd).1
    have hs' := (List.pairwise_cons.1 hs).2
    have hprev := (List.pairwise_cons.1 hs).1
    have hile : ∀ x ∈ i :: rest, initialCompare (nodeAt nodes i) (nodeAt nodes x) ≤ 0 := by
      intro x hx
      replace hx := List.mem_cons.1 hx
      rcases hx with rfl | hx
      · rw [L.refl trivial]; exact Int.le_refl _
      · exact (List.pairwise_cons.1 hs').1 x hx
    simp only [assignLoop]
    by_cases hne : initialCompare (nodeAt nodes prev) (nodeAt nodes i) ≠ 0
    · rw [if_pos hne]
      obtain ⟨h1, h2, h3, h4, h5⟩ := ih i (last + 1) (c.upd i (last + 1)) (by simp [Classes.upd]) hnd' hs'
      generalize assignLoop nodes i (last + 1) (c.upd i (last + 1)) rest = r at *
      have hrp : r.1 prev = last := by
        rw [h1 prev (fun h => hpi (List.mem_cons_of_mem _ h))]
        have : prev ≠ i := fun h => hpi (h ▸ List.mem_cons_self)
        simp [Classes.upd, this, hc]
      have hstrict : ∀ x ∈ i :: rest, initialCompare (nodeAt nodes prev) (nodeAt nodes x) ≠ 0 :=
        fun x hx => L.strict trivial trivial trivial (hprev i List.mem_cons_self) hne (hile x hx)
      refine ⟨?_, by omega, ?_, ?_, ?_⟩
      · intro x hx
        rw [h1 x (fun h => hx (List.mem_cons_of_mem _ h))]
        have : x ≠ i := fun h => hx (h ▸ List.mem_cons_self)
        simp [Classes.upd, this]
      · intro x hx
        replace hx := List.mem_cons.1 hx
        rcases hx with rfl | hx
        · omega
        · have := h3 x hx; omega
      · intro x hx y hy
        replace hx := List.mem_cons.1 hx
        rcases hx with rfl | hx
        · replace hy := List.mem_cons.1 hy
          rcases hy with rfl | hy
          · simp [L.refl trivial]
          · have h6 := h3 y hy
            have h7 := hstrict y hy
            constructor
            · intro h; omega
            · intro h; exact absurd h h7
        · replace hy := List.mem_cons.1 hy
          rcases hy with rfl | hy
          · have h6 := h3 x hx
            have h7 := hstrict x hx
            constructor
            · intro h; omega
            · intro h; exact absurd (L.zero_symm trivial trivial h) h7
          · exact h4 x hx y hy
      · intro v hv1 hv2
        by_cases hvl : v = last
        · exact ⟨prev, List.mem_cons_self, by rw [hvl]; exact hrp⟩
        · obtain ⟨x, hx, hxv⟩ := h5 v (by omega) hv2
          exact ⟨x, List.mem_cons_of_mem _ hx, hxv⟩
    · rw [if_neg hne]
      have hz : initialCompare (nodeAt nodes prev) (nodeAt nodes i) = 0 :=
        Classical.byContradiction hne
      obtain ⟨h1, h2, h3, h4, h5⟩ := ih i last (c.upd i last) (by simp [Classes.upd]) hnd' hs'
      generalize assignLoop nodes i last (c.upd i last) rest = r at *
      have hrp : r.1 prev = last := by
        rw [h1 prev (fun h => hpi (List.mem_cons_of_mem _ h))]
        have : prev ≠ i := fun h => hpi (h ▸ List.mem_cons_self)
        simp [Classes.upd, this, hc]
      have hri : r.1 i = last := by
        rw [h1 i (List.nodup_cons.1 hnd').1]; simp [Classes.upd]
      have hpx : ∀ x ∈ i :: rest, (r.1 prev = r.1 x ↔
          initialCompare (nodeAt nodes prev) (nodeAt nodes x) = 0) := by
        intro x hx
        rw [hrp, ← hri, h4 i List.mem_cons_self x hx]
        exact ⟨fun h => L.zero_trans trivial trivial trivial hz h,
          fun h => L.zero_trans trivial trivial trivial (L.zero_symm trivial trivial hz) h⟩
      refine ⟨?_, h2, ?_, ?_, ?_⟩
      · intro x hx
        rw [h1 x (fun h => hx (List.mem_cons_of_mem _ h))]
        have : x ≠ i := fun h => hx (h ▸ List.mem_cons_self)
        simp [Classes.upd, this]
      · intro x hx
        replace hx := List.mem_cons.1 hx
        rcases hx with rfl | hx
        · omega
        · exact h3 x hx
      · intro x hx y hy
        replace hx := List.mem_cons.1 hx
        rcases hx with rfl | hx
        · replace hy := List.mem_cons.1 hy
          rcases hy with rfl | hy
          · simp [L.refl trivial]
          · exact hpx y hy
        · replace hy := List.mem_cons.1 hy
          rcases hy with rfl | hy
          · rw [eq_comm, hpx x hx]
            exact ⟨fun h => L.zero_symm trivial trivial h, fun h => L.zero_symm trivial trivial h⟩
          · exact h4 x hx y hy
      · intro v hv1 hv2
        obtain ⟨x, hx, hxv⟩ := h5 v hv1 hv2
        exact ⟨x, List.mem_cons_of_mem _ hx, hxv⟩

/-! ## Splitting -/

theorem splitLoop_spec {nt : Nat} {nodes : List Node} (hg : GoodNodes nt nodes) (c : Classes) (B : Nat) :
    ∀ (rest : List Nat) (prev last : Nat) (c' : Classes) (split : Bool),
    B ≤ last → (c' prev = c prev ∨ (B < c' prev ∧ c' prev ≤ last)) →
    (∀ x ∈ prev :: rest, x < nodes.length ∧ c x ≤ B) → (prev :: rest).Nodup →
    (prev :: rest).Pairwise (fun i j => generalCompare nodes c i j ≤ 0) →
    let r := splitLoop nodes c prev last c' split rest
    (∀ x, x ∉ rest → r.1 x = c' x) ∧
    last ≤ r.2.1 ∧
    (∀ x ∈ prev :: rest, (r.1 x = c' prev ∧ generalCompare nodes c prev x = 0) ∨
      (r.1 x = c x ∧ c prev < c x) ∨ (last < r.1 x ∧ r.1 x ≤ r.2.1)) ∧
    (∀ x ∈ prev :: rest, ∀ y ∈ prev :: rest, (r.1 x = r.1 y ↔ generalCompare nodes c x y = 0)) ∧
    (∀ x ∈ prev :: rest, c prev < c x → ∃ y ∈ prev :: rest, r.1 y = c x) ∧
    (∀ v, last < v → v ≤ r.2.1 → ∃ x ∈ prev :: rest, r.1 x = v) ∧
    (r.2.2 = false → split = false ∧
      ∀ x ∈ prev :: rest, ∀ y ∈ prev :: rest, c x = c y → generalCompare nodes c x y = 0) ∧
    (r.2.2 = true → split = true ∨ last < r.2.1) := by
  intro rest
  have L := generalCompare_lawful hg c
  induction rest with
  | nil =>
    intro prev last c' split hB hcp hin _ _
    simp only [splitLoop]
    have hp := (hin prev List.mem_cons_self).1
    refine ⟨fun _ _ => trivial, Nat.le_refl _, ?_, ?_, ?_, ?_, ?_, ?_⟩
    · intro x hx; simp at hx; subst hx; exact Or.inl ⟨rfl, L.refl hp⟩
    · intro x hx y hy; simp at hx hy; subst hx; subst hy; simp [L.refl hp]
    · intro x hx h; simp at hx; subst hx; omega
    · intro v h1 h2; omega
    · intro h; refine ⟨h, fun x hx y hy _ => ?_⟩
      simp at hx hy; subst hx; subst hy; exact L.refl hp
    · intro h; exact Or.inl h
  | cons i rest ih =>
    intro prev last c' split hB hcp hin hnd hs
    have hnd' := (List.nodup_cons.1 hnd).2
    have hpi : prev ∉ i :: rest := (List.nodup_cons.1 hnd).1
    have hs' := (List.pairwise_cons.1 hs).2
    have hprev := (List.pairwise_cons.1 hs).1
    have hin' : ∀ x ∈ i :: rest, x < nodes.length ∧ c x ≤ B :=
      fun x hx => hin x (List.mem_cons_of_mem _ hx)
    have hpl := (hin prev List.mem_cons_self).1
    have hil := (hin' i List.mem_cons_self).1
    have hprevi := hprev i List.mem_cons_self
    have hnePI : prev ≠ i := fun h => hpi (h ▸ List.mem_cons_self)
    have hile : ∀ x ∈ i :: rest, generalCompare nodes c i x ≤ 0 := by
      intro x hx
      replace hx := List.mem_cons.1 hx
      rcases hx with rfl | hx
      · rw [L.refl hil]; exact Int.le_refl _
      · exact (List.pairwise_cons.1 hs').1 x hx
    have hcle : ∀ x ∈ i :: rest, c i ≤ c x := fun x hx => generalCompare_class (hile x hx)
    have hupd : ∀ v x, x ∉ i :: rest → (c'.upd i v) x = c' x := by
      intro v x hx
      have : x ≠ i := fun h => hx (h ▸ List.mem_cons_self)
      simp [Classes.upd, this]
    simp only [splitLoop]
    by_cases hci : c i = c prev
    · rw [if_pos hci]
      by_cases hne : generalCompare nodes c i prev ≠ 0
      · rw [if_pos hne]
        have hne' : generalCompare nodes c prev i ≠ 0 := fun h => hne (L.zero_symm hpl hil h)
        obtain ⟨h1, h2, h3, h4, h5, h6, h7, h8⟩ := ih i (last + 1) (c'.upd i (last + 1)) true (by omega)
          (Or.inr ⟨by simp [Classes.upd]; omega, by simp [Classes.upd]⟩) hin' hnd' hs'
        generalize splitLoop nodes c i (last + 1) (c'.upd i (last + 1)) true rest = r at *
        have hui : (c'.upd i (last + 1)) i = last + 1 := by simp [Classes.upd]
        have hrp : r.1 prev = c' prev := by
          rw [h1 prev (fun h => hpi (List.mem_cons_of_mem _ h)), hupd _ _ hpi]
        have hstrict : ∀ x ∈ i :: rest, generalCompare nodes c prev x ≠ 0 :=
          fun x hx => L.strict hpl hil (hin' x hx).1 hprevi hne' (hile x hx)
        have hdiff : ∀ x ∈ i :: rest, r.1 x ≠ c' prev := by
          intro x hx
          have hB' := (hin' x hx).2
          have hBp := (hin prev List.mem_cons_self).2
          rcases h3 x hx with ⟨h, _⟩ | ⟨h, hlt⟩ | h
          · rw [hui] at h; rcases hcp with h' | h' <;> omega
          · rcases hcp with h' | h' <;> omega
          · rcases hcp with h' | h' <;> omega
        refine ⟨?_, by omega, ?_, ?_, ?_, ?_, ?_, ?_⟩
        · intro x hx
          rw [h1 x (fun h => hx (List.mem_cons_of_mem _ h)), hupd _ _ hx]
        · intro x hx
          replace hx := List.mem_cons.1 hx
          rcases hx with rfl | hx
          · exact Or.inl ⟨hrp, L.refl hpl⟩
          · rcases h3 x hx with ⟨h, _⟩ | ⟨h, hlt⟩ | h
            · rw [hui] at h; exact Or.inr (Or.inr ⟨by omega, by omega⟩)
            · exact Or.inr (Or.inl ⟨h, by omega⟩)
            · exact Or.inr (Or.inr ⟨by omega, h.2⟩)
        · intro x hx y hy
          replace hx := List.mem_cons.1 hx
          rcases hx with rfl | hx
          · replace hy := List.mem_cons.1 hy
            rcases hy with rfl | hy
            · simp [L.refl hpl]
            · rw [hrp]
              exact ⟨fun h => absurd h.symm (hdiff y hy), fun h => absurd h (hstrict y hy)⟩
          · replace hy := List.mem_cons.1 hy
            rcases hy with rfl | hy
            · rw [hrp]
              exact ⟨fun h => absurd h (hdiff x hx),
                fun h => absurd (L.zero_symm (hin' x hx).1 hpl h) (hstrict x hx)⟩
            · exact h4 x hx y hy
        · intro x hx hlt
          replace hx := List.mem_cons.1 hx
          rcases hx with rfl | hx
          · omega
          · obtain ⟨y, hy, hyv⟩ := h5 x hx (by omega)
            exact ⟨y, List.mem_cons_of_mem _ hy, hyv⟩
        · intro v hv1 hv2
          by_cases hv : v = last + 1
          · refine ⟨i, by simp, ?_⟩
            rw [h1 i (List.nodup_cons.1 hnd').1, hui, hv]
          · obtain ⟨y, hy, hyv⟩ := h6 v (by omega) hv2
            exact ⟨y, List.mem_cons_of_mem _ hy, hyv⟩
        · intro hf; have := (h7 hf).1; simp at this
        · intro _; right; omega
      · rw [if_neg hne]
        have hz : generalCompare nodes c i prev = 0 := Classical.byContradiction hne
        have hz' : generalCompare nodes c prev i = 0 := L.zero_symm hil hpl hz
        have hui : (c'.upd i (c' prev)) i = c' prev := by simp [Classes.upd]
        obtain ⟨h1, h2, h3, h4, h5, h6, h7, h8⟩ := ih i last (c'.upd i (c' prev)) split hB
          (by rw [hui, hci]; exact hcp) hin' hnd' hs'
        generalize splitLoop nodes c i last (c'.upd i (c' prev)) split rest = r at *
        have hrp : r.1 prev = c' prev := by
          rw [h1 prev (fun h => hpi (List.mem_cons_of_mem _ h)), hupd _ _ hpi]
        have hri : r.1 i = c' prev := by
          rw [h1 i (List.nodup_cons.1 hnd').1, hui]
        have hpx : ∀ x ∈ i :: rest, (r.1 prev = r.1 x ↔ generalCompare nodes c prev x = 0) := by
          intro x hx
          rw [hrp, ← hri, h4 i List.mem_cons_self x hx]
          exact ⟨fun h => L.zero_trans hpl hil (hin' x hx).1 hz' h,
            fun h => L.zero_trans hil hpl (hin' x hx).1 hz h⟩
        refine ⟨?_, h2, ?_, ?_, ?_, ?_, ?_, h8⟩
        · intro x hx
          rw [h1 x (fun h => hx (List.mem_cons_of_mem _ h)), hupd _ _ hx]
        · intro x hx
          replace hx := List.mem_cons.1 hx
          rcases hx with rfl | hx
          · exact Or.inl ⟨hrp, L.refl hpl⟩
          · rcases h3 x hx with ⟨h, hzz⟩ | ⟨h, hlt⟩ | h
            · rw [hui] at h
              exact Or.inl ⟨h, L.zero_trans hpl hil (hin' x hx).1 hz' hzz⟩
            · exact Or.inr (Or.inl ⟨h, by omega⟩)
            · exact Or.inr (Or.inr h)
        · intro x hx y hy
          replace hx := List.mem_cons.1 hx
          rcases hx with rfl | hx
          · replace hy := List.mem_cons.1 hy
            rcases hy with rfl | hy
            · simp [L.refl hpl]
            · exact hpx y hy
          · replace hy := List.mem_cons.1 hy
            rcases hy with rfl | hy
            · rw [eq_comm, hpx x hx]
              exact ⟨fun h => L.zero_symm hpl (hin' x hx).1 h,
                fun h => L.zero_symm (hin' x hx).1 hpl h⟩
            · exact h4 x hx y hy
        · intro x hx hlt
          replace hx := List.mem_cons.1 hx
          rcases hx with rfl | hx
          · omega
          · obtain ⟨y, hy, hyv⟩ := h5 x hx (by omega)
            exact ⟨y, List.mem_cons_of_mem _ hy, hyv⟩
        · intro v hv1 hv2
          obtain ⟨y, hy, hyv⟩ := h6 v hv1 hv2
          exact ⟨y, List.mem_cons_of_mem _ hy, hyv⟩
        · intro hf
          obtain ⟨h9, h10⟩ := h7 hf
          refine ⟨h9, ?_⟩
          have hpx' : ∀ x ∈ i :: rest, c prev = c x → generalCompare nodes c prev x = 0 :=
            fun x hx h => L.zero_trans hpl hil (hin' x hx).1 hz'
              (h10 i List.mem_cons_self x hx (by omega))
          intro x hx y hy h
          replace hx := List.mem_cons.1 hx
          rcases hx with rfl | hx
          · replace hy := List.mem_cons.1 hy
            rcases hy with rfl | hy
            · exact L.refl hpl
            · exact hpx' y hy h
          · replace hy := List.mem_cons.1 hy
            rcases hy with rfl | hy
            · exact L.zero_symm hpl (hin' x hx).1 (hpx' x hx h.symm)
            · exact h10 x hx y hy h
    · rw [if_neg hci]
      have hcl : c prev < c i := by
        have := generalCompare_class hprevi; omega
      have hui : (c'.upd i (c i)) i = c i := by simp [Classes.upd]
      obtain ⟨h1, h2, h3, h4, h5, h6, h7, h8⟩ := ih i last (c'.upd i (c i)) split hB
        (Or.inl hui) hin' hnd' hs'
      generalize splitLoop nodes c i last (c'.upd i (c i)) split rest = r at *
      have hrp : r.1 prev = c' prev := by
        rw [h1 prev (fun h => hpi (List.mem_cons_of_mem _ h)), hupd _ _ hpi]
      have hri : r.1 i = c i := by
        rw [h1 i (List.nodup_cons.1 hnd').1, hui]
      have hzc : ∀ x y, x < nodes.length → y < nodes.length → generalCompare nodes c x y = 0 → c x = c y :=
        fun x y hx hy h => ((generalCompare_zero hg c x y hx hy).1 h).1
      have hstrict : ∀ x ∈ i :: rest, generalCompare nodes c prev x ≠ 0 := by
        intro x hx h
        have := hzc _ _ hpl (hin' x hx).1 h
        have := hcle x hx
        omega
      have hdiff : ∀ x ∈ i :: rest, r.1 x ≠ c' prev := by
        intro x hx
        have hB' := (hin' x hx).2
        have hBp := (hin prev List.mem_cons_self).2
        have hBi := (hin' i List.mem_cons_self).2
        rcases h3 x hx with ⟨h, _⟩ | ⟨h, hlt⟩ | h
        · rw [hui] at h; rcases hcp with h' | h' <;> omega
        · rcases hcp with h' | h' <;> omega
        · rcases hcp with h' | h' <;> omega
      refine ⟨?_, h2, ?_, ?_, ?_, ?_, ?_, h8⟩
      · intro x hx
        rw [h1 x (fun h => hx (List.mem_cons_of_mem _ h)), hupd _ _ hx]
      · intro x hx
        replace hx := List.mem_cons.1 hx
        rcases hx with rfl | hx
        · exact Or.inl ⟨hrp, L.refl hpl⟩
        · rcases h3 x hx with ⟨h, hzz⟩ | ⟨h, hlt⟩ | h
          · rw [hui] at h
            have := hzc _ _ hil (hin' x hx).1 hzz
            exact Or.inr (Or.inl ⟨by omega, by omega⟩)
          · exact Or.inr (Or.inl ⟨h, by omega⟩)
          · exact Or.inr (Or.inr h)
      · intro x hx y hy
        replace hx := List.mem_cons.1 hx
        rcases hx with rfl | hx
        · replace hy := List.mem_cons.1 hy
          rcases hy with rfl | hy
          · simp [L.refl hpl]
          · rw [hrp]
            exact ⟨fun h => absurd h.symm (hdiff y hy), fun h => absurd h (hstrict y hy)⟩
        · replace hy := List.mem_cons.1 hy
          rcases hy with rfl | hy
          · rw [hrp]
            exact ⟨fun h => absurd h (hdiff x hx),
              fun h => absurd (L.zero_symm (hin' x hx).1 hpl h) (hstrict x hx)⟩
          · exact h4 x hx y hy
      · intro x hx hlt
        replace hx := List.mem_cons.1 hx
        rcases hx with rfl | hx
        · omega
        · by_cases hxi : c i < c x
          · obtain ⟨y, hy, hyv⟩ := h5 x hx hxi
            exact ⟨y, List.mem_cons_of_mem _ hy, hyv⟩
          · have := hcle x hx
            exact ⟨i, by simp, by omega⟩
      · intro v hv1 hv2
        obtain ⟨y, hy, hyv⟩ := h6 v hv1 hv2
        exact ⟨y, List.mem_cons_of_mem _ hy, hyv⟩
      · intro hf
        obtain ⟨h9, h10⟩ := h7 hf
        refine ⟨h9, ?_⟩
        intro x hx y hy h
        replace hx := List.mem_cons.1 hx
        rcases hx with rfl | hx
        · replace hy := List.mem_cons.1 hy
          rcases hy with rfl | hy
          · exact L.refl hpl
          · have := hcle y hy; omega
        · replace hy := List.mem_cons.1 hy
          rcases hy with rfl | hy
          · have := hcle x hx; omega
          · exact h10 x hx y hy h

/-! ## All rounds -/

/-- The classes `0 .. last` are all used on the states. -/
structure Onto (n : Nat) (c : Classes) (last : Nat) : Prop where
  le : ∀ x, x < n → c x ≤ last
  onto : ∀ v, v ≤ last → ∃ x, x < n ∧ c x = v

theorem length_le_of_subset {α : Type} [DecidableEq α] : ∀ (l m : List α), l.Nodup → (∀ x ∈ l, x ∈ m) →
    l.length ≤ m.length := by
  intro l
  induction l with
  | nil => intro m _ _; simp
  | cons a l ih =>
    intro m hn hs
    have h1 := ih (m.erase a) (List.nodup_cons.1 hn).2 (by
      intro x hx
      have hxa : x ≠ a := fun h => (List.nodup_cons.1 hn).1 (h ▸ hx)
      exact (List.mem_erase_of_ne hxa).2 (hs x (List.mem_cons_of_mem _ hx)))
    have h2 := hs a List.mem_cons_self
    rw [List.length_erase_of_mem h2] at h1
    have := List.length_pos_of_mem h2
    simp only [List.length_cons]
    omega

theorem Onto.last_lt {n : Nat} {c : Classes} {last : Nat} (h : Onto n c last) : last + 1 ≤ n := by
  have := length_le_of_subset (List.range (last + 1)) ((List.range n).map c) List.nodup_range (by
    intro v hv
    simp only [List.mem_range] at hv
    obtain ⟨x, hx, hc⟩ := h.onto v (by omega)
    exact List.mem_map.2 ⟨x, List.mem_range.2 hx, hc⟩)
  simpa using this

/-- A relation that only relates states with the same face and related transitions. -/
structure Bisim (nodes : List Node) (R : Nat → Nat → Prop) : Prop where
  dom : ∀ x y, R x y → x < nodes.length ∧ y < nodes.length
  face : ∀ x y, R x y → face (nodeAt nodes x) = face (nodeAt nodes y)
  next : ∀ x y t, R x y → match nodeStep nodes x t, nodeStep nodes y t with
    | none, none => True
    | some x', some y' => R x' y'
    | _, _ => False

theorem nodeStep_some {nt : Nat} {nodes : List Node} (hg : GoodNodes nt nodes) {x t d : Nat}
    (hx : x < nodes.length) (h : nodeStep nodes x t = some d) : d < nodes.length := by
  unfold nodeStep at h
  apply (hg x hx).2
  cases hm : (nodeAt nodes x).map[t]? with
  | none => rw [hm] at h; simp at h
  | some v => rw [hm] at h; simp at h; rw [← h]; exact List.mem_of_getElem? hm

theorem maps_eq_iff {nt : Nat} {nodes : List Node} (hg : GoodNodes nt nodes) (c : Classes) {x y : Nat}
    (hx : x < nodes.length) (hy : y < nodes.length) :
    (nodeAt nodes x).map.map (destClass c) = (nodeAt nodes y).map.map (destClass c) ↔
      ∀ t, (nodeStep nodes x t).map c = (nodeStep nodes y t).map c := by
  constructor
  · intro h t
    have ht := congrArg (fun l => l[t]?) h
    simp only [List.getElem?_map] at ht
    unfold nodeStep
    cases h1 : (nodeAt nodes x).map[t]? with
    | none =>
      rw [h1] at ht
      cases h2 : (nodeAt nodes y).map[t]? with
      | none => rfl
      | some v => rw [h2] at ht; simp at ht
    | some u =>
      rw [h1] at ht
      cases h2 : (nodeAt nodes y).map[t]? with
      | none => rw [h2] at ht; simp at ht
      | some v =>
        rw [h2] at ht
        simp only [Option.map_some, Option.some.injEq] at ht
        cases u <;> cases v <;> simp_all [destClass] <;> omega
  · intro h
    apply List.ext_getElem?
    intro t
    simp only [List.getElem?_map]
    have ht := h t
    unfold nodeStep at ht
    have hlen : (nodeAt nodes x).map.length = (nodeAt nodes y).map.length := by
      rw [(hg x hx).1, (hg y hy).1]
    by_cases hlt : t < (nodeAt nodes x).map.length
    · have hlt' : t < (nodeAt nodes y).map.length := by omega
      rw [List.getElem?_eq_getElem hlt, List.getElem?_eq_getElem hlt'] at ht ⊢
      simp only [Option.join_some, Option.map_some, Option.some.injEq] at ht ⊢
      revert ht
      cases (nodeAt nodes x).map[t] <;> cases (nodeAt nodes y).map[t] <;> simp [destClass] <;> omega
    · rw [List.getElem?_eq_none (by omega), List.getElem?_eq_none (by omega)]

structure PartInv (nodes : List Node) (seq : List Nat) (c : Classes) (last : Nat) : Prop where
  perm : seq.Perm (List.range nodes.length)
  onto : Onto nodes.length c last
  face : ∀ x y, x < nodes.length → y < nodes.length → c x = c y →
    Jbo.Dfasyn.face (nodeAt nodes x) = Jbo.Dfasyn.face (nodeAt nodes y)
  coarse : ∀ R, Bisim nodes R → ∀ x y, R x y → c x = c y

theorem assignInitial_inv (q : Sorter) (nodes : List Node) (hpos : 0 < nodes.length) :
    PartInv nodes (assignInitial q nodes (List.range nodes.length)).1
      (assignInitial q nodes (List.range nodes.length)).2.1
      (assignInitial q nodes (List.range nodes.length)).2.2 := by
  have L := initialCompare_lawful
  unfold assignInitial
  generalize hseq : q.run (fun i j => decide (initialCompare (nodeAt nodes i) (nodeAt nodes j) ≤ 0))
    (List.range nodes.length) = seq
  have hperm : seq.Perm (List.range nodes.length) := by rw [← hseq]; exact q.perm _ _
  have hsorted : seq.Pairwise (fun i j => initialCompare (nodeAt nodes i) (nodeAt nodes j) ≤ 0) := by
    have := q.sorted (fun i j => decide (initialCompare (nodeAt nodes i) (nodeAt nodes j) ≤ 0))
      (List.range nodes.length)
      (by
        intro a _ b _ d _ h1 h2
        simp only [decide_eq_true_eq] at h1 h2 ⊢
        exact L.trans _ _ _ trivial trivial trivial h1 h2)
      (by
        intro a _ b _
        simp only [decide_eq_true_eq]
        exact L.total _ _ trivial trivial)
    rw [hseq] at this
    exact this.imp (fun h => by simpa using h)
  have hmem : ∀ x, x ∈ seq ↔ x < nodes.length := fun x => by rw [hperm.mem_iff]; simp
  have hnd : seq.Nodup := hperm.nodup_iff.2 List.nodup_range
  cases seq with
  | nil => have := hperm.length_eq; simp at this; omega
  | cons i rest =>
    obtain ⟨h1, h2, h3, h4, h5⟩ := assignLoop_spec nodes rest i 0 (fun _ => 0) rfl hnd hsorted
    refine ⟨hperm, ⟨fun x hx => (h3 x ((hmem x).2 hx)).2, fun v hv => ?_⟩, fun x y hx hy h => ?_, ?_⟩
    · obtain ⟨x, hx, hxv⟩ := h5 v (Nat.zero_le _) hv
      exact ⟨x, (hmem x).1 hx, hxv⟩
    · exact (initialCompare_zero _ _).1 ((h4 x ((hmem x).2 hx) y ((hmem y).2 hy)).1 h)
    · intro R hR x y hxy
      obtain ⟨hx, hy⟩ := hR.dom x y hxy
      exact (h4 x ((hmem x).2 hx) y ((hmem y).2 hy)).2 ((initialCompare_zero _ _).2 (hR.face x y hxy))

/-- The classes do not change any more. -/
def Stable (nodes : List Node) (c : Classes) : Prop :=
  ∀ x y, x < nodes.length → y < nodes.length → c x = c y →
    ∀ t, (nodeStep nodes x t).map c = (nodeStep nodes y t).map c

theorem splitClasses_inv (q : Sorter) {nt : Nat} {nodes : List Node} (hg : GoodNodes nt nodes)
    (hpos : 0 < nodes.length) (seq : List Nat) (c : Classes) (last : Nat) (h : PartInv nodes seq c last) :
    let r := splitClasses q nodes seq c last
    PartInv nodes r.1 r.2.1 r.2.2.1 ∧ (r.2.2.2 = true → last < r.2.2.1) ∧
      (r.2.2.2 = false → Stable nodes r.2.1) := by
  have L := generalCompare_lawful hg c
  unfold splitClasses
  generalize hseq : q.run (fun i j => decide (generalCompare nodes c i j ≤ 0)) seq = seq'
  have hperm0 : seq'.Perm seq := by rw [← hseq]; exact q.perm _ _
  have hperm := hperm0.trans h.perm
  have hmem0 : ∀ x, x ∈ seq ↔ x < nodes.length := fun x => by rw [h.perm.mem_iff]; simp
  have hsorted : seq'.Pairwise (fun i j => generalCompare nodes c i j ≤ 0) := by
    have := q.sorted (fun i j => decide (generalCompare nodes c i j ≤ 0)) seq
      (by
        intro a ha b hb d hd h1 h2
        simp only [decide_eq_true_eq] at h1 h2 ⊢
        exact L.trans _ _ _ ((hmem0 a).1 ha) ((hmem0 b).1 hb) ((hmem0 d).1 hd) h1 h2)
      (by
        intro a ha b hb
        simp only [decide_eq_true_eq]
        exact L.total _ _ ((hmem0 a).1 ha) ((hmem0 b).1 hb))
    rw [hseq] at this
    exact this.imp (fun h => by simpa using h)
  have hmem : ∀ x, x ∈ seq' ↔ x < nodes.length := fun x => by rw [hperm.mem_iff]; simp
  have hnd : seq'.Nodup := hperm.nodup_iff.2 List.nodup_range
  cases seq' with
  | nil => have := hperm.length_eq; simp at this; omega
  | cons i rest =>
    have hci : (c.upd i (c i)) i = c i := by simp [Classes.upd]
    obtain ⟨h1, h2, h3, h4, h5, h6, h7, h8⟩ := splitLoop_spec hg c last rest i last (c.upd i (c i)) false
      (Nat.le_refl _) (Or.inl hci)
      (fun x hx => ⟨(hmem x).1 hx, h.onto.le x ((hmem x).1 hx)⟩) hnd hsorted
    simp only
    generalize splitLoop nodes c i last (c.upd i (c i)) false rest = r at *
    have hil : i < nodes.length := (hmem i).1 List.mem_cons_self
    have hri : r.1 i = c i := by rw [h1 i (List.nodup_cons.1 hnd).1, hci]
    have hfirst : ∀ x, x < nodes.length → c i ≤ c x := by
      intro x hx
      rcases List.mem_cons.1 ((hmem x).2 hx) with rfl | hx'
      · exact Nat.le_refl _
      · exact generalCompare_class ((List.pairwise_cons.1 hsorted).1 x hx')
    have heq : ∀ x y, x < nodes.length → y < nodes.length →
        (r.1 x = r.1 y ↔ generalCompare nodes c x y = 0) :=
      fun x y hx hy => h4 x ((hmem x).2 hx) y ((hmem y).2 hy)
    refine ⟨⟨hperm, ⟨?_, ?_⟩, ?_, ?_⟩, ?_, ?_⟩
    · intro x hx
      change r.1 x ≤ r.2.1
      have hb := h.onto.le x hx
      have hbi := h.onto.le i hil
      rcases h3 x ((hmem x).2 hx) with ⟨h, _⟩ | ⟨h, _⟩ | h
      · rw [hci] at h; omega
      · omega
      · exact h.2
    · intro v hv
      by_cases hvl : last < v
      · obtain ⟨x, hx, hxv⟩ := h6 v hvl hv
        exact ⟨x, (hmem x).1 hx, hxv⟩
      · obtain ⟨x, hx, hxv⟩ := h.onto.onto v (by omega)
        by_cases hlt : c i < c x
        · obtain ⟨y, hy, hyv⟩ := h5 x ((hmem x).2 hx) hlt
          exact ⟨y, (hmem y).1 hy, by omega⟩
        · have := hfirst x hx
          exact ⟨i, hil, by omega⟩
    · intro x y hx hy hxy
      exact h.face x y hx hy ((generalCompare_zero hg c x y hx hy).1 ((heq x y hx hy).1 hxy)).1
    · intro R hR x y hxy
      obtain ⟨hx, hy⟩ := hR.dom x y hxy
      rw [heq x y hx hy, generalCompare_zero hg c x y hx hy]
      refine ⟨h.coarse R hR x y hxy, (maps_eq_iff hg c hx hy).2 (fun t => ?_)⟩
      have hn := hR.next x y t hxy
      revert hn
      cases nodeStep nodes x t with
      | none => cases nodeStep nodes y t <;> simp
      | some x' =>
        cases nodeStep nodes y t with
        | none => simp
        | some y' => intro hn; simp [h.coarse R hR x' y' hn]
    · intro hx
      rcases h8 hx with hf | hf
      · simp at hf
      · exact hf
    · intro hf x y hx hy hxy t
      have hz := (heq x y hx hy).1 hxy
      have hm := (maps_eq_iff hg c hx hy).1 ((generalCompare_zero hg c x y hx hy).1 hz).2 t
      have hcr : ∀ u v, u < nodes.length → v < nodes.length → c u = c v → r.1 u = r.1 v :=
        fun u v hu hv huv => (heq u v hu hv).2
          ((h7 hf).2 u ((hmem u).2 hu) v ((hmem v).2 hv) huv)
      revert hm
      cases hsx : nodeStep nodes x t with
      | none => cases nodeStep nodes y t <;> simp
      | some x' =>
        cases hsy : nodeStep nodes y t with
        | none => simp
        | some y' =>
          intro hm
          simp only [Option.map_some, Option.some.injEq] at hm ⊢
          exact hcr _ _ (nodeStep_some hg hx hsx) (nodeStep_some hg hy hsy) hm

theorem splitAll_ok (q : Sorter) {nt : Nat} {nodes : List Node} (hg : GoodNodes nt nodes)
    (hpos : 0 < nodes.length) : ∀ (fuel : Nat) (seq : List Nat) (c : Classes) (last : Nat),
    PartInv nodes seq c last → nodes.length ≤ fuel + last →
    ∃ c' last' seq', splitAll q nodes fuel seq c last = some (c', last') ∧
      PartInv nodes seq' c' last' ∧ Stable nodes c' := by
  intro fuel
  induction fuel with
  | zero =>
    intro seq c last h hle
    have := h.onto.last_lt; omega
  | succ fuel ih =>
    intro seq c last h hle
    obtain ⟨h1, h2, h3⟩ := splitClasses_inv q hg hpos seq c last h
    unfold splitAll
    generalize splitClasses q nodes seq c last = r at *
    obtain ⟨seq', c', last', sp⟩ := r
    simp only at h1 h2 h3 ⊢
    cases sp with
    | true =>
      simp only [if_true]
      exact ih seq' c' last' h1 (by have := h2 rfl; omega)
    | false =>
      simp only [Bool.false_eq_true, if_false]
      exact ⟨c', last', seq', rfl, h1, h3 rfl⟩

/-! ## Renumbering -/

theorem repOf_spec (c : Classes) (n i : Nat) (hi : i < n) :
    repOf c n i < n ∧ c (repOf c n i) = c i ∧ isRep c (repOf c n i) = true ∧ repOf c n i ≤ i := by
  unfold repOf
  cases hf : (List.range n).find? (fun j => c j == c i) with
  | none =>
    have := List.find?_eq_none.1 hf i (List.mem_range.2 hi)
    simp at this
  | some r =>
    have h1 := List.find?_some hf
    have h2 := List.mem_of_find?_eq_some hf
    simp only [beq_iff_eq, List.mem_range] at h1 h2
    have h3 : ∀ j, j < r → c j ≠ c i := by
      intro j hj
      have := (List.find?_range_eq_some.1 hf).2.2 j hj
      simpa using this
    refine ⟨h2, h1, ?_, ?_⟩
    · unfold isRep
      rw [List.all_eq_true]
      intro j hj
      simp only [Option.getD_some, List.mem_range] at hj ⊢
      simp only [bne_iff_ne, ne_eq]
      rw [h1]; exact h3 j hj
    · rcases Nat.lt_or_ge i r with h | h
      · exact absurd rfl (h3 i h)
      · exact h

theorem repOf_congr (c : Classes) (n i j : Nat) (hi : i < n) (hij : c i = c j) :
    repOf c n i = repOf c n j := by
  unfold repOf
  rw [hij]
  cases hf : (List.range n).find? (fun k => c k == c j) with
  | none =>
    have := List.find?_eq_none.1 hf i (List.mem_range.2 hi)
    simp [hij] at this
  | some r => rfl

/-- In the list of the elements of `range n` with a property, the element `r` is preceded by the
elements below `r`. -/
theorem filter_range_getElem (p : Nat → Bool) (n r : Nat) (hr : r < n) (hp : p r = true) :
    ((List.range n).filter p)[((List.range r).filter p).length]? = some r := by
  have hsplit : List.range n = List.range r ++ r :: (List.range' (r + 1) (n - r - 1)) := by
    have h1 : n = r + (1 + (n - r - 1)) := by omega
    conv => lhs; rw [h1]
    rw [List.range_eq_range', List.range_eq_range', ← List.range'_append_1]
    congr 1
    rw [Nat.zero_add, Nat.add_comm 1, List.range'_succ]
  rw [hsplit, List.filter_append, List.filter_cons_of_pos hp]
  rw [List.getElem?_append_right (Nat.le_refl _)]
  simp

theorem newIndex_get (c : Classes) (n i : Nat) (hi : i < n) :
    ((List.range n).filter (isRep c))[newIndex c n i]? = some (repOf c n i) := by
  obtain ⟨h1, h2, h3, h4⟩ := repOf_spec c n i hi
  exact filter_range_getElem (isRep c) n _ h1 h3

theorem newIndex_lt (c : Classes) (nodes : List Node) (i : Nat) (hi : i < nodes.length) :
    newIndex c nodes.length i < (compressStates nodes c).length := by
  have := newIndex_get c nodes.length i hi
  unfold compressStates
  rw [List.length_map]
  exact (List.getElem?_eq_some_iff.1 this).1

theorem newIndex_eq_iff (c : Classes) (n i j : Nat) (hi : i < n) (hj : j < n) :
    newIndex c n i = newIndex c n j ↔ c i = c j := by
  constructor
  · intro h
    have h1 := newIndex_get c n i hi
    rw [h, newIndex_get c n j hj] at h1
    have h2 := (repOf_spec c n i hi).2.1
    have h3 := (repOf_spec c n j hj).2.1
    rw [← h2, ← h3, Option.some.inj h1]
  · intro h
    unfold newIndex
    rw [repOf_congr c n i j hi h]

theorem nodeAt_compress (c : Classes) (nodes : List Node) (i : Nat) (hi : i < nodes.length) :
    nodeAt (compressStates nodes c) (newIndex c nodes.length i) =
      { nodeAt nodes (repOf c nodes.length i) with
        map := (nodeAt nodes (repOf c nodes.length i)).map.map (fun d => d.map (newIndex c nodes.length)) } := by
  have h := newIndex_get c nodes.length i hi
  have h2 : (compressStates nodes c)[newIndex c nodes.length i]? = some
      { nodeAt nodes (repOf c nodes.length i) with
        map := (nodeAt nodes (repOf c nodes.length i)).map.map (fun d => d.map (newIndex c nodes.length)) } := by
    unfold compressStates
    simp only [List.getElem?_map, h, Option.map_some]
  conv => lhs; unfold nodeAt
  rw [List.getD_eq_getElem?_getD, h2]
  rfl

theorem newIndex_zero (c : Classes) (n : Nat) (hn : 0 < n) : newIndex c n 0 = 0 := by
  have h := (repOf_spec c n 0 hn).2.2.2
  have : repOf c n 0 = 0 := by omega
  unfold newIndex
  rw [this]; rfl

/-- The number of representatives. -/
theorem compress_length (c : Classes) (nodes : List Node) (last : Nat) (h : Onto nodes.length c last) :
    (compressStates nodes c).length = last + 1 := by
  have hl : (compressStates nodes c).length = ((List.range nodes.length).filter (isRep c)).length := by
    simp [compressStates]
  rw [hl]
  apply Nat.le_antisymm
  · have := length_le_of_subset (((List.range nodes.length).filter (isRep c)).map c)
      (List.range (last + 1)) (by
        rw [List.Nodup, List.pairwise_map]
        refine List.Pairwise.imp_of_mem ?_ (List.Pairwise.filter _ List.pairwise_lt_range)
        intro i j _ hj hij hc
        have h2 := (List.mem_filter.1 hj).2
        unfold isRep at h2
        have := List.all_eq_true.1 h2 i (List.mem_range.2 hij)
        simp [hc] at this) (by
        intro v hv
        obtain ⟨x, hx, rfl⟩ := List.mem_map.1 hv
        have := h.le x (by simpa using (List.mem_filter.1 hx).1)
        exact List.mem_range.2 (by omega))
    simpa using this
  · have := length_le_of_subset (List.range (last + 1))
      (((List.range nodes.length).filter (isRep c)).map c) List.nodup_range (by
        intro v hv
        obtain ⟨x, hx, hxv⟩ := h.onto v (by have := List.mem_range.1 hv; omega)
        obtain ⟨r1, r2, r3, _⟩ := repOf_spec c nodes.length x hx
        exact List.mem_map.2 ⟨repOf c nodes.length x,
          List.mem_filter.2 ⟨List.mem_range.2 r1, r3⟩, by rw [r2, hxv]⟩)
    simpa using this

/-! ## The theorems -/

/-- What a caller sees after a word, starting in `x`: nothing if the automaton jams, else the result
and, with a result, the attribute. -/
def obs (nodes : List Node) (x : Nat) (w : List Nat) : Option (Option Name × Option Name) :=
  (run (nodeStep nodes) x w).map (fun s => face (nodeAt nodes s))

theorem run_lt {nt : Nat} {nodes : List Node} (hg : GoodNodes nt nodes) {x : Nat} (hx : x < nodes.length)
    (w : List Nat) (s : Nat) (h : run (nodeStep nodes) x w = some s) : s < nodes.length := by
  induction w generalizing s with
  | nil => simp only [run, Option.some.injEq] at h; omega
  | cons t w ih =>
    rw [run] at h
    cases hr : run (nodeStep nodes) x w with
    | none => rw [hr] at h; simp at h
    | some s' => rw [hr] at h; exact nodeStep_some hg (ih s' hr) h

theorem compress_step {nt : Nat} {nodes : List Node} (hg : GoodNodes nt nodes) {c : Classes}
    (hst : Stable nodes c) {x t : Nat} (hx : x < nodes.length) :
    nodeStep (compressStates nodes c) (newIndex c nodes.length x) t =
      (nodeStep nodes x t).map (newIndex c nodes.length) := by
  obtain ⟨r1, r2, _, _⟩ := repOf_spec c nodes.length x hx
  have hs := hst (repOf c nodes.length x) x r1 hx r2 t
  have h1 : nodeStep (compressStates nodes c) (newIndex c nodes.length x) t =
      (nodeStep nodes (repOf c nodes.length x) t).map (newIndex c nodes.length) := by
    conv => lhs; unfold nodeStep
    rw [nodeAt_compress c nodes x hx]
    unfold nodeStep
    simp only [List.getElem?_map]
    cases (nodeAt nodes (repOf c nodes.length x)).map[t]? with
    | none => rfl
    | some d => cases d <;> rfl
  rw [h1]
  revert hs
  cases h2 : nodeStep nodes (repOf c nodes.length x) t with
  | none => cases nodeStep nodes x t <;> simp
  | some u =>
    cases h3 : nodeStep nodes x t with
    | none => simp
    | some v =>
      intro hs
      simp only [Option.map_some, Option.some.injEq] at hs ⊢
      exact (newIndex_eq_iff c _ _ _ (nodeStep_some hg r1 h2) (nodeStep_some hg hx h3)).2 hs

theorem compress_run {nt : Nat} {nodes : List Node} (hg : GoodNodes nt nodes) {c : Classes}
    (hst : Stable nodes c) {x : Nat} (hx : x < nodes.length) (w : List Nat) :
    run (nodeStep (compressStates nodes c)) (newIndex c nodes.length x) w =
      (run (nodeStep nodes) x w).map (newIndex c nodes.length) := by
  induction w with
  | nil => rfl
  | cons t w ih =>
    rw [run, ih, run]
    cases hr : run (nodeStep nodes) x w with
    | none => rfl
    | some s =>
      simp only [Option.map_some, Option.bind_some]
      exact compress_step hg hst (run_lt hg hx w s hr)

theorem run_append (step : Nat → Nat → Option Nat) (x t : Nat) (w : List Nat) :
    run step x (w ++ [t]) = (step x t).bind (fun y => run step y w) := by
  induction w with
  | nil => simp only [List.nil_append, run, Option.bind_some]; cases step x t <;> rfl
  | cons u w ih =>
    rw [List.cons_append, run, ih]
    cases step x t with
    | none => rfl
    | some y => simp [run]

/-- States that look the same after every word form a bisimulation. -/
theorem obs_bisim {nt : Nat} {nodes : List Node} (hg : GoodNodes nt nodes) :
    Bisim nodes (fun x y => x < nodes.length ∧ y < nodes.length ∧ ∀ w, obs nodes x w = obs nodes y w) := by
  constructor
  · rintro x y ⟨h1, h2, _⟩; exact ⟨h1, h2⟩
  · rintro x y ⟨_, _, h⟩
    have := h []
    simpa [obs, run] using this
  · rintro x y t ⟨hx, hy, h⟩
    have key : ∀ w, (nodeStep nodes x t).bind (fun z => obs nodes z w) =
        (nodeStep nodes y t).bind (fun z => obs nodes z w) := by
      intro w
      have := h (w ++ [t])
      unfold obs at this ⊢
      rw [run_append, run_append] at this
      revert this
      cases nodeStep nodes x t <;> cases nodeStep nodes y t <;> simp
    have k0 := key []
    revert k0 key
    cases hsx : nodeStep nodes x t with
    | none =>
      cases hsy : nodeStep nodes y t with
      | none => simp
      | some y' => intro _ h; simp [obs, run] at h
    | some x' =>
      cases hsy : nodeStep nodes y t with
      | none => intro _ h; simp [obs, run] at h
      | some y' =>
        intro key _
        exact ⟨nodeStep_some hg hx hsx, nodeStep_some hg hy hsy, key⟩

/-- What a run of `compress_dfa` yields. -/
structure Compressed (nodes nodes' : List Node) (count : Nat) (idx : Nat → Nat) : Prop where
  len : nodes'.length = count
  le : nodes'.length ≤ nodes.length
  start : idx 0 = 0
  lt : ∀ x, x < nodes.length → idx x < nodes'.length
  onto : ∀ y, y < nodes'.length → ∃ x, x < nodes.length ∧ idx x = y
  same : ∀ x, x < nodes.length → ∀ w, obs nodes' (idx x) w = obs nodes x w
  merged : ∀ x y, x < nodes.length → y < nodes.length →
    (idx x = idx y ↔ ∀ w, obs nodes x w = obs nodes y w)

theorem compressDfa_total (q : Sorter) {nt : Nat} {nodes : List Node} (hg : GoodNodes nt nodes)
    (hpos : 0 < nodes.length) :
    ∃ c last seq, compressDfa q nodes = some (compressStates nodes c, last + 1) ∧
      PartInv nodes seq c last ∧ Stable nodes c := by
  have h0 := assignInitial_inv q nodes hpos
  unfold compressDfa
  rw [if_neg (by omega)]
  generalize assignInitial q nodes (List.range nodes.length) = r at *
  obtain ⟨seq, c, last⟩ := r
  simp only at h0 ⊢
  obtain ⟨c', last', seq', h1, h2, h3⟩ := splitAll_ok q hg hpos (nodes.length + 1) seq c last h0 (by omega)
  rw [h1]
  exact ⟨c', last', seq', rfl, h2, h3⟩

/-- **C27**: merging states ends for every automaton and every `qsort`; the start state stays number
0, the reported number of states is right, after every word the new automaton jams, or shows the
result and (if there is one) the attribute, exactly as the old one does, and two states are merged
exactly when they cannot be told apart by any word.

Partial: the attribute of a state without a result is not kept (`attribute_of_nonaccepting_lost`). -/
theorem compressDfa_correct_partial (q : Sorter) (nt : Nat) (nodes : List Node) (hg : GoodNodes nt nodes)
    (hpos : 0 < nodes.length) :
    ∃ nodes' count idx, compressDfa q nodes = some (nodes', count) ∧ Compressed nodes nodes' count idx := by
  obtain ⟨c, last, seq, h1, h2, h3⟩ := compressDfa_total q hg hpos
  refine ⟨_, _, newIndex c nodes.length, h1, ?_⟩
  have hlen := compress_length c nodes last h2.onto
  have hsame : ∀ x, x < nodes.length → ∀ w,
      obs (compressStates nodes c) (newIndex c nodes.length x) w = obs nodes x w := by
    intro x hx w
    unfold obs
    rw [compress_run hg h3 hx w]
    cases hr : run (nodeStep nodes) x w with
    | none => rfl
    | some s =>
      have hs := run_lt hg hx w s hr
      simp only [Option.map_some, Option.some.injEq]
      rw [nodeAt_compress c nodes s hs]
      obtain ⟨r1, r2, _⟩ := repOf_spec c nodes.length s hs
      exact h2.face _ _ r1 hs r2
  refine ⟨hlen, by rw [hlen]; exact h2.onto.last_lt, newIndex_zero c _ hpos,
    fun x hx => newIndex_lt c nodes x hx, ?_, hsame, ?_⟩
  · intro y hy
    have hy' : y < ((List.range nodes.length).filter (isRep c)).length := by
      simpa [compressStates] using hy
    have hmem := List.getElem_mem hy'
    generalize hz : ((List.range nodes.length).filter (isRep c))[y] = z at hmem
    obtain ⟨hz1, hz2⟩ := List.mem_filter.1 hmem
    have hzn := List.mem_range.1 hz1
    refine ⟨z, hzn, ?_⟩
    obtain ⟨r1, r2, r3, r4⟩ := repOf_spec c nodes.length z hzn
    have hrz : repOf c nodes.length z = z := by
      rcases Nat.lt_or_ge (repOf c nodes.length z) z with h | h
      · unfold isRep at hz2
        have := List.all_eq_true.1 hz2 _ (List.mem_range.2 h)
        simp [r2] at this
      · omega
    have hg1 := newIndex_get c nodes.length z hzn
    rw [hrz] at hg1
    have hnd : ((List.range nodes.length).filter (isRep c)).Nodup := List.Pairwise.filter _ List.nodup_range
    obtain ⟨hlt, hge⟩ := List.getElem?_eq_some_iff.1 hg1
    exact (List.getElem_inj hnd).1 (hge.trans hz.symm)
  · intro x y hx hy
    rw [newIndex_eq_iff c _ _ _ hx hy]
    constructor
    · intro h w
      rw [← hsame x hx w, ← hsame y hy w, (newIndex_eq_iff c _ _ _ hx hy).2 h]
    · intro h
      exact h2.coarse _ (obs_bisim hg) x y ⟨hx, hy, h⟩

/-- The new automaton is well formed again. -/
theorem compressDfa_good (q : Sorter) {nt : Nat} {nodes nodes' : List Node} {count : Nat}
    (hg : GoodNodes nt nodes) (hpos : 0 < nodes.length) (h : compressDfa q nodes = some (nodes', count)) :
    GoodNodes nt nodes' ∧ 0 < nodes'.length := by
  obtain ⟨c, last, seq, h1, h2, h3⟩ := compressDfa_total q hg hpos
  rw [h] at h1
  simp only [Option.some.injEq, Prod.mk.injEq] at h1
  obtain ⟨rfl, rfl⟩ := h1
  refine ⟨?_, by rw [compress_length c nodes last h2.onto]; omega⟩
  intro i hi
  have hi' : i < ((List.range nodes.length).filter (isRep c)).length := by
    simpa [compressStates] using hi
  have hmem := List.getElem_mem hi'
  generalize hz : ((List.range nodes.length).filter (isRep c))[i] = z at hmem
  have hzn := List.mem_range.1 (List.mem_filter.1 hmem).1
  have hnode : nodeAt (compressStates nodes c) i = { nodeAt nodes z with
      map := (nodeAt nodes z).map.map (fun d => d.map (newIndex c nodes.length)) } := by
    have : (compressStates nodes c)[i]? = some { nodeAt nodes z with
      map := (nodeAt nodes z).map.map (fun d => d.map (newIndex c nodes.length)) } := by
      unfold compressStates
      simp only [List.getElem?_map, List.getElem?_eq_getElem hi', hz, Option.map_some]
    conv => lhs; unfold nodeAt
    rw [List.getD_eq_getElem?_getD, this]
    rfl
  rw [hnode]
  refine ⟨by simp [(hg z hzn).1], fun d hd => ?_⟩
  simp only [List.mem_map] at hd
  obtain ⟨u, hu, hd⟩ := hd
  cases u with
  | none => simp at hd
  | some u =>
    simp only [Option.map_some, Option.some.injEq] at hd
    rw [← hd]
    exact newIndex_lt c nodes u ((hg z hzn).2 u hu)

/-! ## A sorting function, and the defect -/

def insertSorted (le : Nat → Nat → Bool) (x : Nat) : List Nat → List Nat
  | [] => [x]
  | y :: ys => if le x y then x :: y :: ys else y :: insertSorted le x ys

theorem insertSorted_perm (le : Nat → Nat → Bool) (x : Nat) (l : List Nat) :
    (insertSorted le x l).Perm (x :: l) := by
  induction l with
  | nil => exact .refl _
  | cons y ys ih =>
    rw [insertSorted]
    split
    · exact .refl _
    · exact (ih.cons y).trans (.swap _ _ _)

/-- Insertion sort is a possible `qsort`. -/
def insertionSorter : Sorter where
  run le l := l.foldr (insertSorted le) []
  perm le l := by
    induction l with
    | nil => exact .refl _
    | cons x l ih => exact (insertSorted_perm le x _).trans (ih.cons x)
  sorted le l := by
    induction l with
    | nil => intro _ _; exact .nil
    | cons x l ih =>
      intro htr htot
      have hs := ih (fun a ha b hb c hc => htr a (List.mem_cons_of_mem _ ha) b (List.mem_cons_of_mem _ hb)
        c (List.mem_cons_of_mem _ hc)) (fun a ha b hb => htot a (List.mem_cons_of_mem _ ha) b
        (List.mem_cons_of_mem _ hb))
      have hp : ∀ y, y ∈ l.foldr (insertSorted le) [] → y ∈ l := by
        have : (l.foldr (insertSorted le) []).Perm l := by
          clear hs ih htr htot
          induction l with
          | nil => exact .refl _
          | cons x l ih => exact (insertSorted_perm le x _).trans (ih.cons x)
        intro y; exact this.mem_iff.1
      rw [List.foldr_cons]
      generalize l.foldr (insertSorted le) [] = m at hs hp
      induction m with
      | nil => simp [insertSorted]
      | cons y ys ihm =>
        rw [insertSorted]
        have hym : y ∈ x :: l := List.mem_cons_of_mem _ (hp y List.mem_cons_self)
        split
        · rename_i hle
          refine List.pairwise_cons.2 ⟨fun z hz => ?_, hs⟩
          rcases List.mem_cons.1 hz with rfl | hz
          · exact hle
          · exact htr x List.mem_cons_self y hym z
              (List.mem_cons_of_mem _ (hp z (List.mem_cons_of_mem _ hz))) hle
              ((List.pairwise_cons.1 hs).1 z hz)
        · rename_i hle
          refine List.pairwise_cons.2 ⟨fun z hz => ?_, ?_⟩
          · rcases List.mem_cons.1 ((insertSorted_perm le x ys).mem_iff.1 hz) with rfl | hz
            · rcases htot z List.mem_cons_self y hym with h | h
              · exact absurd h hle
              · exact h
            · exact (List.pairwise_cons.1 hs).1 z hz
          · exact ihm (List.pairwise_cons.1 hs).2 (fun z hz => hp z (List.mem_cons_of_mem _ hz))

/-- A decidable version of `GoodNodes`. -/
theorem good_of_all (nt : Nat) (nodes : List Node) (h : nodes.all (fun nd => nd.map.length == nt &&
    nd.map.all (fun d => match d with | none => true | some d => decide (d < nodes.length))) = true) :
    GoodNodes nt nodes := by
  intro i hi
  have hm : nodeAt nodes i ∈ nodes := by
    unfold nodeAt
    rw [List.getD_eq_getElem?_getD, List.getElem?_eq_getElem hi]
    exact List.getElem_mem hi
  have h1 := List.all_eq_true.1 h _ hm
  rw [Bool.and_eq_true, beq_iff_eq] at h1
  refine ⟨h1.1, fun d hd => ?_⟩
  have := List.all_eq_true.1 h1.2 _ hd
  simpa using this

/-- Five states: 1 and 2 are equivalent because 3 and 4 are. -/
def mergeDemo : List Node :=
  [⟨1, [some 1, some 2], none, some false, none⟩, ⟨2, [some 3, none], none, some false, none⟩,
   ⟨4, [some 4, none], none, some false, none⟩,
   ⟨8, [none, none], some "A".toList, some false, some "X".toList⟩,
   ⟨16, [none, none], some "A".toList, some true, some "X".toList⟩]

example : GoodNodes 2 mergeDemo ∧ 0 < mergeDemo.length :=
  ⟨good_of_all _ _ (by decide +kernel), by decide⟩
example : compressDfa insertionSorter mergeDemo = some
    ([⟨1, [some 1, some 1], none, some false, none⟩, ⟨2, [some 2, none], none, some false, none⟩,
      ⟨8, [none, none], some "A".toList, some false, some "X".toList⟩], 3) := by decide +kernel

/-- **C27, what is missing**: two states without a result are merged although their attributes differ
(`compdfa.c:158` returns before looking at the attribute), so after the word `1` the attribute `Y`
turns into `X`. -/
theorem attribute_of_nonaccepting_lost :
    let nodes : List Node :=
      [⟨1, [some 1, some 2], none, some false, none⟩,
       ⟨2, [some 3, none], none, some false, some "X".toList⟩,
       ⟨4, [some 3, none], none, some false, some "Y".toList⟩,
       ⟨8, [none, none], some "A".toList, some false, none⟩]
    GoodNodes 2 nodes ∧
    (run (nodeStep nodes) 0 [1]).map (fun s => (nodeAt nodes s).attrib) = some (some "Y".toList) ∧
    (compressDfa insertionSorter nodes).map (fun r =>
      (run (nodeStep r.1) 0 [1]).map (fun s => (nodeAt r.1 s).attrib)) = some (some (some "X".toList)) := by
  refine ⟨good_of_all _ _ (by decide +kernel), by decide +kernel, by decide +kernel⟩

end Jbo.Dfasyn
