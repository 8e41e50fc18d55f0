import Verif.LujvoSpec
/-!
# The enumeration loop of the lujvo maker (C21)
-/

namespace Jbo.Lujvo

open Jbo

/-- `c` is a choice of one index below each limit. -/
def InRange : List Nat → List Nat → Prop
  | [], [] => True
  | n :: ns, c :: cs => c < n ∧ InRange ns cs
  | _, _ => False

/-- The number of choices. -/
def combos : List Nat → Nat
  | [] => 1
  | n :: ns => n * combos ns

/-- The choice as a number, the first index counting fastest. -/
def value : List Nat → List Nat → Nat
  | n :: ns, c :: cs => c + n * value ns cs
  | _, _ => 0

theorem value_lt : ∀ {ns c : List Nat}, InRange ns c → value ns c < combos ns
  | [], [], _ => by simp [value, combos]
  | n :: ns, c :: cs, h => by
    have ih := value_lt h.2
    have hc := h.1
    simp only [value, combos]
    calc c + n * value ns cs < n + n * value ns cs := by omega
      _ = n * (value ns cs + 1) := by rw [Nat.mul_add, Nat.mul_one, Nat.add_comm]
      _ ≤ n * combos ns := Nat.mul_le_mul_left n ih

theorem value_inj : ∀ {ns c d : List Nat}, InRange ns c → InRange ns d → value ns c = value ns d → c = d
  | [], [], [], _, _, _ => rfl
  | n :: ns, c :: cs, d :: ds, hc, hd, h => by
    simp only [value] at h
    have hn : 0 < n := Nat.lt_of_le_of_lt (Nat.zero_le _) hc.1
    have h1 : c = d := by
      have e := congrArg (· % n) h
      simpa [Nat.add_mul_mod_self_left, Nat.mod_eq_of_lt hc.1, Nat.mod_eq_of_lt hd.1] using e
    subst h1
    have h2 : n * value ns cs = n * value ns ds := by omega
    rw [value_inj hc.2 hd.2 (Nat.eq_of_mul_eq_mul_left hn h2)]

theorem bump_spec : ∀ {ns c : List Nat}, InRange ns c →
    ((bump c ns).2 = true → value ns c + 1 = combos ns ∧ ∀ x ∈ (bump c ns).1, x = 0) ∧
    ((bump c ns).2 = false → InRange ns (bump c ns).1 ∧ value ns (bump c ns).1 = value ns c + 1)
  | [], [], _ => by simp [bump, value, combos]
  | n :: ns, c :: cs, h => by
    have ih := bump_spec h.2
    have hc := h.1
    unfold bump
    by_cases he : c + 1 = n
    · simp only [he, if_true]
      constructor
      · intro hd
        obtain ⟨h1, h2⟩ := ih.1 hd
        refine ⟨?_, ?_⟩
        · simp only [value, combos, ← h1, Nat.mul_add, Nat.mul_one]; omega
        · intro x hx
          rcases List.mem_cons.1 hx with rfl | hx
          · rfl
          · exact h2 x hx
      · intro hd
        obtain ⟨h1, h2⟩ := ih.2 hd
        refine ⟨⟨by omega, h1⟩, ?_⟩
        simp only [value, h2, Nat.mul_add, Nat.mul_one]; omega
    · simp only [he, if_false]
      exact ⟨by simp, fun _ => ⟨⟨by omega, h.2⟩, by simp only [value]; omega⟩⟩

/-- The loop started at `c` with `nl` forms stored. -/
theorem visit_spec (ns : List Nat) : ∀ (k : Nat) (c : List Nat) (nl : Nat), nl + k = maxCount →
    0 < k → InRange ns c →
    (visit ns c nl).1.map (value ns) = List.range' (value ns c) (min (combos ns - value ns c) k) ∧
    (∀ v ∈ (visit ns c nl).1, InRange ns v) ∧
    ((visit ns c nl).2 = true ↔ k ≤ combos ns - value ns c) := by
  intro k
  induction k with
  | zero => intro c nl _ h; omega
  | succ k ih =>
    intro c nl hk _ hc
    have hlt := value_lt hc
    rw [visit.eq_def]
    by_cases hm : nl + 1 ≥ maxCount
    · have hk0 : k = 0 := by omega
      subst hk0
      simp only [hm, dite_true]
      have e : min (combos ns - value ns c) (0 + 1) = 1 := by omega
      rw [e]
      refine ⟨by simp, by simpa using hc, by simp; omega⟩
    · simp only [hm, dite_false]
      obtain ⟨b1, b2⟩ := bump_spec hc
      cases hb : (bump c ns).2 with
      | true =>
        obtain ⟨h1, _⟩ := b1 hb
        have e : min (combos ns - value ns c) (k + 1) = 1 := by omega
        simp only [if_true]
        rw [e]
        refine ⟨by simp, by simpa using hc, ?_⟩
        simp; omega
      | false =>
        obtain ⟨h1, h2⟩ := b2 hb
        have hlt' := value_lt h1
        obtain ⟨i1, i2, i3⟩ := ih (bump c ns).1 (nl + 1) (by omega) (by omega) h1
        have e : min (combos ns - value ns c) (k + 1) =
            min (combos ns - value ns (bump c ns).1) k + 1 := by omega
        simp only [Bool.false_eq_true, if_false]
        refine ⟨?_, ?_, ?_⟩
        · rw [List.map_cons, i1, e, List.range'_succ, h2]
        · intro v hv
          rcases List.mem_cons.1 hv with rfl | hv
          · exact hc
          · exact i2 v hv
        · rw [i3]; omega

theorem zeros_inRange : ∀ {ns : List Nat}, (∀ n ∈ ns, 0 < n) → InRange ns (ns.map (fun _ => 0))
  | [], _ => trivial
  | n :: ns, h => ⟨h n (by simp), zeros_inRange (fun m hm => h m (by simp [hm]))⟩

theorem zeros_value : ∀ (ns : List Nat), value ns (ns.map (fun _ => 0)) = 0
  | [] => rfl
  | n :: ns => by simp [value, zeros_value ns]

theorem nodup_of_map {α β : Type} (f : α → β) : ∀ {l : List α}, (l.map f).Nodup → l.Nodup
  | [], _ => List.nodup_nil
  | a :: l, h => by
    rw [List.map_cons, List.nodup_cons] at h
    rw [List.nodup_cons]
    exact ⟨fun hm => h.1 (List.mem_map_of_mem hm), nodup_of_map f h.2⟩

/-- C21: the loop visits no choice twice and only real choices; it visits as many as there are, up to
the cap of 65536; below or at the cap it visits every choice; and the limit flag is raised exactly
when the number of choices reaches the cap. -/
theorem visit_all {ns : List Nat} (hpos : ∀ n ∈ ns, 0 < n) :
    (visit ns (ns.map (fun _ => 0)) 0).1.Nodup ∧
    (∀ c ∈ (visit ns (ns.map (fun _ => 0)) 0).1, InRange ns c) ∧
    (visit ns (ns.map (fun _ => 0)) 0).1.length = min (combos ns) 65536 ∧
    (combos ns ≤ 65536 → ∀ c, InRange ns c → c ∈ (visit ns (ns.map (fun _ => 0)) 0).1) ∧
    ((visit ns (ns.map (fun _ => 0)) 0).2 = true ↔ 65536 ≤ combos ns) := by
  have hz := zeros_inRange hpos
  obtain ⟨h1, h2, h3⟩ := visit_spec ns 65536 _ 0 rfl (by omega) hz
  rw [zeros_value, Nat.sub_zero] at h1 h3
  refine ⟨?_, h2, ?_, ?_, h3⟩
  · apply nodup_of_map (value ns)
    rw [h1]
    exact List.nodup_range'
  · have := congrArg List.length h1
    simpa using this
  · intro hle c hc
    have hv : value ns c ∈ (visit ns (ns.map (fun _ => 0)) 0).1.map (value ns) := by
      rw [h1, List.mem_range']
      exact ⟨value ns c, by have := value_lt hc; omega, by omega⟩
    obtain ⟨d, hd, he⟩ := List.mem_map.1 hv
    rw [← value_inj (h2 d hd) hc he]
    exact hd

/-- With exactly 65536 choices the program warns that some were not checked although all were. -/
theorem limit_warning_spurious {ns : List Nat} (hpos : ∀ n ∈ ns, 0 < n) (h : combos ns = 65536) :
    (visit ns (ns.map (fun _ => 0)) 0).2 = true ∧
    ∀ c, InRange ns c → c ∈ (visit ns (ns.map (fun _ => 0)) 0).1 := by
  obtain ⟨_, _, _, h4, h5⟩ := visit_all hpos
  exact ⟨h5.2 (by omega), h4 (by omega)⟩

/-- The case exists: sixteen components with two forms each. -/
example : (∀ n ∈ List.replicate 16 2, 0 < n) ∧ combos (List.replicate 16 2) = 65536 := by
  decide

example : (visit [2, 3] [0, 0] 0) =
    ([[0, 0], [1, 0], [0, 1], [1, 1], [0, 2], [1, 2]], false) := by decide +kernel

end Jbo.Lujvo
