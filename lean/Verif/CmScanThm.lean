import Verif.CmScanSpec
/-!
# The scanner of `cmafihe` finds the words
-/

namespace Jbo.CmScan
open Jbo.CmTrans (Word)
open Jbo.CmScan.Spec Re

/-! ## Regular expressions -/

/-- The texts that match. -/
def Re.Lang : Re → Word → Prop
  | .none, _ => False
  | .eps, w => w = []
  | .set p, w => ∃ c, w = [c] ∧ p c = true
  | .seq a b, w => ∃ u v, w = u ++ v ∧ a.Lang u ∧ b.Lang v
  | .alt a b, w => a.Lang w ∨ b.Lang w
  | .star a, w => ∃ ws : List Word, w = ws.flatten ∧ ∀ u ∈ ws, a.Lang u

theorem nullable_iff : ∀ r : Re, r.nullable = true ↔ r.Lang []
  | .none => by simp [nullable, Lang]
  | .eps => by simp [nullable, Lang]
  | .set p => by simp [nullable, Lang]
  | .seq a b => by
    rw [nullable, Bool.and_eq_true, nullable_iff a, nullable_iff b, Lang]
    constructor
    · intro h; exact ⟨[], [], rfl, h.1, h.2⟩
    · rintro ⟨u, v, e, h1, h2⟩
      obtain ⟨rfl, rfl⟩ := List.append_eq_nil_iff.1 e.symm
      exact ⟨h1, h2⟩
  | .alt a b => by rw [nullable, Bool.or_eq_true, nullable_iff a, nullable_iff b, Lang]
  | .star a => by
    rw [nullable, Lang]
    exact ⟨fun _ => ⟨[], rfl, nofun⟩, fun _ => rfl⟩

theorem star_cons {a : Re} {c : Char} {w : Word} (h : (Re.star a).Lang (c :: w)) : ∃ u v, w = u ++ v ∧ a.Lang (c :: u) ∧ (Re.star a).Lang v := by
  obtain ⟨ws, e, hw⟩ := h
  induction ws with
  | nil => cases e
  | cons u ws ih =>
    cases u with
    | nil => exact ih e (fun v hv => hw v (List.mem_cons_of_mem _ hv))
    | cons x u =>
      rw [List.flatten_cons, List.cons_append, List.cons.injEq] at e
      obtain ⟨rfl, rfl⟩ := e
      exact ⟨u, ws.flatten, rfl, hw _ (List.mem_cons_self ..), ws, rfl, fun v hv => hw v (List.mem_cons_of_mem _ hv)⟩

theorem deriv_iff (c : Char) : ∀ (r : Re) (w : Word), (r.deriv c).Lang w ↔ r.Lang (c :: w)
  | .none, w => by simp [deriv, Lang]
  | .eps, w => by simp [deriv, Lang]
  | .set p, w => by
    rw [deriv]
    by_cases h : p c = true
    · rw [if_pos h]
      simp only [Lang, List.cons.injEq]
      exact ⟨fun e => ⟨c, ⟨rfl, e⟩, h⟩, fun ⟨_, ⟨_, e⟩, _⟩ => e⟩
    · rw [if_neg h]
      simp only [Lang, List.cons.injEq, false_iff]
      rintro ⟨x, ⟨rfl, _⟩, hx⟩
      exact h hx
  | .alt a b, w => by rw [deriv, Lang, Lang, deriv_iff c a, deriv_iff c b]
  | .star a, w => by
    rw [deriv]
    constructor
    · rintro ⟨u, v, rfl, h1, ws, rfl, hw⟩
      refine ⟨(c :: u) :: ws, rfl, ?_⟩
      intro x hx
      rcases List.mem_cons.1 hx with rfl | hx
      · exact (deriv_iff c a u).1 h1
      · exact hw x hx
    · intro h
      obtain ⟨u, v, rfl, h1, h2⟩ := star_cons h
      exact ⟨u, v, rfl, (deriv_iff c a u).2 h1, h2⟩
  | .seq a b, w => by
    have hs : (Re.seq (a.deriv c) b).Lang w ↔ ∃ u v, w = u ++ v ∧ a.Lang (c :: u) ∧ b.Lang v := by
      simp only [Lang, deriv_iff c a]
    have hl : (Re.seq a b).Lang (c :: w) ↔ (a.Lang [] ∧ b.Lang (c :: w)) ∨ ∃ u v, w = u ++ v ∧ a.Lang (c :: u) ∧ b.Lang v := by
      constructor
      · rintro ⟨u, v, e, h1, h2⟩
        cases u with
        | nil => rw [List.nil_append] at e; subst e; exact .inl ⟨h1, h2⟩
        | cons x u =>
          rw [List.cons_append, List.cons.injEq] at e
          obtain ⟨rfl, rfl⟩ := e
          exact .inr ⟨u, v, rfl, h1, h2⟩
      · rintro (⟨h1, h2⟩ | ⟨u, v, rfl, h1, h2⟩)
        · exact ⟨[], c :: w, rfl, h1, h2⟩
        · exact ⟨c :: u, v, rfl, h1, h2⟩
    rw [deriv, hl, ← nullable_iff a]
    by_cases h : a.nullable = true
    · rw [if_pos h, Lang, hs, deriv_iff c b]
      constructor
      · rintro (h1 | h1)
        · exact .inr h1
        · exact .inl ⟨h, h1⟩
      · rintro (⟨_, h1⟩ | h1)
        · exact .inr h1
        · exact .inl h1
    · rw [if_neg h, hs]
      constructor
      · exact .inr
      · rintro (⟨h1, _⟩ | h1)
        · exact absurd h1 h
        · exact h1

/-- **The matcher is right.** -/
theorem accepts_iff : ∀ (r : Re) (w : Word), r.accepts w = true ↔ r.Lang w
  | r, [] => nullable_iff r
  | r, c :: w => by rw [accepts, accepts_iff, deriv_iff]

theorem lang_opt {a : Re} {w : Word} : (opt a).Lang w ↔ a.Lang w ∨ w = [] := Iff.rfl
theorem lang_chr {c : Char} {w : Word} : (chr c).Lang w ↔ w = [c] := by
  simp only [chr, Lang, beq_iff_eq]
  exact ⟨fun ⟨_, e, h⟩ => h ▸ e, fun e => ⟨c, e, rfl⟩⟩

theorem lang_star_set {p : Char → Bool} {w : Word} : (Re.star (.set p)).Lang w ↔ ∀ c ∈ w, p c = true := by
  constructor
  · rintro ⟨ws, rfl, hw⟩ c hc
    obtain ⟨u, hu, hcu⟩ := List.mem_flatten.1 hc
    obtain ⟨x, rfl, hx⟩ := hw u hu
    rw [List.mem_singleton.1 hcu]
    exact hx
  · intro h
    refine ⟨w.map ([·]), by induction w with | nil => rfl | cons c w ih => rw [List.map_cons, List.flatten_cons, ← ih (fun x hx => h x (List.mem_cons_of_mem _ hx))]; rfl, ?_⟩
    intro u hu
    obtain ⟨c, hc, rfl⟩ := List.mem_map.1 hu
    exact ⟨c, rfl, h c hc⟩

theorem lang_plus_set {p : Char → Bool} {w : Word} : (plus (.set p)).Lang w ↔ w ≠ [] ∧ ∀ c ∈ w, p c = true := by
  constructor
  · rintro ⟨u, v, rfl, ⟨c, rfl, hc⟩, h2⟩
    refine ⟨nofun, ?_⟩
    intro x hx
    rcases List.mem_cons.1 hx with rfl | hx
    · exact hc
    · exact lang_star_set.1 h2 x hx
  · rintro ⟨h, hw⟩
    match w, h with
    | c :: w, _ =>
      exact ⟨[c], w, rfl, ⟨c, rfl, hw c (List.mem_cons_self ..)⟩, lang_star_set.2 fun x hx => hw x (List.mem_cons_of_mem _ hx)⟩

/-! ## The longest match -/

theorem munch_le (rs : List (Re × Kind × Int)) (w : Word) : ∀ (n m : Nat) (a : Kind × Int), munch rs w n = some (m, a) →
    1 ≤ m ∧ m ≤ n ∧ firstRule rs (w.take m) = some a := by
  intro n
  induction n with
  | zero => intro _ _ h; cases h
  | succ n ih =>
    intro m a h
    rw [munch] at h
    cases hf : firstRule rs (w.take (n + 1)) with
    | some b => rw [hf] at h; cases h; exact ⟨by omega, Nat.le_refl _, hf⟩
    | none =>
      rw [hf] at h
      obtain ⟨h1, h2, h3⟩ := ih m a h
      exact ⟨h1, by omega, h3⟩

theorem munch_eq (rs : List (Re × Kind × Int)) (w : Word) (m : Nat) (a : Kind × Int) (hm : 1 ≤ m) (h : firstRule rs (w.take m) = some a) :
    ∀ n, m ≤ n → (∀ k, m < k → k ≤ n → firstRule rs (w.take k) = .none) → munch rs w n = some (m, a) := by
  intro n
  induction n with
  | zero => intro h0 _; omega
  | succ n ih =>
    intro h1 h2
    rw [munch]
    by_cases e : m = n + 1
    · subst e
      rw [h]
    · rw [h2 (n + 1) (by omega) (Nat.le_refl _)]
      exact ih (by omega) (fun k hk1 hk2 => h2 k hk1 (by omega))

theorem munch_some (rs : List (Re × Kind × Int)) (w : Word) (m : Nat) (hm : 1 ≤ m) (h : (firstRule rs (w.take m)).isSome = true) :
    ∀ n, m ≤ n → ∃ r, munch rs w n = some r := by
  intro n
  induction n with
  | zero => intro h0; omega
  | succ n ih =>
    intro h1
    rw [munch]
    cases hf : firstRule rs (w.take (n + 1)) with
    | some b => exact ⟨_, rfl⟩
    | none =>
      by_cases e : m = n + 1
      · subst e; rw [hf] at h; cases h
      · exact ih (by omega)

theorem firstRule_some {rs : List (Re × Kind × Int)} {u : Word} {r : Re × Kind × Int} (h : r ∈ rs) (hr : r.1.accepts u = true) :
    (firstRule rs u).isSome = true := by
  unfold firstRule
  rw [Option.isSome_map, List.find?_isSome]
  exact ⟨r, h, hr⟩

/-- Some rule matches wherever the scanner stands. -/
theorem some_rule (depth : Int) (c : Char) (w : Word) : ∃ r, munch (rulesAt depth) (c :: w) (c :: w).length = some r := by
  refine munch_some _ _ 1 (Nat.le_refl _) ?_ _ (by simp)
  rw [show (c :: w).take 1 = [c] from rfl]
  unfold rulesAt
  split
  · by_cases h : c = '\n'
    · subst h
      exact firstRule_some (r := (NL, .skip, 0)) (by simp [rules]) (by decide)
    · refine firstRule_some (r := (set (· != '\n'), .fallthru, 0)) (by simp [rules]) ?_
      rw [accepts_iff]
      exact ⟨c, rfl, by simpa using h⟩
  · by_cases h : isOpen c = true
    · exact firstRule_some (r := (set isOpen, .paren, 1)) (by simp [parenRules]) ((accepts_iff _ _).2 ⟨c, rfl, h⟩)
    · by_cases h2 : isClose c = true
      · exact firstRule_some (r := (set isClose, .paren, -1)) (by simp [parenRules]) ((accepts_iff _ _).2 ⟨c, rfl, h2⟩)
      · refine firstRule_some (r := (plus (set fun c => !isOpen c && !isClose c), .paren, 0)) (by simp [parenRules]) ?_
        rw [accepts_iff, lang_plus_set]
        refine ⟨nofun, fun x hx => ?_⟩
        rw [List.mem_singleton.1 hx]
        simp [Bool.eq_false_iff.2 h, Bool.eq_false_iff.2 h2]

/-- **No character is lost.**  Every text is scanned to its end, and the texts of the matches, one after the other, are the text. -/
theorem scan_all : ∀ (fuel : Nat) (depth : Int) (w : Word), w.length ≤ fuel → ∃ ts, scan fuel depth w = some ts ∧ ts.flatMap (·.2) = w ∧ ∀ t ∈ ts, t.2 ≠ [] := by
  intro fuel
  induction fuel with
  | zero =>
    intro depth w h
    have : w = [] := List.length_eq_zero_iff.1 (by omega)
    subst this
    exact ⟨[], rfl, rfl, nofun⟩
  | succ fuel ih =>
    intro depth w h
    rw [scan]
    cases w with
    | nil => exact ⟨[], rfl, rfl, nofun⟩
    | cons c w =>
      rw [if_neg nofun]
      obtain ⟨⟨n, k, e⟩, hm⟩ := some_rule depth c w
      obtain ⟨h1, h2, _⟩ := munch_le _ _ _ _ _ hm
      rw [hm]
      obtain ⟨ts, h3, h4, h5⟩ := ih (depth + e) ((c :: w).drop n) (by rw [List.length_drop]; simp only [List.length_cons] at h ⊢; omega)
      refine ⟨(k, (c :: w).take n) :: ts, ?_, ?_, ?_⟩
      · simp only
        rw [h3]
        rfl
      · rw [List.flatMap_cons, h4]
        exact List.take_append_drop ..
      · intro t ht
        rcases List.mem_cons.1 ht with rfl | ht
        · intro e
          have := congrArg List.length e
          rw [List.length_take] at this
          simp only [List.length_cons, List.length_nil] at this h2
          omega
        · exact h5 t ht

/-- More rounds than needed change nothing. -/
theorem scan_mono : ∀ (fuel : Nat) (depth : Int) (w : Word) (ts : List (Kind × Word)), scan fuel depth w = some ts → scan (fuel + 1) depth w = some ts := by
  intro fuel
  induction fuel with
  | zero =>
    intro depth w ts h
    rw [scan] at h
    rw [scan]
    split at h
    · rename_i hw; rw [if_pos hw]; exact h
    · cases h
  | succ fuel ih =>
    intro depth w ts h
    rw [scan] at h ⊢
    split at h
    · rename_i hw; rw [if_pos hw]; exact h
    · rename_i hw
      rw [if_neg hw]
      split at h
      · cases h
      · obtain ⟨rest, hr, e⟩ := Option.map_eq_some_iff.1 h
        rw [ih _ _ _ hr]
        simp [e]

/-- One match. -/
theorem scan_step {fuel : Nat} {depth : Int} {w rest : Word} {k : Kind} {e : Int} (hw : w ≠ [])
    (hm : munch (rulesAt depth) (w ++ rest) (w ++ rest).length = some (w.length, k, e)) :
    scan (fuel + 1) depth (w ++ rest) = (scan fuel (depth + e) rest).map ((k, w) :: ·) := by
  rw [scan, if_neg (by simp [hw]), hm]
  simp

end Jbo.CmScan
