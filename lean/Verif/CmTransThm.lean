import Verif.CmTransSpec
/-!
# Glosses of lujvo and fu'ivla in `cmafihe`
-/

namespace Jbo.CmTrans
open Jbo.CmTrans.Spec

/-! ## The loop ends -/

theorem loop_ends (d : Word → Option Word) : ∀ (fuel : Nat) (w result : Word) (initial : Bool) (conv : Nat), w.length < fuel →
    ∃ r, lujvoLoop d fuel w result initial conv = some r := by
  intro fuel
  induction fuel with
  | zero => intro w _ _ _ h; cases h
  | succ fuel ih =>
    intro w result initial conv h
    have go : ∀ (k : Nat) (r' : Word) (c' : Nat), 3 ≤ k → 5 < w.length →
        ∃ r, (if w.drop k = [] then some r' else lujvoLoop d fuel (w.drop k) r' false c') = some r := by
      intro k r' c' hk hw
      split
      · exact ⟨_, rfl⟩
      · exact ih _ _ _ _ (by rw [List.length_drop]; omega)
    rw [lujvoLoop]
    simp only
    split
    · exact ⟨_, rfl⟩
    split
    · exact ⟨_, rfl⟩
    have h6 : 5 < w.length := by omega
    split
    · split <;> exact go _ _ _ (by omega) h6
    split
    · exact go _ _ _ (by omega) h6
    split
    · exact go _ _ _ (by split <;> omega) h6
    · split <;> exact go _ _ _ (by split <;> omega) h6

/-- **The loop of `translate_lujvo` ends** for every text. -/
theorem lujvo_ends (d : Word → Option Word) (w : Word) : lujvoLoop d (w.length + 1) w [] true 0 = some (translateLujvo d w) := by
  obtain ⟨r, h⟩ := loop_ends d (w.length + 1) w [] true 0 (Nat.lt_succ_self _)
  rw [translateLujvo, h]
  rfl

/-! ## One component -/

theorem comp_gloss (d : Word → Option Word) (key result : Word) (initial : Bool) (conv : Nat) :
    appendTrans (translateComp d key conv).1 result initial = (if initial then [] else result ++ ['-']) ++ gloss d key conv ∧
      (translateComp d key conv).2 = if (entry d key conv).isSome then 0 else conv := by
  unfold translateComp gloss
  by_cases hc : conv = 0
  · subst hc
    rw [if_neg (by decide), if_pos rfl]
    constructor
    · cases d key <;> cases initial <;> simp [appendTrans]
    · simp
  · rw [if_pos hc, if_neg hc]
    unfold entry digit
    show appendTrans (match d (key ++ [Char.ofNat (48 + conv)]) with
      | none => (some (ordinal conv ++ (d key).getD "??".toList), conv)
      | some t => (some t, 0)).1 result initial = _ ∧ (match d (key ++ [Char.ofNat (48 + conv)]) with
      | none => (some (ordinal conv ++ (d key).getD "??".toList), conv)
      | some t => (some t, 0)).2 = _
    cases d (key ++ [Char.ofNat (48 + conv)]) with
    | some t => cases initial <;> simp [appendTrans]
    | none =>
      have ho : ordinal conv = named conv := by
        unfold ordinal named
        split <;> simp_all
      refine ⟨?_, by simp⟩
      simp only [ho]
      cases initial <;> simp [appendTrans] <;> rfl

/-- What follows a rafsi is longer than two letters, and `y` is not among its first two. -/
theorem rest_form : ∀ {first : Bool} {ps : List Part} {last : Word}, Lujvo first ps last →
    ∃ a b c r, wordOf ps last = a :: b :: c :: r ∧ a ≠ 'y' ∧ b ≠ 'y' := by
  intro first ps last h
  have key : ∀ (x y : Word), 'y' ∉ x → 3 ≤ x.length → ∃ a b c r, x ++ y = a :: b :: c :: r ∧ a ≠ 'y' ∧ b ≠ 'y' := by
    intro x y hy hl
    match x, hl with
    | a :: b :: c :: r, _ =>
      exact ⟨a, b, c, r ++ y, rfl, fun e => hy (by simp [e]), fun e => hy (by simp [e])⟩
  cases ps with
  | nil =>
    obtain ⟨h1, h2, _⟩ := h
    have := key last [] h1 h2
    rwa [List.append_nil] at this
  | cons p ps =>
    obtain ⟨h1, h2, _⟩ := h
    rw [wordOf, List.append_assoc]
    exact key p.rafsi _ h1 (by omega)

theorem convOf_three (a b c : Char) (r : Word) : convOf (a :: b :: c :: r) = conversion [a, b, c] := by
  unfold convOf conversion
  rw [show "sel".toList = ['s', 'e', 'l'] from rfl, show "ter".toList = ['t', 'e', 'r'] from rfl, show "vel".toList = ['v', 'e', 'l'] from rfl,
    show "xel".toList = ['x', 'e', 'l'] from rfl]
  have key : ∀ x y z : Char, [x, y, z].isPrefixOf (a :: b :: c :: r) = true ↔ [a, b, c] = [x, y, z] := by
    intro x y z
    simp only [List.isPrefixOf, Bool.and_true, Bool.and_eq_true, beq_iff_eq, List.cons.injEq, and_true]
    exact ⟨fun ⟨h1, h2, h3⟩ => ⟨h1.symm, h2.symm, h3.symm⟩, fun ⟨h1, h2, h3⟩ => ⟨h1.symm, h2.symm, h3.symm⟩⟩
  simp only [key]

theorem vowelAt_of {w : Word} {i : Nat} {c : Char} (h : w[i]? = some c) : vowelAt w i = decide (vowel c) := by
  unfold vowelAt
  rw [h]
  simp [vowel]

theorem no_y {w : Word} {i : Nat} {c : Char} (h : w[i]? = some c) (hc : c ≠ 'y') : w.findIdx? (· == 'y') ≠ some i := by
  intro e
  obtain ⟨hi, h1, _⟩ := List.findIdx?_eq_some_iff_getElem.1 e
  rw [List.getElem?_eq_getElem hi] at h
  cases h
  exact hc (beq_iff_eq.1 h1)

/-- The step of the loop over a rafsi. -/
theorem step_part (d : Word → Option Word) {first : Bool} {p : Part} {ps : List Part} {last : Word} (h : Lujvo first (p :: ps) last) (fuel : Nat)
    (result : Word) (conv : Nat) :
    lujvoLoop d (fuel + 1) (wordOf (p :: ps) last) result first conv =
      match conversion p.rafsi with
      | some c => lujvoLoop d fuel (wordOf ps last) result false c
      | none => lujvoLoop d fuel (wordOf ps last) ((if first then [] else result ++ ['-']) ++ gloss d (keyOf p.rafsi) conv) false
          (if (entry d (keyOf p.rafsi) conv).isSome then 0 else conv) := by
  obtain ⟨hy, hl, ht, hr⟩ := h
  obtain ⟨x, y, z, r, e, hx, hyy⟩ := rest_form hr
  have key : keyOf p.rafsi = '%' :: p.rafsi := by
    unfold keyOf
    rw [if_neg (by omega)]
  rw [key, ← (comp_gloss d _ result first conv).1, ← (comp_gloss d _ result first conv).2]
  rw [wordOf, e]
  obtain ⟨raf, tie⟩ := p
  simp only at hy hl ht ⊢
  have tieLen : tie.length ≤ 1 := by
    rcases ht with ht | ⟨_, ht⟩
    · simp only at ht; rw [ht]; decide
    · split at ht
      · rcases ht with ht | ⟨ht, _⟩ | ⟨ht, _⟩ <;> (simp only at ht; rw [ht]; decide)
      · simp only at ht; rw [ht]; decide
  rcases hl with ⟨hl, hq⟩ | hl
  · match raf, hl with
    | [a, b, c], _ =>
      simp only [List.mem_cons, List.not_mem_nil, or_false, not_or] at hy
      simp only [List.getElem?_cons_succ, List.getElem?_cons_zero, ne_eq, Option.some.injEq] at hq
      have fin : ∀ k : Nat, ([a, b, c] ++ tie ++ x :: y :: z :: r).drop k = x :: y :: z :: r →
          (match convOf ([a, b, c] ++ tie ++ x :: y :: z :: r) with
            | some c' => if ([a, b, c] ++ tie ++ x :: y :: z :: r).drop k = [] then some result
                else lujvoLoop d fuel (([a, b, c] ++ tie ++ x :: y :: z :: r).drop k) result false c'
            | none => if ([a, b, c] ++ tie ++ x :: y :: z :: r).drop k = [] then some (appendTrans (translateComp d ['%', a, b, c] conv).1 result first)
                else lujvoLoop d fuel (([a, b, c] ++ tie ++ x :: y :: z :: r).drop k) (appendTrans (translateComp d ['%', a, b, c] conv).1 result first) false
                  (translateComp d ['%', a, b, c] conv).2) =
          match conversion [a, b, c] with
          | some c' => lujvoLoop d fuel (x :: y :: z :: r) result false c'
          | none => lujvoLoop d fuel (x :: y :: z :: r) (appendTrans (translateComp d ['%', a, b, c] conv).1 result first) false
              (translateComp d ['%', a, b, c] conv).2 := by
        intro k hk
        rw [hk, show [a, b, c] ++ tie ++ x :: y :: z :: r = a :: b :: c :: (tie ++ x :: y :: z :: r) by simp, convOf_three]
        rfl
      have hlen : 6 ≤ ([a, b, c] ++ tie ++ x :: y :: z :: r).length := by simp; omega
      rw [lujvoLoop]
      simp only
      rw [if_neg (by omega), if_neg (by omega)]
      have htake : List.take 3 ([a, b, c] ++ tie ++ x :: y :: z :: r) = [a, b, c] := by simp
      rw [htake]
      by_cases hty : tie = ['y']
      · subst hty
        rw [if_pos (by simp [List.findIdx?_cons, Ne.symm hy.1, Ne.symm hy.2.1, Ne.symm hy.2.2])]
        exact fin 4 rfl
      · have ht := ht.resolve_left hty
        have tieCase : tie = [] ∨ first = true ∧ (vowel b ∧ vowel c) ∧ (tie = ['r'] ∨ tie = ['n'] ∧ x = 'r') := by
          have h2 := ht.2
          split at h2
          · rename_i hd
            rcases h2 with h2 | ⟨h2, h3⟩ | ⟨h2, _⟩
            · exact .inr ⟨hd.1, hd.2, .inl h2⟩
            · exact .inr ⟨hd.1, hd.2, .inr ⟨h2, by rw [e] at h3; simpa using h3⟩⟩
            · exact .inl h2
          · exact .inl h2
        rcases tieCase with rfl | ⟨rfl, ⟨hb, hc⟩, ht'⟩
        · rw [if_neg (no_y (c := x) rfl hx), if_neg (no_y (c := y) rfl hyy), if_neg (by simpa using hq)]
          have hcond : (vowelAt ([a, b, c] ++ [] ++ x :: y :: z :: r) 1 && vowelAt ([a, b, c] ++ [] ++ x :: y :: z :: r) 2 && first &&
              glueAt ([a, b, c] ++ [] ++ x :: y :: z :: r) 3) = false := by
            rw [vowelAt_of (c := b) rfl, vowelAt_of (c := c) rfl]
            have h2 := ht.2
            split at h2
            · rename_i hd
              have hg : glueAt ([a, b, c] ++ [] ++ x :: y :: z :: r) 3 = false := by
                rcases h2 with h2 | ⟨h2, _⟩ | ⟨_, h3, h4⟩
                · cases h2
                · cases h2
                · rw [e] at h3 h4
                  simp only [List.head?_cons, ne_eq, Option.some.injEq, List.getElem?_cons_succ, List.getElem?_cons_zero] at h3 h4
                  simp only [glueAt]
                  simp [h3]
                  exact fun hn hr => h4 ⟨hn, hr⟩
              rw [hg, Bool.and_false]
            · rename_i hd
              cases hf : first with
              | false => simp
              | true =>
                have : ¬ (vowel b ∧ vowel c) := fun hv => hd ⟨hf, hv⟩
                rw [Classical.not_and_iff_not_or_not] at this
                rcases this with hv | hv <;> simp [hv]
          rw [hcond]
          exact fin 3 rfl
        · have hcond : ∀ t : Word, (t = ['r'] ∨ t = ['n'] ∧ x = 'r') → (vowelAt ([a, b, c] ++ t ++ x :: y :: z :: r) 1 && vowelAt ([a, b, c] ++ t ++ x :: y :: z :: r) 2 && true &&
              glueAt ([a, b, c] ++ t ++ x :: y :: z :: r) 3) = true := by
            intro t ht
            rw [vowelAt_of (c := b) (by simp), vowelAt_of (c := c) (by simp)]
            rcases ht with rfl | ⟨rfl, rfl⟩ <;> simp [glueAt, hb, hc]
          rw [hcond tie ht']
          rcases ht' with rfl | ⟨rfl, _⟩
          · rw [if_neg (no_y (c := 'r') rfl (by decide)), if_neg (no_y (c := x) rfl hx), if_neg (by simpa using hq)]
            exact fin 4 rfl
          · rw [if_neg (no_y (c := 'n') rfl (by decide)), if_neg (no_y (c := x) rfl hx), if_neg (by simpa using hq)]
            exact fin 4 rfl
  · match raf, hl with
    | [a, b, c, f], _ =>
      have hcn : conversion [a, b, c, f] = none := by simp [conversion]
      rw [hcn]
      simp only [List.mem_cons, List.not_mem_nil, or_false, not_or] at hy
      have hlen : 6 ≤ ([a, b, c, f] ++ tie ++ x :: y :: z :: r).length := by simp; omega
      rw [lujvoLoop]
      simp only
      have htake : List.take 4 ([a, b, c, f] ++ tie ++ x :: y :: z :: r) = [a, b, c, f] := by simp
      have h3 : ([a, b, c, f] ++ tie ++ x :: y :: z :: r).findIdx? (· == 'y') ≠ some 3 := no_y (c := f) (by simp) (Ne.symm hy.2.2.2)
      rw [if_neg (by omega), if_neg (by omega), htake, if_neg h3]
      by_cases hty : tie = ['y']
      · subst hty
        rw [if_pos (by simp [List.findIdx?_cons, Ne.symm hy.1, Ne.symm hy.2.1, Ne.symm hy.2.2.1, Ne.symm hy.2.2.2])]
        rfl
      · have ht := ht.resolve_left hty
        have hq : c = '\'' := by
          rcases ht.1 with h | h
          · cases h
          · simpa using h
        subst hq
        have tieCase : tie = [] ∨ first = true ∧ (vowel b ∧ vowel f) ∧ (tie = ['r'] ∨ tie = ['n'] ∧ x = 'r') := by
          have h2 := ht.2
          split at h2
          · rename_i hd
            rcases h2 with h2 | ⟨h2, h3⟩ | ⟨h2, _⟩
            · exact .inr ⟨hd.1, hd.2, .inl h2⟩
            · exact .inr ⟨hd.1, hd.2, .inr ⟨h2, by rw [e] at h3; simpa using h3⟩⟩
            · exact .inl h2
          · exact .inl h2
        rcases tieCase with rfl | ⟨rfl, ⟨hb, hc⟩, ht'⟩
        · rw [if_neg (no_y (c := x) rfl hx), if_pos (by simp)]
          have hcond : (vowelAt ([a, b, '\'', f] ++ [] ++ x :: y :: z :: r) 1 && vowelAt ([a, b, '\'', f] ++ [] ++ x :: y :: z :: r) 3 && first &&
              glueAt ([a, b, '\'', f] ++ [] ++ x :: y :: z :: r) 4) = false := by
            rw [vowelAt_of (c := b) rfl, vowelAt_of (c := f) rfl]
            have h2 := ht.2
            split at h2
            · rename_i hd
              have hg : glueAt ([a, b, '\'', f] ++ [] ++ x :: y :: z :: r) 4 = false := by
                rcases h2 with h2 | ⟨h2, _⟩ | ⟨_, h3, h4⟩
                · cases h2
                · cases h2
                · rw [e] at h3 h4
                  simp only [List.head?_cons, ne_eq, Option.some.injEq, List.getElem?_cons_succ, List.getElem?_cons_zero] at h3 h4
                  simp only [glueAt]
                  simp [h3]
                  exact fun hn hr => h4 ⟨hn, hr⟩
              rw [hg, Bool.and_false]
            · rename_i hd
              cases hf : first with
              | false => simp
              | true =>
                have : ¬ (vowel b ∧ vowel f) := fun hv => hd ⟨hf, hv⟩
                rw [Classical.not_and_iff_not_or_not] at this
                rcases this with hv | hv <;> simp [hv]
          rw [hcond]
          rfl
        · have hcond : ∀ t : Word, (t = ['r'] ∨ t = ['n'] ∧ x = 'r') → (vowelAt ([a, b, '\'', f] ++ t ++ x :: y :: z :: r) 1 && vowelAt ([a, b, '\'', f] ++ t ++ x :: y :: z :: r) 3 && true &&
              glueAt ([a, b, '\'', f] ++ t ++ x :: y :: z :: r) 4) = true := by
            intro t ht
            rw [vowelAt_of (c := b) (by simp), vowelAt_of (c := f) (by simp)]
            rcases ht with rfl | ⟨rfl, rfl⟩ <;> simp [glueAt, hb, hc]
          rw [hcond tie ht']
          rcases ht' with rfl | ⟨rfl, _⟩
          · rw [if_neg (no_y (c := 'r') rfl (by decide)), if_pos (by simp)]
            rfl
          · rw [if_neg (no_y (c := 'n') rfl (by decide)), if_pos (by simp)]
            rfl

/-! ## The whole lujvo -/

/-- The last component. -/
theorem step_last (d : Word → Option Word) (w : Word) (hw : w.length ≤ 5) (fuel : Nat) (result : Word) (initial : Bool) (hr : initial = true → result = [])
    (conv : Nat) : lujvoLoop d (fuel + 1) w result initial conv = some ((if initial then [] else result ++ ['-']) ++ gloss d (keyOf w) conv) := by
  rw [lujvoLoop]
  simp only
  unfold keyOf
  by_cases h : w.length = 5
  · rw [if_pos h, if_pos h, (comp_gloss d w result initial conv).1]
  · rw [if_neg h, if_neg h, if_pos (by omega), ← (comp_gloss d ('%' :: w) result initial conv).1]
    cases initial with
    | true => rw [hr rfl]; cases (translateComp d ('%' :: w) conv).1 <;> simp [appendTrans]
    | false => cases (translateComp d ('%' :: w) conv).1 <;> simp [appendTrans]

/-- Every gloss after a hyphen. -/
def tail (gs : List Word) : Word := gs.flatMap ('-' :: ·)

theorem loop_tail (d : Word → Option Word) : ∀ (ps : List Part) (last : Word), Lujvo false ps last → ∀ (fuel : Nat), ps.length < fuel →
    ∀ (result : Word) (conv : Nat), lujvoLoop d fuel (wordOf ps last) result false conv = some (result ++ tail (pieces d conv ps last)) := by
  intro ps
  induction ps with
  | nil =>
    intro last h fuel hf result conv
    obtain ⟨fuel, rfl⟩ : ∃ k, fuel = k + 1 := ⟨fuel - 1, by simp at hf; omega⟩
    rw [wordOf, step_last d last h.2.2 fuel result false nofun conv, pieces]
    simp [tail]
  | cons p ps ih =>
    intro last h fuel hf result conv
    obtain ⟨fuel, rfl⟩ : ∃ k, fuel = k + 1 := ⟨fuel - 1, by simp at hf; omega⟩
    have hf' : ps.length < fuel := by simpa using hf
    rw [step_part d h fuel result conv, pieces]
    cases conversion p.rafsi with
    | some c => exact ih last h.2.2.2 fuel hf' result c
    | none =>
      simp only
      rw [ih last h.2.2.2 fuel hf' _ _]
      simp [tail]

theorem parts_short : ∀ (ps : List Part) (last : Word) (first : Bool), Lujvo first ps last → ps.length < (wordOf ps last).length + 1 := by
  intro ps
  induction ps with
  | nil => intro last _ _; simp
  | cons p ps ih =>
    intro last first h
    have := ih last false h.2.2.2
    have h2 := h.2.1
    rw [wordOf]
    simp only [List.length_cons, List.length_append]
    omega

theorem tail_cons (g : Word) (gs : List Word) : g ++ tail gs = hyphened (g :: gs) := by
  induction gs generalizing g with
  | nil => simp [tail, hyphened, List.intercalate]
  | cons h gs ih =>
    have : hyphened (g :: h :: gs) = g ++ '-' :: hyphened (h :: gs) := by simp [hyphened, List.intercalate]
    rw [this, ← ih h]
    simp [tail]

theorem pieces_ne (d : Word → Option Word) : ∀ (ps : List Part) (last : Word) (c : Nat), ∃ g gs, pieces d c ps last = g :: gs := by
  intro ps
  induction ps with
  | nil => intro last c; exact ⟨_, _, rfl⟩
  | cons p ps ih =>
    intro last c
    rw [pieces]
    cases conversion p.rafsi with
    | some c' => exact ih last c'
    | none => exact ⟨_, _, rfl⟩

/-- **What the gloss of a lujvo is**: the glosses of its components with hyphens between them; if the lujvo begins with a conversion, there is one more
hyphen before them. -/
theorem lujvo_glossed (d : Word → Option Word) (ps : List Part) (last : Word) (h : Lujvo true ps last) :
    translateLujvo d (wordOf ps last) =
      (if (ps.head?.bind (fun p => conversion p.rafsi)).isSome then ['-'] else []) ++ hyphened (pieces d 0 ps last) := by
  have hs : some (translateLujvo d (wordOf ps last)) = some ((if (ps.head?.bind (fun p => conversion p.rafsi)).isSome then ['-'] else []) ++ hyphened (pieces d 0 ps last)) := by
    rw [← lujvo_ends]
    cases ps with
    | nil =>
      rw [wordOf, step_last d last h.2.2 _ [] true (fun _ => rfl) 0]
      simp [pieces, hyphened, List.intercalate]
    | cons p ps =>
      have hf : ps.length < (wordOf (p :: ps) last).length := by
        have := parts_short (p :: ps) last true h
        simp only [List.length_cons] at this
        omega
      rw [step_part d h _ [] 0, pieces]
      simp only [List.head?_cons, Option.bind_some]
      obtain hc | ⟨c, hc⟩ := Option.eq_none_or_eq_some (conversion p.rafsi)
      rotate_left
      · simp only [hc]
        rw [loop_tail d ps last h.2.2.2 _ hf]
        obtain ⟨g, gs, e⟩ := pieces_ne d ps last c
        rw [e, ← tail_cons]
        simp [tail]
      · simp only [hc]
        rw [loop_tail d ps last h.2.2.2 _ hf, ← tail_cons]
        simp
  exact Option.some.inj hs

theorem pieces_plain (d : Word → Option Word) (a : List Part) (ha : ∀ p ∈ a, conversion p.rafsi = none) (b : List Part) (last : Word) :
    pieces d 0 (a ++ b) last = a.map (fun p => gloss d (keyOf p.rafsi) 0) ++ pieces d 0 b last ∧
    meant d 0 (a ++ b) last = a.map (fun p => gloss d (keyOf p.rafsi) 0) ++ meant d 0 b last := by
  induction a with
  | nil => exact ⟨rfl, rfl⟩
  | cons p a ih =>
    have := ih (fun q hq => ha q (List.mem_cons_of_mem _ hq))
    rw [List.cons_append, pieces, meant, ha p (List.mem_cons_self ..)]
    simp only [ite_self]
    rw [this.1, this.2]
    exact ⟨rfl, rfl⟩

theorem pieces_conv (d : Word → Option Word) (b : List Part) (hb : ∀ p ∈ b, (conversion p.rafsi).isSome = true) (last : Word) (c : Nat) :
    pieces d c b last = meant d c b last := by
  induction b generalizing c with
  | nil => rfl
  | cons p b ih =>
    obtain ⟨c', hc⟩ := Option.isSome_iff_exists.1 (hb p (List.mem_cons_self ..))
    rw [pieces, meant, hc]
    exact ih (fun q hq => hb q (List.mem_cons_of_mem _ hq)) c'

/-- **A lujvo is glossed by its components, a conversion being for the component after it.**  Full claim: for every lujvo.  Missing: lujvo that begin with
a conversion (`lujvo_leading`) and those in which a conversion stands before a rafsi (`conversion_spreads`). -/
theorem lujvo_meant_partial (d : Word → Option Word) (a b : List Part) (last : Word) (h : Lujvo true (a ++ b) last)
    (ha : ∀ p ∈ a, conversion p.rafsi = none) (hb : ∀ p ∈ b, (conversion p.rafsi).isSome = true) (hn : a ≠ [] ∨ b = []) :
    translateLujvo d (wordOf (a ++ b) last) = hyphened (meant d 0 (a ++ b) last) := by
  rw [lujvo_glossed d _ last h, (pieces_plain d a ha b last).1, (pieces_plain d a ha b last).2, pieces_conv d b hb last 0]
  have : ((a ++ b).head?.bind (fun p => conversion p.rafsi)).isSome = false := by
    cases a with
    | nil => cases hn with
      | inl hn => exact absurd rfl hn
      | inr hn => rw [hn]; rfl
    | cons p a => simp [ha p (List.mem_cons_self ..)]
  rw [this]
  rfl

/-- **A defect** (`cm_translate.c:234`): `initial` is cleared also after a conversion, which adds nothing, and so the gloss of every lujvo that begins with one
begins with a hyphen. -/
theorem lujvo_leading (d : Word → Option Word) (p : Part) (ps : List Part) (last : Word) (h : Lujvo true (p :: ps) last)
    (hc : (conversion p.rafsi).isSome = true) : (translateLujvo d (wordOf (p :: ps) last)).head? = some '-' := by
  rw [lujvo_glossed d _ last h]
  simp [hc]

/-- **A defect** (`cm_translate.c:92-98`): without an entry for the place the conversion is not cleared, and each component after it is taken to be
converted too. -/
theorem conversion_spreads (d : Word → Option Word) (p q : Part) (ps : List Part) (last : Word) (c : Nat) (hp : conversion p.rafsi = some c)
    (hq : conversion q.rafsi = none) (he : entry d (keyOf q.rafsi) c = none) :
    pieces d 0 (p :: q :: ps) last = gloss d (keyOf q.rafsi) c :: pieces d c ps last ∧
    meant d 0 (p :: q :: ps) last = gloss d (keyOf q.rafsi) c :: meant d 0 ps last := by
  rw [pieces, meant, hp]
  simp only
  rw [pieces, meant, hq]
  simp only
  rw [he]
  simp

end Jbo.CmTrans
