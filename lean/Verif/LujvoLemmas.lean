import Verif.LujvoSpec
/-!
# Helper lemmas for lujvo: letters and the equations of the validity test
-/

namespace Jbo.Lujvo

open Jbo Spec

/-! ## Letters -/

theorem Spec.C.isC {a : Char} (h : C a) : isC a = true := by
  revert a; unfold C; decide
theorem Spec.C.isV {a : Char} (h : C a) : isV a = false := by
  revert a; unfold C; decide
theorem Spec.V.isV {a : Char} (h : V a) : isV a = true := by
  revert a; unfold V; decide
theorem Spec.V.isC {a : Char} (h : V a) : isC a = false := by
  revert a; unfold V; decide
theorem Spec.C.ne_y {a : Char} (h : C a) : a ≠ 'y' := by
  revert a; unfold C; decide
theorem Spec.C.ne_apos {a : Char} (h : C a) : a ≠ '\'' := by
  revert a; unfold C; decide
theorem Spec.C.ne_plus {a : Char} (h : C a) : a ≠ '+' := by
  revert a; unfold C; decide
theorem Spec.V.ne_y {a : Char} (h : V a) : a ≠ 'y' := by
  revert a; unfold V; decide
theorem Spec.V.ne_apos {a : Char} (h : V a) : a ≠ '\'' := by
  revert a; unfold V; decide
theorem Spec.V.ne_plus {a : Char} (h : V a) : a ≠ '+' := by
  revert a; unfold V; decide
theorem Spec.C.cC {a : Char} (h : C a) : cC a = true := by
  revert a; unfold C; decide
theorem Spec.C.cV {a : Char} (h : C a) : cV a = false := by
  revert a; unfold C; decide
theorem Spec.V.cV {a : Char} (h : V a) : cV a = true := by
  revert a; unfold V; decide
theorem Spec.V.cC {a : Char} (h : V a) : cC a = false := by
  revert a; unfold V; decide
theorem Spec.V.not_C {a : Char} (h : V a) : ¬ C a := by
  revert a; unfold V C; decide
theorem Spec.C.not_V {a : Char} (h : C a) : ¬ V a := by
  revert a; unfold V C; decide

theorem isC_y : isC 'y' = false := by decide
theorem isV_y : isV 'y' = false := by decide
theorem isC_apos : isC '\'' = false := by decide
theorem isV_apos : isV '\'' = false := by decide
theorem isC_nul : isC '\x00' = false := by decide
theorem isV_nul : isV '\x00' = false := by decide

/-- All letters are lower case ones. -/
def Lower (w : Word) : Prop := ∀ c ∈ w, c ∈ letters

theorem C_of_isC {a : Char} (hl : a ∈ letters) (h : isC a = true) : C a := by
  revert a; unfold C; decide
theorem V_of_isV {a : Char} (hl : a ∈ letters) (h : isV a = true) : V a := by
  revert a; unfold V; decide

theorem pairok_iff {a b : Char} (ha : C a) (hb : C b) : isPairok a b = decide (Medial a b) := by
  have : ∀ a ∈ consonants, ∀ b ∈ consonants, isPairok a b = decide (Medial a b) := by decide +kernel
  exact this a ha b hb
theorem initialok_iff {a b : Char} (ha : C a) (hb : C b) : isInitialok a b = decide (Initial a b) := by
  have : ∀ a ∈ consonants, ∀ b ∈ consonants, isInitialok a b = decide (Initial a b) := by
    decide +kernel
  exact this a ha b hb

/-- Permitted initial pairs are permitted medial ones. -/
theorem Spec.Initial.medial {a b : Char} (h : Initial a b) : Medial a b := by
  have : ∀ p ∈ initialPairs, Medial p.1 p.2 := by decide +kernel
  exact this _ h

/-- A vowel can be followed by any consonant, for `isPairok`. -/
theorem pairok_vowel {a b : Char} (ha : V a) (hb : C b) : isPairok a b = true := by
  have : ∀ a ∈ vowels, ∀ b ∈ consonants, isPairok a b = true := by decide +kernel
  exact this a ha b hb

theorem badTriple_iff (c d e : Char) (t : Word) :
    isBadTriple (c :: d :: e :: t) = decide ([c, d, e] ∈ badTriples) := by
  simp only [isBadTriple, chr, List.getD_cons_zero, List.getD_cons_succ, badTriples, List.mem_cons,
    List.cons.injEq, List.not_mem_nil, or_false, and_true]
  by_cases h1 : c = 'n' <;> by_cases h2 : d = 't' <;> by_cases h3 : d = 'd' <;>
    by_cases h4 : e = 'c' <;> by_cases h5 : e = 's' <;> by_cases h6 : e = 'j' <;>
    by_cases h7 : e = 'z' <;> simp_all

/-! ## Equations of the validity test -/

/-- What happens when the end of the word is reached after `n` components. -/
def fin (n : Nat) (sc hr fc : Bool) : Except Crash Bool :=
  if sc then
    if n = 2 then if fc then .ok true else .error .uninit
    else .ok hr
  else .ok true

/-- The loop at `t`, which may be the end of the word. -/
def more (t : Word) (n : Nat) (sc hr fc : Bool) : Except Crash Bool :=
  if t = [] then fin n sc hr fc else ivl t n sc hr fc

variable {a b c d e : Char} {t : Word} {n : Nat} {sc hr fc : Bool}

theorem ivl_cvccv (ha : C a) (hb : V b) (hc : C c) (hd : C d) (he : V e) :
    ivl [a, b, c, d, e] n sc hr fc = if n = 0 then .ok false
      else if isPairok c d then fin (n + 1) sc hr fc else .ok false := by
  rw [ivl.eq_def]
  simp only [isCvccv, chr, List.length_cons, List.length_nil, List.getD_cons_zero, List.getD_cons_succ,
    ha.isC, hb.isV, hc.isC, hd.isC, he.isV]
  by_cases hn : n = 0 <;> cases hp : isPairok c d <;> simp [hn, fin]

theorem ivl_ccvcv (ha : C a) (hb : C b) (hc : V c) (hd : C d) (he : V e) :
    ivl [a, b, c, d, e] n sc hr fc = if n = 0 then .ok false
      else if isPairok a b then fin (n + 1) sc hr fc else .ok false := by
  rw [ivl.eq_def]
  simp only [isCvccv, isCcvcv, chr, List.length_cons, List.length_nil, List.getD_cons_zero,
    List.getD_cons_succ, ha.isC, hb.isC, hb.isV, hc.isV, hd.isC, he.isV]
  by_cases hn : n = 0 <;> cases hp : isPairok a b <;> simp [hn, fin]

theorem ivl_cvccy (ha : C a) (hb : V b) (hc : C c) (hd : C d) :
    ivl (a :: b :: c :: d :: 'y' :: t) n sc hr fc = if t = [] then .ok false
      else if isPairok c d then ivl t (n + 1) sc hr fc else .ok false := by
  rw [ivl.eq_def]
  simp only [isCvccv, isCcvcv, isCvccy, chr, List.length_cons, List.getD_cons_zero,
    List.getD_cons_succ, ha.isC, hb.isC, hb.isV, hc.isC, hd.isC, isV_y]
  cases t <;> cases hp : isPairok c d <;> simp

theorem ivl_ccvcy (ha : C a) (hb : C b) (hc : V c) (hd : C d) :
    ivl (a :: b :: c :: d :: 'y' :: t) n sc hr fc = if t = [] then .ok false
      else if isInitialok a b then ivl t (n + 1) sc hr fc else .ok false := by
  rw [ivl.eq_def]
  simp only [isCvccv, isCcvcv, isCvccy, isCcvcy, chr, List.length_cons, List.getD_cons_zero,
    List.getD_cons_succ, ha.isC, hb.isC, hb.isV, hc.isC, hc.isV, hd.isC, isV_y]
  cases t <;> cases hp : isInitialok a b <;> simp

/-- `t` starts the way every component does. -/
def Start (t : Word) : Prop := ∃ x y z u, t = x :: y :: z :: u ∧ C x ∧ (C y ∨ V y)

theorem CV.ne_y {y : Char} (h : C y ∨ V y) : y ≠ 'y' := h.elim (·.ne_y) (·.ne_y)

theorem ivl_ccv_end (ha : C a) (hb : C b) (hc : V c) :
    ivl [a, b, c] n sc hr fc = if isInitialok a b then fin (n + 1) sc hr true else .ok false := by
  rw [ivl.eq_def]
  simp only [isCvccv, isCcvcv, isCvccy, isCcvcy, isCvc, isCvv, isCvav, isCcv, chr, List.length_cons,
    List.length_nil, List.getD_cons_zero, List.getD_cons_succ, ha.isC, hb.isC, hb.isV, hc.isC, hc.isV]
  cases hp : isInitialok a b <;> simp [fin]

theorem ivl_ccv (ha : C a) (hb : C b) (hc : V c) (ht : Start t) :
    ivl (a :: b :: c :: t) n sc hr fc = if isInitialok a b then ivl t (n + 1) sc hr fc
      else .ok false := by
  obtain ⟨x, y, z, u, rfl, hx, hy⟩ := ht
  rw [ivl.eq_def]
  simp only [isCvccv, isCcvcv, isCvccy, isCcvcy, isCvc, isCvv, isCvav, isCcv, chr, List.length_cons,
    List.getD_cons_zero, List.getD_cons_succ, ha.isC, hb.isC, hb.isV, hc.isC, hc.isV, hx.isC]
  cases hp : isInitialok a b <;> simp [CV.ne_y hy]

theorem ivl_cvc (ha : C a) (hb : V b) (hc : C c) (ht : Start t) :
    ivl (a :: b :: c :: t) n sc hr fc = (do
      let smabru ← if n = 0 then ivl (c :: t) 0 false false false else .ok false
      if !isPairok c (chr t 0) || (isBadTriple (c :: t) || (n == 0 && smabru)) then .ok false
      else ivl t (n + 1) sc hr fc) := by
  obtain ⟨x, y, z, u, rfl, hx, hy⟩ := ht
  rw [ivl.eq_def]
  simp only [isCvccv, isCcvcv, isCvccy, isCcvcy, isCvc, chr, List.length_cons,
    List.getD_cons_zero, List.getD_cons_succ, ha.isC, hb.isC, hb.isV, hc.isC, hc.isV, hx.isC]
  simp [CV.ne_y hy, hx.ne_y]
  intro h; omega

theorem ivl_cvcy (ha : C a) (hb : V b) (hc : C c) (ht : Start t) :
    ivl (a :: b :: c :: 'y' :: t) n sc hr fc = (do
      let smabru ← if n = 0 then ivl (c :: t) 0 false false false else .ok false
      if isPairok c (chr t 0) && !(isBadTriple (c :: t) || (n == 0 && smabru)) then .ok false
      else ivl t (n + 1) sc hr fc) := by
  obtain ⟨x, y, z, u, rfl, hx, hy⟩ := ht
  rw [ivl.eq_def]
  simp only [isCvccv, isCcvcv, isCvccy, isCcvcy, isCvc, chr, List.length_cons,
    List.getD_cons_zero, List.getD_cons_succ, ha.isC, hb.isC, hb.isV, hc.isC, hc.isV, hx.isC, isC_y]
  simp
  intro h; omega

theorem ivl_cvv (ha : C a) (hb : V b) (hc : V c) :
    ivl (a :: b :: c :: t) (n + 1) sc hr fc = more t (n + 2) sc hr fc := by
  rw [ivl.eq_def]
  simp only [isCvccv, isCcvcv, isCvccy, isCcvcy, isCvc, isCvv, chr, List.length_cons,
    List.getD_cons_zero, List.getD_cons_succ, ha.isC, hb.isC, hb.isV, hc.isC, hc.isV]
  simp [more, fin]

theorem ivl_cvhv (ha : C a) (hb : V b) (hc : V c) :
    ivl (a :: b :: '\'' :: c :: t) (n + 1) sc hr fc = more t (n + 2) sc hr fc := by
  rw [ivl.eq_def]
  simp only [isCvccv, isCcvcv, isCvccy, isCcvcy, isCvc, isCvv, isCvav, chr, List.length_cons,
    List.getD_cons_zero, List.getD_cons_succ, ha.isC, hb.isC, hb.isV, hc.isC, hc.isV, isC_apos, isV_apos]
  simp [more, fin]

theorem ivl_cvv_first (ha : C a) (hb : V b) (hc : V c) :
    ivl (a :: b :: c :: t) 0 sc hr fc =
      if t.length < 3 then .ok false
      else if (chr t 0 == 'r' && (isC (chr t 1) && chr t 1 != 'r')) ||
          (chr t 0 == 'n' && chr t 1 == 'r') then more (t.drop 1) 1 true true fc
      else more t 1 true hr fc := by
  rw [ivl.eq_def]
  simp only [isCvccv, isCcvcv, isCvccy, isCcvcy, isCvc, isCvv, chr, List.length_cons,
    List.getD_cons_zero, List.getD_cons_succ, ha.isC, hb.isC, hb.isV, hc.isC, hc.isV]
  have e : (t.length + 1 + 1 + 1 < 6) = (t.length < 3) := by simp; omega
  simp [more, fin, e]

theorem ivl_cvhv_first (ha : C a) (hb : V b) (hc : V c) :
    ivl (a :: b :: '\'' :: c :: t) 0 sc hr fc =
      if t.length < 3 then .ok false
      else if (chr t 0 == 'r' && (isC (chr t 1) && chr t 1 != 'r')) ||
          (chr t 0 == 'n' && chr t 1 == 'r') then more (t.drop 1) 1 true true fc
      else more t 1 true hr fc := by
  rw [ivl.eq_def]
  simp only [isCvccv, isCcvcv, isCvccy, isCcvcy, isCvc, isCvv, isCvav, chr, List.length_cons,
    List.getD_cons_zero, List.getD_cons_succ, ha.isC, hb.isC, hb.isV, hc.isC, hc.isV, isC_apos, isV_apos]
  have e : (t.length + 1 + 1 + 1 + 1 < 7) = (t.length < 3) := by simp; omega
  simp [more, fin, e]

/-! ## Taking words apart -/

theorem of_cvc {w : Word} (hl : Lower w) (h : isCvc w = true) :
    ∃ a b c t, w = a :: b :: c :: t ∧ C a ∧ V b ∧ C c := by
  match w, h with
  | a :: b :: c :: t, h =>
    simp only [isCvc, chr, List.getD_cons_zero, List.getD_cons_succ, Bool.and_eq_true] at h
    exact ⟨a, b, c, t, rfl, C_of_isC (hl a (by simp)) h.1.1.2, V_of_isV (hl b (by simp)) h.1.2,
      C_of_isC (hl c (by simp)) h.2⟩
  | [], h | [_], h | [_, _], h => simp [isCvc] at h

theorem of_ccv {w : Word} (hl : Lower w) (h : isCcv w = true) :
    ∃ a b c t, w = a :: b :: c :: t ∧ C a ∧ C b ∧ V c := by
  match w, h with
  | a :: b :: c :: t, h =>
    simp only [isCcv, chr, List.getD_cons_zero, List.getD_cons_succ, Bool.and_eq_true] at h
    exact ⟨a, b, c, t, rfl, C_of_isC (hl a (by simp)) h.1.1.2, C_of_isC (hl b (by simp)) h.1.2,
      V_of_isV (hl c (by simp)) h.2⟩
  | [], h | [_], h | [_, _], h => simp [isCcv] at h

theorem of_cvv {w : Word} (hl : Lower w) (h : isCvv w = true) :
    ∃ a b c t, w = a :: b :: c :: t ∧ C a ∧ V b ∧ V c := by
  match w, h with
  | a :: b :: c :: t, h =>
    simp only [isCvv, chr, List.getD_cons_zero, List.getD_cons_succ, Bool.and_eq_true] at h
    exact ⟨a, b, c, t, rfl, C_of_isC (hl a (by simp)) h.1.1.2, V_of_isV (hl b (by simp)) h.1.2,
      V_of_isV (hl c (by simp)) h.2⟩
  | [], h | [_], h | [_, _], h => simp [isCvv] at h

theorem of_cvav {w : Word} (hl : Lower w) (h : isCvav w = true) :
    ∃ a b c t, w = a :: b :: '\'' :: c :: t ∧ C a ∧ V b ∧ V c := by
  match w, h with
  | a :: b :: x :: c :: t, h =>
    simp only [isCvav, chr, List.getD_cons_zero, List.getD_cons_succ, Bool.and_eq_true, beq_iff_eq] at h
    exact ⟨a, b, c, t, by rw [h.1.2], C_of_isC (hl a (by simp)) h.1.1.1.2,
      V_of_isV (hl b (by simp)) h.1.1.2, V_of_isV (hl c (by simp)) h.2⟩
  | [], h | [_], h | [_, _], h | [_, _, _], h => simp [isCvav] at h

theorem of_cvccv {w : Word} (hl : Lower w) (h5 : w.length = 5) (h : isCvccv w = true) :
    ∃ a b c d e, w = [a, b, c, d, e] ∧ C a ∧ V b ∧ C c ∧ C d ∧ V e := by
  match w, h5 with
  | [a, b, c, d, e], _ =>
    simp only [isCvccv, chr, List.getD_cons_zero, List.getD_cons_succ, Bool.and_eq_true] at h
    exact ⟨a, b, c, d, e, rfl, C_of_isC (hl a (by simp)) h.1.1.1.1.2,
      V_of_isV (hl b (by simp)) h.1.1.1.2, C_of_isC (hl c (by simp)) h.1.1.2,
      C_of_isC (hl d (by simp)) h.1.2, V_of_isV (hl e (by simp)) h.2⟩

theorem of_ccvcv {w : Word} (hl : Lower w) (h5 : w.length = 5) (h : isCcvcv w = true) :
    ∃ a b c d e, w = [a, b, c, d, e] ∧ C a ∧ C b ∧ V c ∧ C d ∧ V e := by
  match w, h5 with
  | [a, b, c, d, e], _ =>
    simp only [isCcvcv, chr, List.getD_cons_zero, List.getD_cons_succ, Bool.and_eq_true] at h
    exact ⟨a, b, c, d, e, rfl, C_of_isC (hl a (by simp)) h.1.1.1.1.2,
      C_of_isC (hl b (by simp)) h.1.1.1.2, V_of_isV (hl c (by simp)) h.1.1.2,
      C_of_isC (hl d (by simp)) h.1.2, V_of_isV (hl e (by simp)) h.2⟩

theorem of_cvccy {w : Word} (hl : Lower w) (h : isCvccy w = true) :
    ∃ a b c d t, w = a :: b :: c :: d :: 'y' :: t ∧ C a ∧ V b ∧ C c ∧ C d := by
  match w, h with
  | a :: b :: c :: d :: e :: t, h =>
    simp only [isCvccy, chr, List.getD_cons_zero, List.getD_cons_succ, Bool.and_eq_true, beq_iff_eq] at h
    exact ⟨a, b, c, d, t, by rw [h.2], C_of_isC (hl a (by simp)) h.1.1.1.1.2,
      V_of_isV (hl b (by simp)) h.1.1.1.2, C_of_isC (hl c (by simp)) h.1.1.2,
      C_of_isC (hl d (by simp)) h.1.2⟩
  | [], h | [_], h | [_, _], h | [_, _, _], h | [_, _, _, _], h => simp [isCvccy] at h

theorem of_ccvcy {w : Word} (hl : Lower w) (h : isCcvcy w = true) :
    ∃ a b c d t, w = a :: b :: c :: d :: 'y' :: t ∧ C a ∧ C b ∧ V c ∧ C d := by
  match w, h with
  | a :: b :: c :: d :: e :: t, h =>
    simp only [isCcvcy, chr, List.getD_cons_zero, List.getD_cons_succ, Bool.and_eq_true, beq_iff_eq] at h
    exact ⟨a, b, c, d, t, by rw [h.2], C_of_isC (hl a (by simp)) h.1.1.1.1.2,
      C_of_isC (hl b (by simp)) h.1.1.1.2, V_of_isV (hl c (by simp)) h.1.1.2,
      C_of_isC (hl d (by simp)) h.1.2⟩
  | [], h | [_], h | [_, _], h | [_, _, _], h | [_, _, _, _], h => simp [isCcvcy] at h

/-! ## Tails -/

variable {st : Bool}

theorem Tail_start (h : Tail st n t) : Start t := by
  have key : ∀ (s : Shape) (w u : Word), Rafsi s w → Start (w ++ u) := by
    intro s w u h
    cases s <;> obtain ⟨h, _⟩ := h <;> unfold HasShape at h <;> split at h <;>
      first
      | contradiction
      | (simp_all; done)
      | (simp only [List.cons_append, List.nil_append]; refine ⟨_, _, _, _, rfl, ?_⟩; simp_all)
  have key' : ∀ (s : Shape) (w : Word), Rafsi s w → Start w := by
    intro s w h
    simpa using key s w [] h
  cases h with
  | cvccv h => exact key' _ _ h
  | @ccvcv a b w h _ _ =>
    match w, h with
    | [c, d, e], h => exact ⟨a, b, c, [d, e], rfl, h.1, .inl h.2.1⟩
  | cvv h => exact key' _ _ h
  | cvhv h => exact key' _ _ h
  | ccv h => exact key' _ _ h
  | cvccy h _ => exact key _ _ _ h
  | ccvcy h _ => exact key _ _ _ h
  | cvcJoin ha hb hc _ _ => exact ⟨_, _, _, _, rfl, ha, .inr hb⟩
  | cvcy ha hb hc _ _ => exact ⟨_, _, _, _, rfl, ha, .inr hb⟩
  | cvvMore h _ => exact key _ _ _ h
  | cvhvMore h _ => exact key _ _ _ h
  | ccvMore h _ => exact key _ _ _ h

theorem Tail_pos (h : Tail st n t) : 1 ≤ n := by
  cases h <;> omega

theorem Start.ne_nil (h : Start t) : t ≠ [] := by
  obtain ⟨x, y, z, u, rfl, _⟩ := h; simp

theorem more_start (h : Start t) : more t n sc hr fc = ivl t n sc hr fc := by
  simp [more, h.ne_nil]

theorem joins_iff (hc : C c) (h : Start t) :
    (isPairok c (chr t 0) && !isBadTriple (c :: t)) = decide (Joins c t) := by
  obtain ⟨x, y, z, u, rfl, hx, hy⟩ := h
  simp only [chr, List.getD_cons_zero]
  rw [pairok_iff hc hx, badTriple_iff]
  by_cases h1 : Medial c x <;> by_cases h2 : [c, x, y] ∈ badTriples <;> simp [Joins, h1, h2]

theorem shape_cvccv {w : Word} (h : Rafsi .cvccv w) :
    ∃ a b c d e, w = [a, b, c, d, e] ∧ C a ∧ V b ∧ C c ∧ C d ∧ V e ∧ Medial c d := by
  match w, h with
  | [a, b, c, d, e], ⟨h, h'⟩ => exact ⟨a, b, c, d, e, rfl, h.1, h.2.1, h.2.2.1, h.2.2.2.1, h.2.2.2.2, h'⟩

theorem shape_cvcc {w : Word} (h : Rafsi .cvcc w) :
    ∃ a b c d, w = [a, b, c, d] ∧ C a ∧ V b ∧ C c ∧ C d ∧ Medial c d := by
  match w, h with
  | [a, b, c, d], ⟨h, h'⟩ => exact ⟨a, b, c, d, rfl, h.1, h.2.1, h.2.2.1, h.2.2.2, h'⟩

theorem shape_ccvc {w : Word} (h : Rafsi .ccvc w) :
    ∃ a b c d, w = [a, b, c, d] ∧ C a ∧ C b ∧ V c ∧ C d ∧ Initial a b := by
  match w, h with
  | [a, b, c, d], ⟨h, h'⟩ => exact ⟨a, b, c, d, rfl, h.1, h.2.1, h.2.2.1, h.2.2.2, h'⟩

theorem shape_ccv {w : Word} (h : Rafsi .ccv w) :
    ∃ a b c, w = [a, b, c] ∧ C a ∧ C b ∧ V c ∧ Initial a b := by
  match w, h with
  | [a, b, c], ⟨h, h'⟩ => exact ⟨a, b, c, rfl, h.1, h.2.1, h.2.2, h'⟩

theorem shape_cvc {w : Word} (h : Rafsi .cvc w) :
    ∃ a b c, w = [a, b, c] ∧ C a ∧ V b ∧ C c := by
  match w, h with
  | [a, b, c], ⟨h, _⟩ => exact ⟨a, b, c, rfl, h.1, h.2.1, h.2.2⟩

theorem shape_cvv {w : Word} (h : Rafsi .cvv w) :
    ∃ a b c, w = [a, b, c] ∧ C a ∧ V b ∧ V c := by
  match w, h with
  | [a, b, c], ⟨h, _⟩ => exact ⟨a, b, c, rfl, h.1, h.2.1, h.2.2⟩

theorem shape_cvhv {w : Word} (h : Rafsi .cvhv w) :
    ∃ a b c, w = [a, b, '\'', c] ∧ C a ∧ V b ∧ V c := by
  match w, h with
  | [a, b, x, c], ⟨h, _⟩ =>
    obtain ⟨h1, h2, h3, h4⟩ := h
    exact ⟨a, b, c, by rw [h3], h1, h2, h4⟩

theorem shape_ccvcv {w : Word} (h : Rafsi .ccvcv w) :
    ∃ a b c d e, w = [a, b, c, d, e] ∧ C a ∧ C b ∧ V c ∧ C d ∧ V e ∧ Initial a b := by
  match w, h with
  | [a, b, c, d, e], ⟨h, h'⟩ => exact ⟨a, b, c, d, e, rfl, h.1, h.2.1, h.2.2.1, h.2.2.2.1, h.2.2.2.2, h'⟩

/-- The loop runs through a tail and reaches the end of the word. -/
theorem ivl_tail (h : Tail st n t) : ∀ (m : Nat) (sc hr fc : Bool), 0 < m →
    ∃ fc', ivl t m sc hr fc = fin (m + n) sc hr fc' := by
  induction h with
  | cvccv h =>
    intro m sc hr fc hm
    obtain ⟨a, b, c, d, e, rfl, ha, hb, hc, hd, he, hp⟩ := shape_cvccv h
    exact ⟨fc, by rw [ivl_cvccv ha hb hc hd he, pairok_iff hc hd]; simp [hp]; omega⟩
  | @ccvcv a b w h hp _ =>
    intro m sc hr fc hm
    match w, h with
    | [c, d, e], ⟨ha, hb, hc, hd, he⟩ =>
      exact ⟨fc, by rw [ivl_ccvcv ha hb hc hd he, pairok_iff ha hb]; simp [hp]; omega⟩
  | cvv h =>
    intro m sc hr fc hm
    obtain ⟨a, b, c, rfl, ha, hb, hc⟩ := shape_cvv h
    obtain ⟨m, rfl⟩ : ∃ k, m = k + 1 := ⟨m - 1, by omega⟩
    exact ⟨fc, by rw [ivl_cvv ha hb hc]; simp [more]⟩
  | cvhv h =>
    intro m sc hr fc hm
    obtain ⟨a, b, c, rfl, ha, hb, hc⟩ := shape_cvhv h
    obtain ⟨m, rfl⟩ : ∃ k, m = k + 1 := ⟨m - 1, by omega⟩
    exact ⟨fc, by rw [ivl_cvhv ha hb hc]; simp [more]⟩
  | ccv h =>
    intro m sc hr fc hm
    obtain ⟨a, b, c, rfl, ha, hb, hc, hi⟩ := shape_ccv h
    exact ⟨true, by rw [ivl_ccv_end ha hb hc, initialok_iff ha hb]; simp [hi]⟩
  | cvccy h ht ih =>
    intro m sc hr fc hm
    obtain ⟨a, b, c, d, rfl, ha, hb, hc, hd, hp⟩ := shape_cvcc h
    obtain ⟨fc', e⟩ := ih (m + 1) sc hr fc (by omega)
    refine ⟨fc', ?_⟩
    simp only [List.cons_append, List.nil_append]
    rw [ivl_cvccy ha hb hc hd, pairok_iff hc hd]
    simp only [(Tail_start ht).ne_nil, if_false, hp, decide_true, if_true, e]
    congr 1; omega
  | ccvcy h ht ih =>
    intro m sc hr fc hm
    obtain ⟨a, b, c, d, rfl, ha, hb, hc, hd, hp⟩ := shape_ccvc h
    obtain ⟨fc', e⟩ := ih (m + 1) sc hr fc (by omega)
    refine ⟨fc', ?_⟩
    simp only [List.cons_append, List.nil_append]
    rw [ivl_ccvcy ha hb hc hd, initialok_iff ha hb]
    simp only [(Tail_start ht).ne_nil, if_false, hp, decide_true, if_true, e]
    congr 1; omega
  | cvcJoin ha hb hc ht hj ih =>
    intro m sc hr fc hm
    obtain ⟨fc', e⟩ := ih (m + 1) sc hr fc (by omega)
    refine ⟨fc', ?_⟩
    have hs := Tail_start ht
    have j := joins_iff hc hs
    simp only [hj, decide_true, Bool.and_eq_true, Bool.not_eq_true'] at j
    have hm0 : ¬ m = 0 := by omega
    rw [ivl_cvc ha hb hc hs]
    simp only [hm0, if_false, j.1, j.2]
    simp [hm0, e, bind, Except.bind]
    congr 1; omega
  | cvcy ha hb hc ht hj ih =>
    intro m sc hr fc hm
    obtain ⟨fc', e⟩ := ih (m + 1) sc hr fc (by omega)
    refine ⟨fc', ?_⟩
    have hs := Tail_start ht
    have j := joins_iff hc hs
    simp only [hj, decide_false] at j
    have hm0 : ¬ m = 0 := by omega
    rw [ivl_cvcy ha hb hc hs]
    have e0 : (m == 0) = false := by simpa using hm0
    simp only [hm0, if_false, bind, Except.bind, e0, Bool.false_and, Bool.or_false, j, e]
    simp only [Bool.false_eq_true, if_false]
    congr 1; omega
  | cvvMore h ht ih =>
    intro m sc hr fc hm
    obtain ⟨a, b, c, rfl, ha, hb, hc⟩ := shape_cvv h
    obtain ⟨fc', e⟩ := ih (m + 1) sc hr fc (by omega)
    obtain ⟨m, rfl⟩ : ∃ k, m = k + 1 := ⟨m - 1, by omega⟩
    refine ⟨fc', ?_⟩
    simp only [List.cons_append, List.nil_append]
    rw [ivl_cvv ha hb hc, more_start (Tail_start ht), e]
    congr 1; omega
  | cvhvMore h ht ih =>
    intro m sc hr fc hm
    obtain ⟨a, b, c, rfl, ha, hb, hc⟩ := shape_cvhv h
    obtain ⟨fc', e⟩ := ih (m + 1) sc hr fc (by omega)
    obtain ⟨m, rfl⟩ : ∃ k, m = k + 1 := ⟨m - 1, by omega⟩
    refine ⟨fc', ?_⟩
    simp only [List.cons_append, List.nil_append]
    rw [ivl_cvhv ha hb hc, more_start (Tail_start ht), e]
    congr 1; omega
  | ccvMore h ht ih =>
    intro m sc hr fc hm
    obtain ⟨a, b, c, rfl, ha, hb, hc, hi⟩ := shape_ccv h
    obtain ⟨fc', e⟩ := ih (m + 1) sc hr fc (by omega)
    refine ⟨fc', ?_⟩
    simp only [List.cons_append, List.nil_append]
    rw [ivl_ccv ha hb hc (Tail_start ht), initialok_iff ha hb]
    simp only [hi, decide_true, if_true, e]
    congr 1; omega

end Jbo.Lujvo
