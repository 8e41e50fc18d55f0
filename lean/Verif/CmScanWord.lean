import Verif.CmScanThm
/-!
# The words that the scanner of `cmafihe` finds
-/

namespace Jbo.CmScan
open Jbo.CmTrans (Word)
open Jbo.CmScan.Spec Re

/-! ## The classes of characters -/

theorem isC_iff (c : Char) : isC c = true ↔ consonant c := List.contains_iff_mem
theorem isV_iff (c : Char) : isV c = true ↔ vowel c := List.contains_iff_mem
theorem isL_iff (c : Char) : isL c = true ↔ letter c := by
  rw [isL, Bool.or_eq_true, Bool.or_eq_true, Bool.or_eq_true, isC_iff, isV_iff, beq_iff_eq, beq_iff_eq, letter, or_assoc, or_assoc]

theorem isCNR_C (c : Char) (h : isCNR c = true) : consonant c := by
  have hm : ∀ x ∈ "bcdfgjklmnpstvxz".toList, x ∈ "bcdfgjklmnprstvxz".toList := by decide
  exact hm c (List.contains_iff_mem.1 h)

theorem vowel_not_consonant {c : Char} (h : vowel c) : ¬ consonant c := by
  have hm : ∀ x ∈ "aeiou".toList, x ∉ "bcdfgjklmnprstvxz".toList := by decide
  exact hm c h

theorem y_not_consonant : ¬ consonant 'y' := by decide
theorem quote_not_consonant : ¬ consonant '\'' := by decide
theorem dot_not_consonant : ¬ consonant '.' := by decide

/-! ## The characters of a match -/

/-- All characters that a regular expression can match. -/
def Over (P : Char → Prop) : Re → Prop
  | .none | .eps => True
  | .set p => ∀ c, p c = true → P c
  | .seq a b | .alt a b => Over P a ∧ Over P b
  | .star a => Over P a

theorem over_lang {P : Char → Prop} : ∀ (r : Re) (w : Word), Over P r → r.Lang w → ∀ c ∈ w, P c
  | .none, _, _, h, _, _ => h.elim
  | .eps, w, _, h, c, hc => by rw [h] at hc; cases hc
  | .set p, w, ho, ⟨x, e, hx⟩, c, hc => by rw [e, List.mem_singleton] at hc; subst hc; exact ho c hx
  | .seq a b, w, ho, ⟨u, v, e, h1, h2⟩, c, hc => by
    rw [e, List.mem_append] at hc
    rcases hc with hc | hc
    · exact over_lang a u ho.1 h1 c hc
    · exact over_lang b v ho.2 h2 c hc
  | .alt a b, w, ho, h, c, hc => by
    rcases h with h | h
    · exact over_lang a w ho.1 h c hc
    · exact over_lang b w ho.2 h c hc
  | .star a, w, ho, ⟨ws, e, hw⟩, c, hc => by
    rw [e] at hc
    obtain ⟨u, hu, hcu⟩ := List.mem_flatten.1 hc
    exact over_lang a u ho (hw u hu) c hcu

/-- Regular expressions that match nothing. -/
def void : Re → Bool
  | .none => true
  | .eps | .set _ | .star _ => false
  | .seq a b => void a || void b
  | .alt a b => void a && void b

theorem void_lang : ∀ (r : Re) (w : Word), void r = true → ¬ r.Lang w
  | .none, _, _, h => h.elim
  | .seq a b, w, hv, ⟨u, v, _, h1, h2⟩ => by
    rw [void, Bool.or_eq_true] at hv
    rcases hv with hv | hv
    · exact void_lang a u hv h1
    · exact void_lang b v hv h2
  | .alt a b, w, hv, h => by
    rw [void, Bool.and_eq_true] at hv
    rcases h with h | h
    · exact void_lang a w hv.1 h
    · exact void_lang b w hv.2 h

theorem void_first {r : Re} {x : Char} {t : Word} (h : void (r.deriv x) = true) : ¬ r.Lang (x :: t) :=
  fun hl => void_lang _ t h ((deriv_iff x r t).2 hl)

/-! ## The rules for words -/

theorem lang_LV {w : Word} : LV.Lang w ↔ ∃ m y, w = m ++ [y] ∧ m ≠ [] ∧ (∀ c ∈ m, letter c) ∧ vowel y := by
  constructor
  · rintro ⟨u, v, rfl, h1, y, rfl, h2⟩
    obtain ⟨h3, h4⟩ := lang_plus_set.1 h1
    exact ⟨u, y, rfl, h3, fun c hc => (isL_iff c).1 (h4 c hc), (isV_iff y).1 h2⟩
  · rintro ⟨m, y, rfl, h1, h2, h3⟩
    exact ⟨m, [y], rfl, lang_plus_set.2 ⟨h1, fun c hc => (isL_iff c).2 (h2 c hc)⟩, y, rfl, (isV_iff y).2 h3⟩

theorem lang_brivla {w : Word} : (seq C LV).Lang w ↔ BrivlaForm w := by
  constructor
  · rintro ⟨u, v, rfl, ⟨x, rfl, hx⟩, h⟩
    obtain ⟨m, y, rfl, h1, h2, h3⟩ := lang_LV.1 h
    exact ⟨x, m, y, rfl, h1, (isC_iff x).1 hx, h3, h2⟩
  · rintro ⟨x, m, y, rfl, h1, hx, h3, h2⟩
    exact ⟨[x], m ++ [y], rfl, ⟨x, rfl, (isC_iff x).2 hx⟩, lang_LV.2 ⟨m, y, rfl, h1, h2, h3⟩⟩

theorem lang_BM3 {w : Word} : BM3.Lang w ↔ TiedWithY w := by
  constructor
  · rintro ⟨_, _, rfl, ⟨a, rfl, ha⟩, _, _, rfl, ⟨b, rfl, hb⟩, _, _, rfl, ⟨c, rfl, hc⟩, _, _, rfl, hy, _, _, rfl, ⟨e, rfl, he⟩, h⟩
    obtain rfl := lang_chr.1 hy
    obtain ⟨m, f, rfl, h1, h2, h3⟩ := lang_LV.1 h
    exact ⟨a, b, c, e, m, f, rfl, h1, (isC_iff a).1 ha, (isV_iff b).1 hb, (isC_iff c).1 hc, (isC_iff e).1 he, h2, h3⟩
  · rintro ⟨a, b, c, e, m, f, rfl, h1, ha, hb, hc, he, h2, h3⟩
    exact ⟨[a], _, rfl, ⟨a, rfl, (isC_iff a).2 ha⟩, [b], _, rfl, ⟨b, rfl, (isV_iff b).2 hb⟩, [c], _, rfl, ⟨c, rfl, (isC_iff c).2 hc⟩,
      ['y'], _, rfl, lang_chr.2 rfl, [e], m ++ [f], rfl, ⟨e, rfl, (isC_iff e).2 he⟩, lang_LV.2 ⟨m, f, rfl, h1, h2, h3⟩⟩

theorem lang_VVY {w : Word} : VVY.Lang w ↔ (∃ a, w = [a] ∧ vowel a) ∨ (∃ a b, w = [a, b] ∧ vowel a ∧ vowel b) ∨ w = ['y'] := by
  constructor
  · rintro (⟨_, _, rfl, ⟨a, rfl, ha⟩, h⟩ | h)
    · rcases h with ⟨b, rfl, hb⟩ | rfl
      · exact .inr (.inl ⟨a, b, rfl, (isV_iff a).1 ha, (isV_iff b).1 hb⟩)
      · exact .inl ⟨a, rfl, (isV_iff a).1 ha⟩
    · exact .inr (.inr (lang_chr.1 h))
  · rintro (⟨a, rfl, ha⟩ | ⟨a, b, rfl, ha, hb⟩ | rfl)
    · exact .inl ⟨[a], [], rfl, ⟨a, rfl, (isV_iff a).2 ha⟩, .inr rfl⟩
    · exact .inl ⟨[a], [b], rfl, ⟨a, rfl, (isV_iff a).2 ha⟩, .inl ⟨b, rfl, (isV_iff b).2 hb⟩⟩
    · exact .inr (lang_chr.2 rfl)

theorem vowels_VVY {w : Word} (h : VVY.Lang w) : Vowels w := by
  rcases lang_VVY.1 h with ⟨a, rfl, ha⟩ | ⟨a, b, rfl, ha, hb⟩ | rfl
  · exact .one a ha
  · exact .two a b ha hb
  · exact .y

theorem lang_VCC {w : Word} : VCC.Lang w ↔ Vowels w := by
  constructor
  · rintro ⟨u, v, rfl, h1, ws, rfl, hw⟩
    have : ∀ (ws : List Word) (u : Word), Vowels u → (∀ v ∈ ws, (seq (chr '\'') VVY).Lang v) → Vowels (u ++ ws.flatten) := by
      intro ws
      induction ws with
      | nil => intro u hu _; rw [List.flatten_nil, List.append_nil]; exact hu
      | cons v ws ih =>
        intro u hu hw
        obtain ⟨q, t, e, hq, ht⟩ := hw v (List.mem_cons_self ..)
        obtain rfl := lang_chr.1 hq
        rw [List.flatten_cons, ← List.append_assoc]
        refine ih _ ?_ (fun x hx => hw x (List.mem_cons_of_mem _ hx))
        rw [e]
        exact .more u t hu (vowels_VVY ht)
    exact this ws u (vowels_VVY h1) hw
  · intro h
    induction h with
    | one a ha => exact ⟨[a], [], rfl, lang_VVY.2 (.inl ⟨a, rfl, ha⟩), [], rfl, nofun⟩
    | two a b ha hb => exact ⟨[a, b], [], rfl, lang_VVY.2 (.inr (.inl ⟨a, b, rfl, ha, hb⟩)), [], rfl, nofun⟩
    | y => exact ⟨['y'], [], rfl, lang_VVY.2 (.inr (.inr rfl)), [], rfl, nofun⟩
    | more u v _ _ ihu ihv =>
      obtain ⟨u1, _, rfl, h1, us, rfl, hus⟩ := ihu
      obtain ⟨v1, _, rfl, h2, vs, rfl, hvs⟩ := ihv
      refine ⟨u1, us.flatten ++ ('\'' :: v1 ++ vs.flatten), by simp, h1, us ++ ('\'' :: v1) :: vs, by simp, ?_⟩
      intro x hx
      rcases List.mem_append.1 hx with hx | hx
      · exact hus x hx
      · rcases List.mem_cons.1 hx with rfl | hx
        · exact ⟨['\''], v1, rfl, lang_chr.2 rfl, h2⟩
        · exact hvs x hx

theorem lang_CCC {w : Word} : CCC.Lang w ↔ ∃ c v, w = c :: v ∧ consonant c ∧ Vowels v := by
  constructor
  · rintro ⟨_, v, rfl, ⟨c, rfl, hc⟩, h⟩
    exact ⟨c, v, rfl, (isC_iff c).1 hc, lang_VCC.1 h⟩
  · rintro ⟨c, v, rfl, hc, h⟩
    exact ⟨[c], v, rfl, ⟨c, rfl, (isC_iff c).2 hc⟩, lang_VCC.2 h⟩

theorem lang_CMT {w : Word} : CMT.Lang w ↔ Cmavo w := by
  constructor
  · rintro ⟨ws, rfl, hw⟩
    induction ws with
    | nil => exact .nil
    | cons u ws ih =>
      rw [List.flatten_cons]
      have ih := ih (fun x hx => hw x (List.mem_cons_of_mem _ hx))
      rcases hw u (List.mem_cons_self ..) with h | ⟨_, v, rfl, hd, h⟩
      · obtain ⟨c, v, rfl, hc, hv⟩ := lang_CCC.1 h
        exact .cons c v _ hc hv ih
      · obtain rfl := lang_chr.1 hd
        exact .dot v _ (lang_VCC.1 h) ih
  · intro h
    induction h with
    | nil => exact ⟨[], rfl, nofun⟩
    | cons c v w hc hv _ ih =>
      obtain ⟨ws, rfl, hw⟩ := ih
      refine ⟨(c :: v) :: ws, rfl, ?_⟩
      intro x hx
      rcases List.mem_cons.1 hx with rfl | hx
      · exact .inl (lang_CCC.2 ⟨c, v, rfl, hc, hv⟩)
      · exact hw x hx
    | dot v w hv _ ih =>
      obtain ⟨ws, rfl, hw⟩ := ih
      refine ⟨('.' :: v) :: ws, rfl, ?_⟩
      intro x hx
      rcases List.mem_cons.1 hx with rfl | hx
      · exact .inr ⟨['.'], v, rfl, lang_chr.2 rfl, lang_VCC.2 hv⟩
      · exact hw x hx

/-- **The rule for cmavo.** -/
theorem lang_CM {w : Word} : CM.Lang w ↔ CmavoForm w := by
  constructor
  · rintro (⟨_, v, rfl, h1, h2⟩ | ⟨_, _, rfl, h0, u, v, rfl, h1, h2⟩)
    · obtain ⟨c, u, rfl, hc, hu⟩ := lang_CCC.1 h1
      exact .inl ⟨nofun, .cons c u v hc hu (lang_CMT.1 h2)⟩
    · rcases lang_opt.1 h0 with h0 | rfl
      · obtain rfl := lang_chr.1 h0
        exact .inl ⟨nofun, .dot u v (lang_VCC.1 h1) (lang_CMT.1 h2)⟩
      · exact .inr ⟨u, v, rfl, lang_VCC.1 h1, lang_CMT.1 h2⟩
  · rintro (⟨hn, h⟩ | ⟨u, v, rfl, hu, hv⟩)
    · cases h with
      | nil => exact absurd rfl hn
      | cons c v w hc hv hw => exact .inl ⟨c :: v, w, rfl, lang_CCC.2 ⟨c, v, rfl, hc, hv⟩, lang_CMT.2 hw⟩
      | dot v w hv hw => exact .inr ⟨['.'], v ++ w, rfl, lang_opt.2 (.inl (lang_chr.2 rfl)), v, w, rfl, lang_VCC.2 hv, lang_CMT.2 hw⟩
    · exact .inr ⟨[], u ++ v, rfl, lang_opt.2 (.inr rfl), u, v, rfl, lang_VCC.2 hu, lang_CMT.2 hv⟩

theorem lang_letters {w : Word} : (star LC).Lang w ↔ Letters w := by
  constructor
  · rintro ⟨ws, rfl, hw⟩
    induction ws with
    | nil => exact .nil
    | cons u ws ih =>
      rw [List.flatten_cons]
      have ih := ih (fun x hx => hw x (List.mem_cons_of_mem _ hx))
      obtain ⟨_, v, rfl, ⟨c, rfl, hc⟩, h⟩ := hw u (List.mem_cons_self ..)
      rcases lang_opt.1 h with h | rfl
      · obtain rfl := lang_chr.1 h
        exact .comma c _ ((isL_iff c).1 hc) ih
      · exact .cons c _ ((isL_iff c).1 hc) ih
  · intro h
    induction h with
    | nil => exact ⟨[], rfl, nofun⟩
    | cons c w hc _ ih =>
      obtain ⟨ws, rfl, hw⟩ := ih
      refine ⟨[c] :: ws, rfl, ?_⟩
      intro x hx
      rcases List.mem_cons.1 hx with rfl | hx
      · exact ⟨[c], [], rfl, ⟨c, rfl, (isL_iff c).2 hc⟩, lang_opt.2 (.inr rfl)⟩
      · exact hw x hx
    | comma c w hc _ ih =>
      obtain ⟨ws, rfl, hw⟩ := ih
      refine ⟨[c, ','] :: ws, rfl, ?_⟩
      intro x hx
      rcases List.mem_cons.1 hx with rfl | hx
      · exact ⟨[c], [','], rfl, ⟨c, rfl, (isL_iff c).2 hc⟩, lang_opt.2 (.inl (lang_chr.2 rfl))⟩
      · exact hw x hx

theorem lang_dot {w : Word} : (opt (chr '.')).Lang w ↔ w ∈ [[], ['.']] := by
  rw [lang_opt, lang_chr, List.mem_cons, List.mem_singleton, or_comm]

def nameRe : Re := seq (seq (opt (chr '.')) (seq (star LC) C)) (opt (chr '.'))

/-- **The rule for cmene.** -/
theorem lang_name {w : Word} : nameRe.Lang w ↔ NameForm w := by
  constructor
  · rintro ⟨_, b, rfl, ⟨a, _, rfl, ha, m, _, rfl, hm, y, rfl, hy⟩, hb⟩
    exact ⟨a, m, y, b, by simp, lang_dot.1 ha, lang_dot.1 hb, (isC_iff y).1 hy, lang_letters.1 hm⟩
  · rintro ⟨a, m, y, b, rfl, ha, hb, hy, hm⟩
    exact ⟨a ++ m ++ [y], b, rfl, ⟨a, m ++ [y], by simp, lang_dot.2 ha, m, [y], rfl, lang_letters.2 hm, y, rfl, (isC_iff y).2 hy⟩, lang_dot.2 hb⟩

/-! ## Clusters of consonants -/

/-- No two consonants stand together. -/
def noCC : Word → Bool
  | x :: y :: t => !(isC x && isC y) && noCC (y :: t)
  | _ => true

theorem noCC_tail {x : Char} {t : Word} (h : noCC (x :: t) = true) : noCC t = true := by
  cases t with
  | nil => rfl
  | cons y t => rw [noCC, Bool.and_eq_true] at h; exact h.2

theorem noCC_skip {x : Char} {t : Word} (hx : ¬ consonant x) (h : noCC t = true) : noCC (x :: t) = true := by
  cases t with
  | nil => rfl
  | cons y t =>
    rw [noCC, h, Bool.eq_false_iff.2 (fun e => hx ((isC_iff x).1 e))]
    rfl

theorem noCC_append {u v : Word} (hu : ∀ c ∈ u, ¬ consonant c) (hv : noCC v = true) : noCC (u ++ v) = true := by
  induction u with
  | nil => exact hv
  | cons x u ih => exact noCC_skip (hu x (List.mem_cons_self ..)) (ih fun c hc => hu c (List.mem_cons_of_mem _ hc))

theorem noCC_drop {a b : Word} (h : noCC (a ++ b) = true) : noCC b = true := by
  induction a with
  | nil => exact h
  | cons x a ih => exact ih (noCC_tail h)

theorem cluster_noCC {w : Word} (h : Cluster w) : noCC w = false := by
  obtain ⟨a, b, x, y, rfl, hx, hy⟩ := h
  rw [Bool.eq_false_iff]
  intro e
  have := noCC_drop e
  rw [noCC, (isC_iff x).2 hx, (isC_iff y).2 hy] at this
  cases this

theorem vowels_ne {v : Word} (h : Vowels v) : ∀ c ∈ v, ¬ consonant c := by
  induction h with
  | one a ha => intro c hc; rw [List.mem_singleton.1 hc]; exact vowel_not_consonant ha
  | two a b ha hb =>
    intro c hc
    rcases List.mem_cons.1 hc with rfl | hc
    · exact vowel_not_consonant ha
    · rw [List.mem_singleton.1 hc]; exact vowel_not_consonant hb
  | y => intro c hc; rw [List.mem_singleton.1 hc]; exact y_not_consonant
  | more u v _ _ ihu ihv =>
    intro c hc
    rcases List.mem_append.1 hc with hc | hc
    · exact ihu c hc
    · rcases List.mem_cons.1 hc with rfl | hc
      · exact quote_not_consonant
      · exact ihv c hc

theorem vowels_some {v : Word} (h : Vowels v) : ∃ x t, v = x :: t := by
  induction h with
  | one a _ => exact ⟨a, [], rfl⟩
  | two a b _ _ => exact ⟨a, [b], rfl⟩
  | y => exact ⟨'y', [], rfl⟩
  | more u v _ _ ihu _ => obtain ⟨x, t, rfl⟩ := ihu; exact ⟨x, _, rfl⟩

theorem cmavo_noCC {w : Word} (h : Cmavo w) : noCC w = true := by
  induction h with
  | nil => rfl
  | cons c v w _ hv _ ih =>
    obtain ⟨x, t, rfl⟩ := vowels_some hv
    have hn := vowels_ne hv
    have := noCC_append hn ih
    rw [List.cons_append, List.cons_append, noCC, ← List.cons_append, this,
      Bool.eq_false_iff.2 (fun e => hn x (List.mem_cons_self ..) ((isC_iff x).1 e))]
    cases isC c <;> rfl
  | dot v w hv _ ih => exact noCC_skip dot_not_consonant (noCC_append (vowels_ne hv) ih)

theorem form_noCC {w : Word} (h : CmavoForm w) : noCC w = true := by
  rcases h with ⟨_, h⟩ | ⟨u, v, rfl, hu, hv⟩
  · exact cmavo_noCC h
  · exact noCC_append (vowels_ne hu) (cmavo_noCC hv)

/-- **A word with a cluster is no cmavo.** -/
theorem cluster_no_cmavo {w : Word} (h : Cluster w) : ¬ CmavoForm w := by
  intro hc
  have := form_noCC hc
  rw [cluster_noCC h] at this
  cases this

/-! ## The last letter -/

theorem vowels_last {v : Word} (h : Vowels v) : ∃ m y, v = m ++ [y] ∧ (vowel y ∨ y = 'y') := by
  induction h with
  | one a ha => exact ⟨[], a, rfl, .inl ha⟩
  | two a b _ hb => exact ⟨[a], b, rfl, .inl hb⟩
  | y => exact ⟨[], 'y', rfl, .inr rfl⟩
  | more u v _ _ _ ihv => obtain ⟨m, y, rfl, hy⟩ := ihv; exact ⟨u ++ '\'' :: m, y, by simp, hy⟩

theorem cmavo_last {w : Word} (h : Cmavo w) : w = [] ∨ ∃ m y, w = m ++ [y] ∧ (vowel y ∨ y = 'y') := by
  have step : ∀ (a v w : Word), Vowels v → (w = [] ∨ ∃ m y, w = m ++ [y] ∧ (vowel y ∨ y = 'y')) →
      ∃ m y, a ++ v ++ w = m ++ [y] ∧ (vowel y ∨ y = 'y') := by
    intro a v w hv hw
    rcases hw with rfl | ⟨m, y, rfl, hy⟩
    · obtain ⟨m, y, rfl, hy⟩ := vowels_last hv
      exact ⟨a ++ m, y, by simp, hy⟩
    · exact ⟨a ++ v ++ m, y, by simp, hy⟩
  induction h with
  | nil => exact .inl rfl
  | cons c v w _ hv _ ih => exact .inr (step [c] v w hv ih)
  | dot v w hv _ ih => exact .inr (step ['.'] v w hv ih)

theorem form_last {w : Word} (h : CmavoForm w) : ∃ m y, w = m ++ [y] ∧ (vowel y ∨ y = 'y') := by
  rcases h with ⟨hn, h⟩ | ⟨u, v, rfl, hu, hv⟩
  · exact (cmavo_last h).resolve_left hn
  · rcases cmavo_last hv with rfl | ⟨m, y, rfl, hy⟩
    · rw [List.append_nil]; exact vowels_last hu
    · exact ⟨u ++ m, y, by simp, hy⟩

theorem name_last {w : Word} (h : NameForm w) : ∃ m y, w = m ++ [y] ∧ (consonant y ∨ y = '.') := by
  obtain ⟨a, m, y, b, rfl, _, hb, hy, _⟩ := h
  rw [List.mem_cons, List.mem_singleton] at hb
  rcases hb with rfl | rfl
  · exact ⟨a ++ m, y, by simp, .inl hy⟩
  · exact ⟨a ++ m ++ [y], '.', rfl, .inr rfl⟩

theorem last_inj {a b : Word} {x y : Char} (h : a ++ [x] = b ++ [y]) : x = y := by
  have := List.append_inj' h rfl
  exact (List.cons.inj this.2).1

theorem cmavo_not_name {w : Word} (h : CmavoForm w) : ¬ NameForm w := by
  intro hn
  obtain ⟨m, y, rfl, hy⟩ := form_last h
  obtain ⟨m', z, e, hz⟩ := name_last hn
  obtain rfl := last_inj e
  rcases hy with hy | rfl
  · rcases hz with hz | rfl
    · exact vowel_not_consonant hy hz
    · exact absurd hy (by decide)
  · rcases hz with hz | hz
    · exact y_not_consonant hz
    · exact absurd hz (by decide)

theorem brivla_not_name {w : Word} (h : BrivlaForm w) : ¬ NameForm w := by
  intro hn
  obtain ⟨x, m, y, rfl, _, _, hy, _⟩ := h
  obtain ⟨m', z, e, hz⟩ := name_last hn
  obtain rfl := last_inj e
  rcases hz with hz | rfl
  · exact vowel_not_consonant hy hz
  · exact absurd hy (by decide)

/-! ## The special patterns for brivla -/

theorem consonant_letter {c : Char} (h : consonant c) : letter c := .inl h
theorem vowel_letter {c : Char} (h : vowel c) : letter c := .inr (.inl h)

theorem tied_brivla {w : Word} (h : TiedWithY w) : BrivlaForm w := by
  obtain ⟨a, b, c, e, m, f, rfl, _, ha, hb, hc, he, hm, hf⟩ := h
  refine ⟨a, b :: c :: 'y' :: e :: m, f, rfl, nofun, ha, hf, ?_⟩
  intro x hx
  rcases List.mem_cons.1 hx with rfl | hx
  · exact vowel_letter hb
  rcases List.mem_cons.1 hx with rfl | hx
  · exact consonant_letter hc
  rcases List.mem_cons.1 hx with rfl | hx
  · exact .inr (.inr (.inl rfl))
  rcases List.mem_cons.1 hx with rfl | hx
  · exact consonant_letter he
  · exact hm x hx

theorem quote_opt {q : Word} (h : (opt (chr '\'')).Lang q) : ∀ c ∈ q, letter c := by
  rcases lang_opt.1 h with h | rfl
  · rw [lang_chr.1 h]; intro c hc; rw [List.mem_singleton.1 hc]; exact .inr (.inr (.inr rfl))
  · nofun

/-- **The special patterns.**  They match brivla only: such as are tied with `y` after a first rafsi CVC, and such as have a cluster. -/
theorem lang_BM {w : Word} (h : BM.Lang w) : BrivlaForm w ∧ (TiedWithY w ∨ Cluster w) := by
  rcases h with (h | h) | h
  · obtain ⟨_, _, rfl, ⟨a, rfl, ha⟩, _, _, rfl, ⟨b, rfl, hb⟩, q, _, rfl, hq, _, _, rfl, ⟨c, rfl, hc⟩, _, _, rfl, hr, _, _, rfl, ⟨e, rfl, he⟩, h⟩ := h
    obtain rfl := lang_chr.1 hr
    obtain ⟨m, f, rfl, h1, h2, h3⟩ := lang_LV.1 h
    have he' := isCNR_C e he
    refine ⟨⟨a, b :: q ++ c :: 'r' :: e :: m, f, by simp, by simp, (isC_iff a).1 ha, h3, ?_⟩, .inr ⟨a :: b :: q ++ [c], m ++ [f], 'r', e, by simp, by decide, he'⟩⟩
    intro x hx
    rcases List.mem_append.1 hx with hx | hx
    · rcases List.mem_cons.1 hx with rfl | hx
      · exact vowel_letter ((isV_iff _).1 hb)
      · exact quote_opt hq x hx
    rcases List.mem_cons.1 hx with rfl | hx
    · exact vowel_letter ((isV_iff _).1 hc)
    rcases List.mem_cons.1 hx with rfl | hx
    · exact consonant_letter (by decide)
    rcases List.mem_cons.1 hx with rfl | hx
    · exact consonant_letter he'
    · exact h2 x hx
  · obtain ⟨_, _, rfl, ⟨a, rfl, ha⟩, _, _, rfl, ⟨b, rfl, hb⟩, q, _, rfl, hq, _, _, rfl, ⟨c, rfl, hc⟩, _, _, rfl, hn, _, _, rfl, hr, h⟩ := h
    obtain rfl := lang_chr.1 hn
    obtain rfl := lang_chr.1 hr
    obtain ⟨m, f, rfl, h1, h2, h3⟩ := lang_LV.1 h
    refine ⟨⟨a, b :: q ++ c :: 'n' :: 'r' :: m, f, by simp, by simp, (isC_iff a).1 ha, h3, ?_⟩, .inr ⟨a :: b :: q ++ [c], m ++ [f], 'n', 'r', by simp, by decide, by decide⟩⟩
    intro x hx
    rcases List.mem_append.1 hx with hx | hx
    · rcases List.mem_cons.1 hx with rfl | hx
      · exact vowel_letter ((isV_iff _).1 hb)
      · exact quote_opt hq x hx
    rcases List.mem_cons.1 hx with rfl | hx
    · exact vowel_letter ((isV_iff _).1 hc)
    rcases List.mem_cons.1 hx with rfl | hx
    · exact consonant_letter (by decide)
    rcases List.mem_cons.1 hx with rfl | hx
    · exact consonant_letter (by decide)
    · exact h2 x hx
  · have := lang_BM3.1 h
    exact ⟨tied_brivla this, .inl this⟩

/-! ## A word is one match -/

def wordChar (c : Char) : Prop := letter c ∨ c = ',' ∨ c = '.'

theorem chars_form : Over wordChar CM := by
  have hV : ∀ c, isV c = true → wordChar c := fun c h => .inl (vowel_letter ((isV_iff c).1 h))
  have hC : ∀ c, isC c = true → wordChar c := fun c h => .inl (consonant_letter ((isC_iff c).1 h))
  have hy : ∀ c, (c == 'y') = true → wordChar c := fun c h => .inl (.inr (.inr (.inl (beq_iff_eq.1 h))))
  have hq : ∀ c, (c == '\'') = true → wordChar c := fun c h => .inl (.inr (.inr (.inr (beq_iff_eq.1 h))))
  have hd : ∀ c, (c == '.') = true → wordChar c := fun c h => .inr (.inr (beq_iff_eq.1 h))
  simp only [CM, CCC, VCC, CMT, VVY, VV, more, C, V, chr, opt, Over]
  exact ⟨⟨⟨hC, ⟨⟨hV, hV, trivial⟩, hy⟩, hq, ⟨hV, hV, trivial⟩, hy⟩, ⟨hC, ⟨⟨hV, hV, trivial⟩, hy⟩, hq, ⟨hV, hV, trivial⟩, hy⟩, hd,
    ⟨⟨hV, hV, trivial⟩, hy⟩, hq, ⟨hV, hV, trivial⟩, hy⟩, ⟨hd, trivial⟩, ⟨⟨⟨hV, hV, trivial⟩, hy⟩, hq, ⟨hV, hV, trivial⟩, hy⟩,
    ⟨hC, ⟨⟨hV, hV, trivial⟩, hy⟩, hq, ⟨hV, hV, trivial⟩, hy⟩, hd, ⟨⟨hV, hV, trivial⟩, hy⟩, hq, ⟨hV, hV, trivial⟩, hy⟩

theorem chars_name : Over wordChar nameRe := by
  have hC : ∀ c, isC c = true → wordChar c := fun c h => .inl (consonant_letter ((isC_iff c).1 h))
  have hL : ∀ c, isL c = true → wordChar c := fun c h => .inl ((isL_iff c).1 h)
  have hk : ∀ c, (c == ',') = true → wordChar c := fun c h => .inr (.inl (beq_iff_eq.1 h))
  have hd : ∀ c, (c == '.') = true → wordChar c := fun c h => .inr (.inr (beq_iff_eq.1 h))
  simp only [nameRe, LC, L, C, chr, opt, Over]
  exact ⟨⟨⟨hd, trivial⟩, ⟨hL, hk, trivial⟩, hC⟩, hd, trivial⟩

theorem brivla_chars {w : Word} (h : BrivlaForm w) : ∀ c ∈ w, letter c := by
  obtain ⟨x, m, y, rfl, _, hx, hy, hm⟩ := h
  intro c hc
  rw [List.cons_append] at hc
  rcases List.mem_cons.1 hc with rfl | hc
  · exact consonant_letter hx
  · rcases List.mem_append.1 hc with hc | hc
    · exact hm c hc
    · rw [List.mem_singleton.1 hc]; exact vowel_letter hy

/-- The characters with which a word can begin. -/
def starts : List Char := "bcdfgjklmnprstvxzaeiouy',.".toList

theorem wordChar_starts {c : Char} (h : wordChar c) : c ∈ starts := by
  have h1 : ∀ x ∈ "bcdfgjklmnprstvxz".toList, x ∈ starts := by decide
  have h2 : ∀ x ∈ "aeiou".toList, x ∈ starts := by decide
  rcases h with (h | h | rfl | rfl) | rfl | rfl
  · exact h1 c h
  · exact h2 c h
  all_goals decide

theorem other_rules : ∀ x ∈ starts, void ((plus (set fun c => c == ' ' || c == '\t')).deriv x) = true ∧ void (NL.deriv x) = true ∧
    void ((seq NL (plus NL)).deriv x) = true ∧ void ((set isOpen).deriv x) = true := by decide +kernel

theorem not_accepts {r : Re} {w : Word} (h : ¬ r.Lang w) : r.accepts w = false := Bool.eq_false_iff.2 (fun e => h ((accepts_iff r w).1 e))

/-- No rule matches more than a word. -/
theorem no_longer {w : Word} {c : Char} {t : Word} (hw : w ≠ []) (hc : ∀ x ∈ w, wordChar x) (he : Ends (c :: t)) :
    firstRule rules (w ++ c :: t) = .none := by
  obtain ⟨h1, h2, h3, h4, h5⟩ := he c rfl
  have hnw : ¬ wordChar c := by exact fun h => h.elim h1 (fun h => h.elim h2 h3)
  have hm : c ∈ w ++ c :: t := List.mem_append_right _ (List.mem_cons_self ..)
  have hBM : ¬ BM.Lang (w ++ c :: t) := fun h => h1 (brivla_chars (lang_BM h).1 c hm)
  have hCM : ¬ CM.Lang (w ++ c :: t) := fun h => hnw (over_lang _ _ chars_form h c hm)
  have hB : ¬ (seq C LV).Lang (w ++ c :: t) := fun h => h1 (brivla_chars (lang_brivla.1 h) c hm)
  have hN : ¬ nameRe.Lang (w ++ c :: t) := fun h => hnw (over_lang _ _ chars_name h c hm)
  have hL : ¬ (plus L).Lang (w ++ c :: t) := fun h => h1 ((isL_iff c).1 ((lang_plus_set.1 h).2 c hm))
  have hA : ¬ (plus (set isAlpha)).Lang (w ++ c :: t) := by
    intro h
    have := (lang_plus_set.1 h).2 c hm
    rw [isAlpha, Bool.or_eq_true, Bool.and_eq_true, Bool.and_eq_true] at this
    rcases this with h | h
    · exact h4 ⟨of_decide_eq_true h.1, of_decide_eq_true h.2⟩
    · exact h5 ⟨of_decide_eq_true h.1, of_decide_eq_true h.2⟩
  have hD : ¬ (set (· != '\n')).Lang (w ++ c :: t) := by
    rintro ⟨x, e, _⟩
    match w, hw with
    | a :: w, _ =>
      rw [List.cons_append, List.cons.injEq] at e
      have := e.2
      simp at this
  match w, hw with
  | x :: w, _ =>
    obtain ⟨o1, o2, o3, o4⟩ := other_rules x (wordChar_starts (hc x (List.mem_cons_self ..)))
    have q1 := void_first (t := w ++ c :: t) o1
    have q2 := void_first (t := w ++ c :: t) o2
    have q3 := void_first (t := w ++ c :: t) o3
    have q4 := void_first (t := w ++ c :: t) o4
    rw [firstRule, Option.map_eq_none_iff, List.find?_eq_none]
    intro r hr
    rw [accepts_iff]
    rw [rules] at hr
    simp only [List.mem_cons, List.not_mem_nil, or_false] at hr
    rcases hr with rfl | rfl | rfl | rfl | rfl | rfl | rfl | rfl | rfl | rfl | rfl
    · exact hBM
    · exact hCM
    · exact hB
    · exact hN
    · exact hL
    · exact q1
    · exact q2
    · exact q3
    · exact q4
    · exact hA
    · exact hD

theorem is_chars {w : Word} {k : Kind} (h : Is w k) : w ≠ [] ∧ ∀ c ∈ w, wordChar c := by
  cases k with
  | brivla =>
    refine ⟨?_, fun c hc => .inl (brivla_chars h.1 c hc)⟩
    obtain ⟨⟨x, m, y, rfl, _⟩, _⟩ := h
    nofun
  | cmavo =>
    refine ⟨?_, over_lang _ _ chars_form (lang_CM.2 h.1)⟩
    obtain ⟨m, y, rfl, _⟩ := form_last h.1
    simp
  | cmene =>
    refine ⟨?_, over_lang _ _ chars_name (lang_name.2 h)⟩
    obtain ⟨m, y, rfl, _⟩ := name_last h
    simp
  | fallthru => exact ⟨h.1, fun c hc => .inl (h.2.1 c hc)⟩
  | skip => exact h.elim
  | newline => exact h.elim
  | paren => exact h.elim

/-- The rule for the word itself. -/
theorem rule_of {w : Word} {k : Kind} (h : Is w k) : firstRule rules w = some (k, 0) := by
  have hname : nameRe = seq (seq (opt (chr '.')) (seq (star LC) C)) (opt (chr '.')) := rfl
  cases k with
  | brivla =>
    obtain ⟨hb, ht⟩ := h
    by_cases hBM : BM.Lang w
    · simp [firstRule, rules, (accepts_iff _ _).2 hBM]
    · have hCM : ¬ CM.Lang w := by
        rcases ht with ht | ht
        · exact absurd (.inr (lang_BM3.2 ht)) hBM
        · exact fun e => ht (lang_CM.1 e)
      simp [firstRule, rules, not_accepts hBM, not_accepts hCM, (accepts_iff _ _).2 (lang_brivla.2 hb)]
  | cmavo =>
    have hBM : ¬ BM.Lang w := by
      intro e
      rcases (lang_BM e).2 with e | e
      · exact h.2 e
      · exact cluster_no_cmavo e h.1
    simp [firstRule, rules, not_accepts hBM, (accepts_iff _ _).2 (lang_CM.2 h.1)]
  | cmene =>
    have hB : ¬ BrivlaForm w := fun e => brivla_not_name e h
    have hBM : ¬ BM.Lang w := fun e => hB (lang_BM e).1
    have hCM : ¬ CM.Lang w := fun e => cmavo_not_name (lang_CM.1 e) h
    simp [firstRule, rules, not_accepts hBM, not_accepts hCM, not_accepts (fun e => hB (lang_brivla.1 e)), ← hname, (accepts_iff _ _).2 (lang_name.2 h)]
  | fallthru =>
    obtain ⟨h0, h1, hB, hC, hN⟩ := h
    have hBM : ¬ BM.Lang w := fun e => hB (lang_BM e).1
    have hCM : ¬ CM.Lang w := fun e => hC (lang_CM.1 e)
    have hL : (plus L).Lang w := lang_plus_set.2 ⟨h0, fun c hc => (isL_iff c).2 (h1 c hc)⟩
    simp [firstRule, rules, not_accepts hBM, not_accepts hCM, not_accepts (fun e => hB (lang_brivla.1 e)), ← hname,
      not_accepts (fun e => hN (lang_name.1 e)), (accepts_iff _ _).2 hL]
  | skip => exact h.elim
  | newline => exact h.elim
  | paren => exact h.elim

/-- **A word is one match, of its own kind**, whatever comes after it. -/
theorem word_found {w : Word} {k : Kind} (h : Is w k) (rest : Word) (he : Ends rest) :
    munch rules (w ++ rest) (w ++ rest).length = some (w.length, k, 0) := by
  obtain ⟨hn, hc⟩ := is_chars h
  have hp : 1 ≤ w.length := by cases w with | nil => exact absurd rfl hn | cons => simp
  refine munch_eq _ _ _ _ hp ?_ _ (by simp) ?_
  · rw [List.take_left]; exact rule_of h
  · intro n h1 h2
    rw [List.take_append, List.take_of_length_le (by omega)]
    obtain ⟨d, hd⟩ : ∃ d, n - w.length = d + 1 := ⟨n - w.length - 1, by omega⟩
    rw [hd]
    cases rest with
    | nil => rw [List.append_nil] at h2; omega
    | cons c t =>
      rw [List.take_succ_cons]
      exact no_longer hn hc (fun x hx => he x hx)

/-- Every word of letters is of one kind. -/
theorem is_some {w : Word} (hn : w ≠ []) (h : ∀ c ∈ w, letter c) : ∃ k, Is w k := by
  by_cases h1 : TiedWithY w
  · exact ⟨.brivla, tied_brivla h1, .inl h1⟩
  by_cases h2 : CmavoForm w
  · exact ⟨.cmavo, h2, h1⟩
  by_cases h3 : BrivlaForm w
  · exact ⟨.brivla, h3, .inr h2⟩
  by_cases h4 : NameForm w
  · exact ⟨.cmene, h4⟩
  · exact ⟨.fallthru, hn, h, h3, h2, h4⟩

theorem is_unique {w : Word} {k l : Kind} (h : Is w k) (h' : Is w l) : k = l := by
  have := (rule_of h).symm.trans (rule_of h')
  exact (Prod.mk.inj (Option.some.inj this)).1

end Jbo.CmScan
