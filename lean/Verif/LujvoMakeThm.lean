import Verif.LujvoGlueThm
import Verif.LujvoTabThm
import Verif.LujvoOdoThm
/-!
# The lujvo maker (C20, C22, C23)
-/

namespace Jbo.Lujvo

open Jbo Spec

variable {a b c d e : Char} {t : Word} {n : Nat} {st : Bool} {o : Opts}

/-! ## Forms of components -/

theorem cut_medial {w : Word} (h : Rafsi .cvccv w) : Rafsi .cvcc w.dropLast := by
  obtain ⟨a, b, c, d, e, rfl, ha, hb, hc, hd, he, hm⟩ := shape_cvccv h
  exact ⟨⟨ha, hb, hc, hd⟩, hm⟩

theorem cut_initial {w : Word} (h : Rafsi .ccvcv w) : Rafsi .ccvc w.dropLast := by
  obtain ⟨a, b, c, d, e, rfl, ha, hb, hc, hd, he, hm⟩ := shape_ccvcv h
  exact ⟨⟨ha, hb, hc, hd⟩, hm⟩

/-- For listed rafsi the code's test of the last letter is the right one. -/
theorem endsV_iff {r : Word} (h : Rafsi .cvc r ∨ Rafsi .cvhv r ∨ Rafsi .ccv r ∨ Rafsi .cvv r) :
    isV (r.getLastD '\x00') = true ↔ ∃ u c, r = u ++ [c] ∧ V c := by
  have key : ∀ (u : Word) (c : Char), c ∈ letters →
      (isV ((u ++ [c]).getLastD '\x00') = true ↔ ∃ u' c', u ++ [c] = u' ++ [c'] ∧ V c') := by
    intro u c hc
    have hl : (u ++ [c]).getLastD '\x00' = c := by simp [List.getLastD_eq_getLast?]
    rw [hl]
    constructor
    · intro h; exact ⟨u, c, rfl, V_of_isV hc h⟩
    · rintro ⟨u', c', he, hv⟩
      have := (List.append_inj' he rfl).2
      simp only [List.cons.injEq, and_true] at this
      subst this
      exact hv.isV
  rcases h with h | h | h | h
  · obtain ⟨a, b, c, rfl, ha, hb, hc⟩ := shape_cvc h
    exact key [a, b] c (C.mem hc)
  · obtain ⟨a, b, c, rfl, ha, hb, hc⟩ := shape_cvhv h
    exact key [a, b, '\''] c (V.mem hc)
  · obtain ⟨a, b, c, rfl, ha, hb, hc, _⟩ := shape_ccv h
    exact key [a, b] c (V.mem hc)
  · obtain ⟨a, b, c, rfl, ha, hb, hc⟩ := shape_cvv h
    exact key [a, b] c (V.mem hc)

/-- The forms the maker tries are exactly the allowed ones. -/
theorem mem_forms {w : Word} {short : List Word} (he : (w, short) ∈ wordTable) (last : Bool) (r : Word) :
    r ∈ forms o last w short ↔ Allowed o last w short r := by
  unfold forms Allowed
  cases last with
  | true =>
    simp only [if_true]
    have hf : ∀ x ∈ short, (isV (x.getLastD '\x00') = true ↔ ∃ u c, x = u ++ [c] ∧ V c) :=
      fun x hx => endsV_iff (short_ok he hx).2
    have h1 : r ∈ short.filter (fun x => isV (x.getLastD '\x00')) ↔
        (r ∈ short ∧ ∃ u c, r = u ++ [c] ∧ V c) := by
      rw [List.mem_filter]
      constructor
      · rintro ⟨h, h'⟩; exact ⟨h, (hf r h).1 h'⟩
      · rintro ⟨h, h'⟩; exact ⟨h, (hf r h).2 h'⟩
    have h2 : (short.filter (fun x => isV (x.getLastD '\x00'))).isEmpty = true ↔
        ∀ x ∈ short, ¬ ∃ u c, x = u ++ [c] ∧ V c := by
      rw [List.isEmpty_iff, List.filter_eq_nil_iff]
      constructor
      · intro h x hx hn; exact h x hx ((hf x hx).2 hn)
      · intro h x hx hn; exact h x hx ((hf x hx).1 hn)
    by_cases hc : ((o.uselong || (short.filter (fun x => isV (x.getLastD '\x00'))).isEmpty) &&
        w.length == 5) = true
    · rw [if_pos hc, List.mem_append, h1, List.mem_singleton]
      simp only [Bool.and_eq_true, Bool.or_eq_true, beq_iff_eq, h2] at hc
      constructor
      · rintro (h | rfl)
        · exact .inl h
        · exact .inr ⟨rfl, hc.2, hc.1⟩
      · rintro (h | h)
        · exact .inl h
        · exact .inr h.1
    · rw [if_neg hc, h1]
      simp only [Bool.and_eq_true, Bool.or_eq_true, beq_iff_eq, h2] at hc
      constructor
      · exact .inl
      · rintro (h | h)
        · exact h
        · exact (hc ⟨h.2.2, h.2.1⟩).elim
  | false =>
    simp only [Bool.false_eq_true, if_false]
    have hw : w.length = 5 → (r = w.dropLast ↔ r.length = 4 ∧ ∃ c, w = r ++ [c]) := by
      intro h5
      match w, h5 with
      | [a, b, c, d, e], _ =>
      constructor
      · rintro rfl; exact ⟨rfl, e, rfl⟩
      · rintro ⟨_, c, hc⟩; rw [hc]; simp
    have h4 : r.length = 4 → (∃ c, w = r ++ [c]) → w.length = 5 := by
      rintro h ⟨c, rfl⟩; simp [h]
    have ht : r.length = 4 → (∃ c, w = r ++ [c]) → w.take 4 = r := by
      rintro h ⟨c, rfl⟩
      rw [List.take_append_of_le_length (by omega), List.take_of_length_le (by omega)]
    by_cases hc : ((o.uselong || short.isEmpty) && w.length == 5) = true
    · rw [if_pos hc]
      simp only [Bool.and_eq_true, Bool.or_eq_true, beq_iff_eq, List.isEmpty_iff] at hc
      by_cases hbr : (o.allowbrod || !(w.take 4 == ['b', 'r', 'o', 'd'])) = true
      · rw [if_pos hbr, List.mem_append, List.mem_singleton, hw hc.2]
        simp only [Bool.or_eq_true, Bool.not_eq_true', beq_eq_false_iff_ne] at hbr
        constructor
        · rintro (h | ⟨h, h'⟩)
          · exact .inl h
          · refine .inr ⟨h, h', hc.1, ?_⟩
            rw [ht h h'] at hbr
            exact hbr
        · rintro (h | h)
          · exact .inl h
          · exact .inr ⟨h.1, h.2.1⟩
      · rw [if_neg hbr]
        simp only [Bool.or_eq_true, Bool.not_eq_true', beq_eq_false_iff_ne] at hbr
        constructor
        · exact .inl
        · rintro (h | ⟨h1, h2, _, h4⟩)
          · exact h
          · rw [ht h1 h2] at hbr
            exact (hbr h4).elim
    · rw [if_neg hc]
      simp only [Bool.and_eq_true, Bool.or_eq_true, beq_iff_eq, List.isEmpty_iff] at hc
      constructor
      · exact .inl
      · rintro (h | ⟨h1, h2, h3, _⟩)
        · exact h
        · exact (hc ⟨h3, h4 h1 h2⟩).elim

theorem allowed_last {w : Word} {short : List Word} (he : (w, short) ∈ wordTable) {r : Word}
    (h : Allowed o true w short r) : LastOk r := by
  unfold Allowed at h
  simp only [if_true] at h
  rcases h with ⟨hr, u, c, rfl, hc⟩ | ⟨rfl, h5, _⟩
  · rcases (short_ok he hr).2 with h | h | h | h
    · exfalso
      obtain ⟨x, y, z, hxyz, _, _, hz⟩ := shape_cvc h
      have := (List.append_inj' (t₂ := [z]) (s₂ := [x, y]) hxyz rfl).2
      simp only [List.cons.injEq, and_true] at this
      subst this
      exact hc.not_C hz
    · exact .inr (.inr (.inr (.inl h)))
    · exact .inr (.inr (.inr (.inr h)))
    · exact .inr (.inr (.inl h))
  · rcases (long_ok he h5).1 with h | h
    · exact .inl h
    · exact .inr (.inl h)

theorem allowed_mid {w : Word} {short : List Word} (he : (w, short) ∈ wordTable) {r : Word}
    (h : Allowed o false w short r) : MidOk r := by
  unfold Allowed at h
  simp only [Bool.false_eq_true, if_false] at h
  rcases h with hr | ⟨h4, ⟨c, rfl⟩, _⟩
  · rcases (short_ok he hr).2 with h | h | h | h
    · exact .inr (.inr (.inl h))
    · exact .inr (.inr (.inr (.inr (.inl h))))
    · exact .inr (.inr (.inr (.inr (.inr h))))
    · exact .inr (.inr (.inr (.inl h)))
  · have hd : (r ++ [c]).dropLast = r := by simp
    rcases (long_ok he (by simp [h4])).1 with h | h
    · exact .inl (hd ▸ cut_medial h)
    · exact .inr (.inl (hd ▸ cut_initial h))

/-- Allowed choices consist of components fit for their places. -/
theorem parts_of_allowed : ∀ {es : List (Word × List Word)} {rs : List Word},
    (∀ e ∈ es, e ∈ wordTable) → es ≠ [] → AllowedAll o es rs → Parts rs
  | [], _, _, h, _ => (h rfl).elim
  | [(w, short)], rs, hm, _, h => by
    match rs, h with
    | [r], h => exact .last (allowed_last (hm _ (by simp)) h.1)
  | (w, short) :: e :: es, rs, hm, _, h => by
    match rs, h with
    | r :: rs, h =>
      exact .cons (allowed_mid (hm _ (by simp)) h.1)
        (parts_of_allowed (fun x hx => hm x (List.mem_cons_of_mem _ hx)) (by simp) h.2)

/-! ## The score -/

/-- Shapes of all components. -/
def Shapes : List Word → List Shape → Prop
  | [], [] => True
  | r :: rs, s :: ss => HasShape s r ∧ Shapes rs ss
  | _, _ => False

theorem rank_eq {s : Shape} {r : Word} (h : HasShape s r) : (rank r).map Int.ofNat = some s.rank := by
  unfold HasShape at h
  split at h
  · obtain ⟨h1, h2, h3, h4, h5⟩ := h
    simp [rank, isCvccv, chr, h1.isC, h2.isV, h3.isC, h4.isC, h5.isV, Shape.rank]
  · obtain ⟨h1, h2, h3, h4⟩ := h
    simp [rank, isCvccv, isCcvcv, chr, h1.isC, h2.isV, h2.isC, h3.isC, h4.isC, Shape.rank]
  · obtain ⟨h1, h2, h3, h4, h5⟩ := h
    simp [rank, isCvccv, isCcvcv, chr, h1.isC, h2.isV, h2.isC, h3.isV, h4.isC, h5.isV, Shape.rank]
  · obtain ⟨h1, h2, h3, h4⟩ := h
    simp [rank, isCvccv, isCcvcv, chr, h1.isC, h2.isV, h2.isC, h3.isV, h4.isC, Shape.rank]
  · obtain ⟨h1, h2, h3⟩ := h
    simp [rank, isCvccv, isCcvcv, chr, h1.isC, h2.isV, h3.isC, Shape.rank]
  · obtain ⟨h1, h2, rfl, h4⟩ := h
    simp [rank, isCvccv, isCcvcv, chr, h1.isC, h2.isV, h2.isC, h4.isV, isC_apos, Shape.rank]
  · obtain ⟨h1, h2, h3⟩ := h
    simp [rank, isCvccv, isCcvcv, chr, h1.isC, h2.isV, h2.isC, h3.isV, Shape.rank]
  · obtain ⟨h1, h2, h3⟩ := h
    simp [rank, isCvccv, isCcvcv, chr, h1.isC, h2.isV, h2.isC, h3.isV, h3.isC, Shape.rank]
  · contradiction

/-- Glue is a letter that is neither a vowel nor an apostrophe. -/
def GlueOk (g : Option Char) : Prop := ∀ c, g = some c → c ∉ vowels ∧ c ≠ '\''

theorem countAll_eq : ∀ (rs : List Word) (ss : List Shape) (gs : List (Option Char)) (k : Counts),
    Shapes rs ss → (∀ g ∈ gs, GlueOk g) → gs.length ≤ rs.length →
    countAll k rs gs = .ok
      ⟨k.l + (glueWord rs gs).length,
       k.a + (glueWord rs gs).countP (· == '\''),
       k.h + (((glueWord rs gs).length : Int) - (rs.map List.length).sum),
       k.r + (ss.map Shape.rank).sum,
       k.v + (glueWord rs gs).countP (· ∈ vowels)⟩
  | [], [], gs, k, _, _, hl => by
    have : gs = [] := List.length_eq_zero_iff.1 (by simpa using hl)
    subst this
    simp [countAll, glueWord]
  | r :: rs, s :: ss, [], k, h, hg, _ => by
    have hr := rank_eq h.1
    have ih := fun k => countAll_eq rs ss [] k h.2 (by simp) (by simp)
    cases hk : rank r with
    | none => rw [hk] at hr; simp at hr
    | some rr =>
      rw [hk] at hr
      simp only [Option.map_some, Option.some.injEq] at hr
      have e1 : (List.filter (fun x => x == '\'') r).length = r.countP (· == '\'') := by
        rw [List.countP_eq_length_filter]
      have e2 : (List.filter (fun c => ['a', 'e', 'i', 'o', 'u'].contains c) r).length =
          r.countP (· ∈ vowels) := by
        rw [List.countP_eq_length_filter]
        congr 1
        apply List.filter_congr
        intro x _
        simp only [List.contains_eq_mem]
        rfl
      simp only [countAll, countOne, hk, bind, Except.bind, ih, e1, e2, Option.isSome_none,
        Bool.false_eq_true, if_false, glueWord, List.length_append, List.countP_append, List.map_cons,
        List.sum_cons, ← hr, Except.ok.injEq, Counts.mk.injEq, Int.ofNat_eq_natCast]
      refine ⟨by omega, by omega, by omega, by omega, by omega⟩
  | r :: rs, s :: ss, g :: gs, k, h, hg, hl => by
    have hr := rank_eq h.1
    have ih := fun k => countAll_eq rs ss gs k h.2 (fun x hx => hg x (by simp [hx]))
      (by simpa using hl)
    cases hk : rank r with
    | none => rw [hk] at hr; simp at hr
    | some rr =>
      rw [hk] at hr
      simp only [Option.map_some, Option.some.injEq] at hr
      have e1 : (List.filter (fun x => x == '\'') r).length = r.countP (· == '\'') := by
        rw [List.countP_eq_length_filter]
      have e2 : (List.filter (fun c => ['a', 'e', 'i', 'o', 'u'].contains c) r).length =
          r.countP (· ∈ vowels) := by
        rw [List.countP_eq_length_filter]
        congr 1
        apply List.filter_congr
        intro x _
        simp only [List.contains_eq_mem]
        rfl
      cases g with
      | none =>
        simp only [countAll, countOne, hk, bind, Except.bind, ih, e1, e2, Option.isSome_none,
          Bool.false_eq_true, if_false, glueWord, List.length_append, List.countP_append, List.map_cons,
          List.sum_cons, ← hr, Except.ok.injEq, Counts.mk.injEq, Int.ofNat_eq_natCast,
          Option.toList_none, List.length_nil, List.countP_nil]
        refine ⟨by omega, by omega, by omega, by omega, by omega⟩
      | some c =>
        obtain ⟨h1, h2⟩ := hg (some c) (by simp) c rfl
        have e3 : [c].countP (· == '\'') = 0 := by simp [h2]
        have e4 : [c].countP (· ∈ vowels) = 0 := by simp [h1]
        simp only [countAll, countOne, hk, bind, Except.bind, ih, e1, e2, Option.isSome_some,
          if_true, glueWord, List.length_append, List.countP_append, List.map_cons,
          List.sum_cons, ← hr, Except.ok.injEq, Counts.mk.injEq, Int.ofNat_eq_natCast,
          Option.toList_some, List.length_cons, List.length_nil, e3, e4]
        refine ⟨by omega, by omega, by omega, by omega, by omega⟩

theorem shapes_of_parts {rs : List Word} (h : Parts rs) : ∃ ss, Shapes rs ss := by
  induction h with
  | last h =>
    rcases h with h | h | h | h | h <;> exact ⟨[_], h.1, trivial⟩
  | cons h _ ih =>
    obtain ⟨ss, hs⟩ := ih
    rcases h with h | h | h | h | h | h <;> exact ⟨_ :: ss, h.1, hs⟩

theorem glueFrom_y : ∀ (rs : List Word), ∀ g ∈ glueFrom none rs, g = none ∨ g = some 'y'
  | [], g, h => by simp [glueFrom] at h
  | [_], g, h => by simp [glueFrom] at h
  | a :: b :: rs, g, h => by
    simp only [glueFrom, List.mem_cons] at h
    rcases h with rfl | h
    · unfold yGlue
      simp only
      split
      · simp
      · split <;> simp
    · exact glueFrom_y (b :: rs) g h

theorem glueFrom_ok (rs : List Word) : ∀ g ∈ glueFrom none rs, GlueOk g := by
  intro g hg c hc
  rcases glueFrom_y rs g hg with rfl | rfl
  · simp at hc
  · simp only [Option.some.injEq] at hc; subst hc; decide

theorem glueFrom_length : ∀ (g : Option Char) (rs : List Word), (glueFrom g rs).length ≤ rs.length
  | _, [] => by simp [glueFrom]
  | _, [_] => by simp [glueFrom]
  | _, a :: b :: rs => by
    have := glueFrom_length none (b :: rs)
    simp only [glueFrom, List.length_cons] at *; omega

/-- C22 and C23: for components fit for their places the maker's loop body never fails; the word is a
lujvo, made of the components with at most one hyphen letter between neighbours, and its score is
the published one. -/
theorem makeOne_spec {rs : List Word} (h : Parts rs) (h2 : 2 ≤ rs.length) :
    ∃ f, makeOne rs = .ok f ∧ Valid true f.word ∧
      (∃ gs : List (Option Char), gs.length + 1 = rs.length ∧
        (∀ g ∈ gs, g = none ∨ g = some 'y' ∨ g = some 'r' ∨ g = some 'n') ∧
        f.word = glueWord rs gs) ∧
      (∀ ss, Shapes rs ss → f.score = Spec.score f.word rs ss) ∧
      (f.brod = true ↔ ['b', 'r', 'o', 'd'] ∈ rs) := by
  match rs, h, h2 with
  | r :: b :: rs, h, _ =>
  obtain ⟨g, h1, hv, hg, _⟩ := glues_cases h
  obtain ⟨ss, hs⟩ := shapes_of_parts h
  have hgo : ∀ x ∈ (g :: glueFrom none (b :: rs)), GlueOk x := by
    intro x hx
    rcases List.mem_cons.1 hx with rfl | hx
    · intro c hc
      rcases hg with rfl | rfl | rfl | rfl
      · simp at hc
      · simp only [Option.some.injEq] at hc; subst hc; decide
      · simp only [Option.some.injEq] at hc; subst hc; decide
      · simp only [Option.some.injEq] at hc; subst hc; decide
    · exact glueFrom_ok _ x hx
  have hlen : (g :: glueFrom none (b :: rs)).length ≤ (r :: b :: rs).length := by
    have := glueFrom_length none (b :: rs)
    simp only [List.length_cons] at *; omega
  have hlen' : ∀ (b : Word) (rs : List Word), (glueFrom none (b :: rs)).length = rs.length := by
    intro b rs
    induction rs generalizing b with
    | nil => simp [glueFrom]
    | cons c rs ih => simp [glueFrom, ih]
  have hc := fun ss hs => countAll_eq (r :: b :: rs) ss _ ⟨0, 0, 0, 0, 0⟩ hs hgo hlen
  have hw := glueWord_first r b rs g
  refine ⟨⟨glueWord (r :: b :: rs) (g :: glueFrom none (b :: rs)),
    Spec.score (glueWord (r :: b :: rs) (g :: glueFrom none (b :: rs))) (r :: b :: rs) ss,
    (r :: b :: rs).any (fun r => r.length == 4 && r.take 4 == ['b', 'r', 'o', 'd'])⟩, ?_, ?_, ?_, ?_, ?_⟩
  · simp only [makeOne, h1, bind, Except.bind, hc ss hs, pure, Except.pure, Except.ok.injEq,
      Form.mk.injEq, and_true, true_and]
    simp only [Spec.score]
    omega
  · simp only [hw]; exact hv
  · refine ⟨_, ?_, ?_, rfl⟩
    · simp [hlen']
    · intro x hx
      rcases List.mem_cons.1 hx with rfl | hx
      · exact hg
      · rcases glueFrom_y _ x hx with h | h <;> simp [h]
  · intro ss' hs'
    have e := hc ss' hs'
    rw [hc ss hs] at e
    simp only [Except.ok.injEq, Counts.mk.injEq] at e
    simp only [Spec.score]
    omega
  · simp only [List.any_eq_true, Bool.and_eq_true, beq_iff_eq]
    constructor
    · rintro ⟨x, hx, h4, hb⟩
      rw [List.take_of_length_le (by omega)] at hb
      exact hb ▸ hx
    · intro hx
      exact ⟨_, hx, rfl, rfl⟩

/-! ## The whole maker -/

/-- The table entries of the input words. -/
def entriesOf : List Word → Option (List (Word × List Word))
  | [] => some []
  | w :: ws =>
    match lookupGismu (w.map normChar) with
    | none => none
    | some e =>
      match entriesOf ws with
      | none => none
      | some es => some (e :: es)

theorem lookup_mem {w : Word} {e : Word × List Word} (h : lookupGismu w = some e) :
    e ∈ wordTable ∧ e.1 = w := by
  unfold lookupGismu at h
  exact ⟨List.mem_of_find?_eq_some h, by simpa using List.find?_some h⟩

theorem entries_mem : ∀ {ws : List Word} {es : List (Word × List Word)}, entriesOf ws = some es →
    (∀ e ∈ es, e ∈ wordTable) ∧ es.map (·.1) = ws.map (·.map normChar)
  | [], es, h => by simp only [entriesOf, Option.some.injEq] at h; subst h; simp
  | w :: ws, es, h => by
    simp only [entriesOf] at h
    split at h
    · simp at h
    rename_i e he
    split at h
    · simp at h
    rename_i es' hes
    simp only [Option.some.injEq] at h
    subst h
    obtain ⟨h1, h2⟩ := entries_mem hes
    obtain ⟨h3, h4⟩ := lookup_mem he
    refine ⟨?_, by simp [h2, h4]⟩
    intro x hx
    rcases List.mem_cons.1 hx with rfl | hx
    · exact h3
    · exact h1 x hx

theorem wordTable_len {e : Word × List Word} (h : e ∈ wordTable) : e.1.length ≤ 5 := by
  have := List.all_eq_true.1 wordTable_lengths e h
  simp at this
  exact this.1

/-- The forms of all components. -/
def allForms (o : Opts) : List (Word × List Word) → List (Word × List Word)
  | [] => []
  | (w, short) :: es => (w, forms o es.isEmpty w short) :: allForms o es

theorem entries_isEmpty {ws : List Word} {es : List (Word × List Word)} (h : entriesOf ws = some es) :
    es.isEmpty = ws.isEmpty := by
  have := (entries_mem h).2
  have hl := congrArg List.length this
  simp only [List.length_map] at hl
  cases es <;> cases ws <;> simp_all

/-- Reading the components succeeds exactly when each word is known. -/
theorem readComponents_eq {ws : List Word} {es : List (Word × List Word)} (h : entriesOf ws = some es) :
    readComponents o ws = .ok (allForms o es) := by
  induction ws generalizing es with
  | nil => simp only [entriesOf, Option.some.injEq] at h; subst h; rfl
  | cons w ws ih =>
    simp only [entriesOf] at h
    split at h
    · simp at h
    rename_i e he
    split at h
    · simp at h
    rename_i es' hes
    simp only [Option.some.injEq] at h
    subst h
    obtain ⟨h1, h2⟩ := lookup_mem he
    have h5 : ¬ w.length > 5 := by
      have := wordTable_len h1
      rw [h2, List.length_map] at this
      omega
    obtain ⟨g, short⟩ := e
    simp only [readComponents, h5, if_false, he, ih hes, bind, Except.bind, pure, Except.pure,
      allForms, entries_isEmpty hes]

/-- A choice is picked from the lists of forms. -/
def Picks : List (List Word) → List Word → Prop
  | [], [] => True
  | fs :: fss, r :: rs => r ∈ fs ∧ Picks fss rs
  | _, _ => False

theorem picks_iff : ∀ {es : List (Word × List Word)}, (∀ e ∈ es, e ∈ wordTable) → ∀ {rs : List Word},
    (Picks ((allForms o es).map (·.2)) rs ↔ AllowedAll o es rs)
  | [], _, [] => by simp [Picks, allForms, AllowedAll]
  | [], _, _ :: _ => by simp [Picks, allForms, AllowedAll]
  | (w, short) :: es, _, [] => by simp [Picks, allForms, AllowedAll]
  | (w, short) :: es, h, r :: rs => by
    have ih := picks_iff (es := es) (fun e he => h e (List.mem_cons_of_mem _ he)) (rs := rs)
    simp only [allForms, List.map_cons, Picks, AllowedAll, ih,
      mem_forms (o := o) (h (w, short) (by simp)) es.isEmpty r]

theorem choose_picks : ∀ {fss : List (List Word)} {c : List Nat}, InRange (fss.map List.length) c →
    Picks fss (choose fss c)
  | [], [], _ => trivial
  | fs :: fss, c :: cs, h => by
    refine ⟨?_, choose_picks h.2⟩
    have : c < fs.length := h.1
    simp only [List.getD_eq_getElem?_getD, List.getElem?_eq_getElem this, Option.getD_some]
    exact List.getElem_mem this

theorem picks_choose : ∀ {fss : List (List Word)} {rs : List Word}, Picks fss rs →
    ∃ c, InRange (fss.map List.length) c ∧ choose fss c = rs
  | [], [], _ => ⟨[], trivial, rfl⟩
  | fs :: fss, r :: rs, h => by
    obtain ⟨cs, h1, h2⟩ := picks_choose h.2
    obtain ⟨i, hi, he⟩ := List.getElem_of_mem h.1
    refine ⟨i :: cs, ⟨hi, h1⟩, ?_⟩
    simp only [choose, List.zipWith_cons_cons, List.getD_eq_getElem?_getD,
      List.getElem?_eq_getElem hi, Option.getD_some, he, List.cons.injEq, true_and]
    exact h2

theorem makeAll_ok {r : List (List Word)} : ∀ {cs : List (List Nat)},
    (∀ c ∈ cs, ∃ f, makeOne (choose r c) = .ok f) →
    ∃ fs, makeAll r cs = .ok fs ∧ fs.map Except.ok = cs.map (fun c => makeOne (choose r c))
  | [], _ => ⟨[], rfl, rfl⟩
  | c :: cs, h => by
    obtain ⟨f, hf⟩ := h c (by simp)
    obtain ⟨fs, h1, h2⟩ := makeAll_ok (cs := cs) (fun c hc => h c (List.mem_cons_of_mem _ hc))
    refine ⟨f :: fs, ?_, ?_⟩
    · simp [makeAll, hf, h1, bind, Except.bind, pure, Except.pure]
    · simp [hf, h2]

/-- The number of allowed choices. -/
def choices (o : Opts) (es : List (Word × List Word)) : Nat :=
  combos ((allForms o es).map (·.2.length))

theorem allowed_length : ∀ {es : List (Word × List Word)} {rs : List Word}, AllowedAll o es rs →
    rs.length = es.length
  | [], [], _ => rfl
  | _ :: es, _ :: rs, h => by simp [allowed_length h.2]

/-- The maker succeeds when every word is known and has a form, and there are from 2 to 49 words; the
forms it stores are those made from the visited choices. -/
theorem makelujvo_spec {ws : List Word} {es : List (Word × List Word)} (he : entriesOf ws = some es)
    (h2 : 2 ≤ ws.length) (h50 : ws.length < 50) (hne : ∃ rs, AllowedAll o es rs) :
    ∃ fs lim, makelujvo o ws = .ok (fs, lim) ∧
      (lim = true ↔ 65536 ≤ choices o es) ∧
      fs.length = min (choices o es) 65536 ∧
      (∀ f ∈ fs, ∃ rs, AllowedAll o es rs ∧ makeOne rs = .ok f) ∧
      (choices o es ≤ 65536 → ∀ rs, AllowedAll o es rs → ∃ f ∈ fs, makeOne rs = .ok f) := by
  obtain ⟨hm, hmap⟩ := entries_mem he
  have hlen : es.length = ws.length := by
    have := congrArg List.length hmap
    simpa using this
  have hes : es ≠ [] := by rintro rfl; simp at hlen; omega
  obtain ⟨rs0, hrs0⟩ := hne
  have hp0 := (picks_iff hm).2 hrs0
  have hpos : ∀ n ∈ ((allForms o es).map (·.2)).map List.length, 0 < n := by
    have : ∀ {fss : List (List Word)} {rs : List Word}, Picks fss rs → ∀ n ∈ fss.map List.length, 0 < n := by
      intro fss
      induction fss with
      | nil => simp
      | cons fs fss ih =>
        intro rs h n hn
        match rs, h with
        | r :: rs, h =>
          rcases List.mem_cons.1 hn with rfl | hn
          · exact List.length_pos_of_mem h.1
          · exact ih h.2 n hn
    exact this hp0
  have hz : ((allForms o es).map (·.2)).map (fun _ => 0) =
      (((allForms o es).map (·.2)).map List.length).map (fun _ => 0) := by simp
  obtain ⟨v1, v2, v3, v4, v5⟩ := visit_all hpos
  have hch : combos (((allForms o es).map (·.2)).map List.length) = choices o es := by
    simp [choices, Function.comp_def]
  rw [hch] at v3 v4 v5
  have hone : ∀ rs, AllowedAll o es rs → ∃ f, makeOne rs = .ok f := by
    intro rs h
    obtain ⟨f, hf, _⟩ := makeOne_spec (parts_of_allowed hm hes h) (by rw [allowed_length h]; omega)
    exact ⟨f, hf⟩
  have hall : ∀ c ∈ (visit (((allForms o es).map (·.2)).map List.length)
      ((((allForms o es).map (·.2)).map List.length).map (fun _ => 0)) 0).1,
      AllowedAll o es (choose ((allForms o es).map (·.2)) c) :=
    fun c hc => (picks_iff hm).1 (choose_picks (v2 c hc))
  obtain ⟨fs, f1, f2⟩ := makeAll_ok (fun c hc => hone _ (hall c hc))
  have hempty : (allForms o es).any (fun p => p.2.isEmpty) = false := by
    refine Bool.eq_false_iff.2 (fun hb => ?_)
    obtain ⟨p, hp, hpe⟩ := List.any_eq_true.1 hb
    have := hpos p.2.length (by simp only [List.map_map, List.mem_map]; exact ⟨p, hp, rfl⟩)
    rw [List.isEmpty_iff] at hpe
    simp [hpe] at this
  refine ⟨fs, _, ?_, v5, ?_, ?_, ?_⟩
  · simp only [makelujvo, bind, Except.bind, readComponents_eq he, hempty, hz, f1, pure, Except.pure]
    rw [if_neg (by omega), if_neg (by simp), if_neg (by omega)]
  · have := congrArg List.length f2
    simp only [List.length_map] at this
    rw [this, v3]
  · intro f hf
    have : (Except.ok f : Except Crash Form) ∈ fs.map Except.ok := List.mem_map_of_mem hf
    rw [f2] at this
    obtain ⟨c, hc, he⟩ := List.mem_map.1 this
    exact ⟨_, hall c hc, he⟩
  · intro hle rs hrs
    obtain ⟨c, hc, rfl⟩ := picks_choose ((picks_iff hm).2 hrs)
    have hv := v4 hle c hc
    have : makeOne (choose ((allForms o es).map (·.2)) c) ∈ fs.map Except.ok := by
      rw [f2]
      exact List.mem_map.2 ⟨c, hv, rfl⟩
    obtain ⟨f, hf, e⟩ := List.mem_map.1 this
    exact ⟨f, hf, e.symm⟩

/-- C20: below the cap, the first form after sorting is an allowed one, and its score is no greater
than the score of the form made from any allowed choice of components. The list is in ascending
order of score. -/
theorem best_is_minimum {ws : List Word} {es : List (Word × List Word)} (he : entriesOf ws = some es)
    (h2 : 2 ≤ ws.length) (h50 : ws.length < 50) (hne : ∃ rs, AllowedAll o es rs)
    (hcap : choices o es ≤ 65536) :
    ∃ fs lim, makelujvo o ws = .ok (fs, lim) ∧ ∀ sorted, SortedPerm fs sorted →
      sorted.Pairwise (fun a b => a.score ≤ b.score) ∧
      ∃ best more, sorted = best :: more ∧ (∃ rs, AllowedAll o es rs ∧ makeOne rs = .ok best) ∧
        ∀ rs, AllowedAll o es rs → ∃ f, makeOne rs = .ok f ∧ best.score ≤ f.score := by
  obtain ⟨fs, lim, h, _, _, h3, h4⟩ := makelujvo_spec he h2 h50 hne
  refine ⟨fs, lim, h, fun sorted hs => ⟨hs.2, ?_⟩⟩
  obtain ⟨rs0, hrs0⟩ := hne
  obtain ⟨f0, hf0, _⟩ := h4 hcap rs0 hrs0
  have hf0' := hs.1.mem_iff.1 hf0
  match sorted, hs, hf0' with
  | best :: more, hs, _ =>
    refine ⟨best, more, rfl, h3 best (hs.1.mem_iff.2 (by simp)), ?_⟩
    intro rs hrs
    obtain ⟨f, hf, hm⟩ := h4 hcap rs hrs
    refine ⟨f, hm, ?_⟩
    have := hs.1.mem_iff.1 hf
    rcases List.mem_cons.1 this with rfl | hfm
    · exact Int.le_refl _
    · exact (List.pairwise_cons.1 hs.2).1 f hfm

/-- C23 with C22: every word the maker stores is a lujvo of the grammar, consists of allowed
components with at most one hyphen letter between neighbours, and has the published score. -/
theorem every_form_valid {ws : List Word} {fs : List Form} {lim : Bool}
    {es : List (Word × List Word)} (he : entriesOf ws = some es)
    (h2 : 2 ≤ ws.length) (h50 : ws.length < 50) (hne : ∃ rs, AllowedAll o es rs)
    (h : makelujvo o ws = .ok (fs, lim)) :
    ∀ f ∈ fs, Valid true f.word ∧ ∃ rs ss, AllowedAll o es rs ∧ Shapes rs ss ∧
      (∃ gs : List (Option Char), gs.length + 1 = rs.length ∧
        (∀ g ∈ gs, g = none ∨ g = some 'y' ∨ g = some 'r' ∨ g = some 'n') ∧
        f.word = glueWord rs gs) ∧
      f.score = Spec.score f.word rs ss := by
  obtain ⟨fs', lim', h', _, _, h3, _⟩ := makelujvo_spec he h2 h50 hne
  rw [h] at h'
  simp only [Except.ok.injEq, Prod.mk.injEq] at h'
  obtain ⟨rfl, rfl⟩ := h'
  obtain ⟨hm, hmap⟩ := entries_mem he
  have hlen : es.length = ws.length := by
    have := congrArg List.length hmap
    simpa using this
  have hes : es ≠ [] := by rintro rfl; simp at hlen; omega
  intro f hf
  obtain ⟨rs, hrs, hmk⟩ := h3 f hf
  have hp := parts_of_allowed hm hes hrs
  obtain ⟨f', e, hv, hg, hsc, _⟩ := makeOne_spec hp (by rw [allowed_length hrs]; omega)
  rw [hmk] at e
  simp only [Except.ok.injEq] at e
  subst e
  obtain ⟨ss, hss⟩ := shapes_of_parts hp
  exact ⟨hv, rs, ss, hrs, hss, hg, hsc ss hss⟩

/-! ## Consonant clusters -/

/-- No two adjacent consonants are a forbidden pair, and no forbidden triple occurs. -/
def Clean : Word → Prop
  | [] => True
  | c :: t => (∀ d u, t = d :: u → C c → C d → Medial c d) ∧
      (∀ d e u, t = d :: e :: u → [c, d, e] ∉ badTriples) ∧ Clean t

theorem clean_at : ∀ {w : Word}, Clean w → ∀ {u v : Word} {c d : Char}, w = u ++ c :: d :: v →
    (C c → C d → Medial c d) ∧ ∀ e v', v = e :: v' → [c, d, e] ∉ badTriples
  | [], _, u, v, c, d, h => by cases u <;> simp at h
  | a :: w, hw, [], v, c, d, h => by
    simp only [List.nil_append, List.cons.injEq] at h
    obtain ⟨rfl, rfl⟩ := h
    exact ⟨hw.1 d v rfl, fun e v' hv => hw.2.1 d e v' (by rw [hv])⟩
  | a :: w, hw, x :: u, v, c, d, h => by
    simp only [List.cons_append, List.cons.injEq] at h
    exact clean_at hw.2.2 h.2

theorem bad_n {c d e : Char} (h : [c, d, e] ∈ badTriples) : c = 'n' ∧ C d ∧ C e := by
  have : ∀ l ∈ badTriples, ∀ x ∈ l, C x := by decide
  have h1 : ∀ l ∈ badTriples, l.head? = some 'n' := by decide
  exact ⟨by simpa using h1 _ h, this _ h d (by simp), this _ h e (by simp)⟩

theorem clean_nonC (hc : ¬ C c) (h : Clean t) : Clean (c :: t) := by
  refine ⟨fun d u _ h' => (hc h').elim, fun d e u _ h' => ?_, h⟩
  obtain ⟨rfl, _⟩ := bad_n h'
  exact hc (by decide)

theorem clean_C_nonC (hd : ¬ C d) (h : Clean (d :: t)) : Clean (c :: d :: t) := by
  refine ⟨fun x u hx _ h' => ?_, fun x e u hx h' => ?_, h⟩
  · simp only [List.cons.injEq] at hx; exact (hd (hx.1 ▸ h')).elim
  · simp only [List.cons.injEq] at hx
    exact hd (hx.1 ▸ (bad_n h').2.1)

theorem clean_cc_nonC (hm : Medial c d) (he : ¬ C e) (h : Clean (d :: e :: t)) :
    Clean (c :: d :: e :: t) := by
  refine ⟨fun x u hx _ _ => ?_, fun x y u hx h' => ?_, h⟩
  · simp only [List.cons.injEq] at hx; exact hx.1 ▸ hm
  · simp only [List.cons.injEq] at hx
    exact he (hx.2.1 ▸ (bad_n h').2.2)

theorem clean_join (hj : Joins c t) (h : Clean t) : Clean (c :: t) := by
  match t, hj with
  | d :: e :: t, hj =>
    refine ⟨fun x u hx _ _ => ?_, fun x y u hx h' => ?_, h⟩
    · simp only [List.cons.injEq] at hx; exact hx.1 ▸ hj.1
    · simp only [List.cons.injEq] at hx
      obtain ⟨rfl, rfl, rfl⟩ := hx
      exact hj.2 h'

theorem not_C_y : ¬ C 'y' := by decide
theorem not_C_apos : ¬ C '\'' := by decide

theorem clean_nil : Clean [] := trivial

theorem clean_last : Clean [c] := by
  refine ⟨?_, ?_, trivial⟩ <;> intros <;> simp_all

/-- A component in front of a clean word, where the last letter and what follows are fine. -/
theorem clean_rafsi {s : Shape} {r : Word} (h : Rafsi s r) (hs : s ≠ .cvc) (hs1 : s ≠ .cvcc)
    (hs2 : s ≠ .ccvc) (ht : Clean t) : Clean (r ++ t) := by
  cases s with
  | cvccv =>
    obtain ⟨a, b, c, d, e, rfl, ha, hb, hc, hd, he, hm⟩ := shape_cvccv h
    exact clean_C_nonC hb.not_C (clean_nonC hb.not_C (clean_cc_nonC hm he.not_C
      (clean_C_nonC he.not_C (clean_nonC he.not_C ht))))
  | ccvcv =>
    obtain ⟨a, b, c, d, e, rfl, ha, hb, hc, hd, he, hm⟩ := shape_ccvcv h
    exact clean_cc_nonC hm.medial hc.not_C (clean_C_nonC hc.not_C (clean_nonC hc.not_C
      (clean_C_nonC he.not_C (clean_nonC he.not_C ht))))
  | cvcc => exact (hs1 rfl).elim
  | ccvc => exact (hs2 rfl).elim
  | cvc => exact (hs rfl).elim
  | cvhv =>
    obtain ⟨a, b, c, rfl, ha, hb, hc⟩ := shape_cvhv h
    exact clean_C_nonC hb.not_C (clean_nonC hb.not_C (clean_nonC not_C_apos (clean_nonC hc.not_C ht)))
  | ccv =>
    obtain ⟨a, b, c, rfl, ha, hb, hc, hm⟩ := shape_ccv h
    exact clean_cc_nonC hm.medial hc.not_C (clean_C_nonC hc.not_C (clean_nonC hc.not_C ht))
  | cvv =>
    obtain ⟨a, b, c, rfl, ha, hb, hc⟩ := shape_cvv h
    exact clean_C_nonC hb.not_C (clean_nonC hb.not_C (clean_nonC hc.not_C ht))

theorem clean_cvcc {r : Word} (h : Rafsi .cvcc r) (ht : Clean t) : Clean (r ++ 'y' :: t) := by
  obtain ⟨a, b, c, d, rfl, ha, hb, hc, hd, hm⟩ := shape_cvcc h
  exact clean_C_nonC hb.not_C (clean_nonC hb.not_C (clean_cc_nonC hm not_C_y
    (clean_C_nonC not_C_y (clean_nonC not_C_y ht))))

theorem clean_ccvc {r : Word} (h : Rafsi .ccvc r) (ht : Clean t) : Clean (r ++ 'y' :: t) := by
  obtain ⟨a, b, c, d, rfl, ha, hb, hc, hd, hm⟩ := shape_ccvc h
  exact clean_cc_nonC hm.medial hc.not_C (clean_C_nonC hc.not_C (clean_nonC hc.not_C
    (clean_C_nonC not_C_y (clean_nonC not_C_y ht))))

theorem clean_tail (h : Tail st n t) : Clean t := by
  have nil : ∀ {r : Word}, Clean (r ++ []) → Clean r := by intro r h; simpa using h
  induction h with
  | cvccv h => exact nil (clean_rafsi h (by decide) (by decide) (by decide) clean_nil)
  | @ccvcv a b w h hm _ =>
    match w, h with
    | [c, d, e], ⟨_, _, hc, _, he⟩ =>
      exact clean_cc_nonC hm hc.not_C (clean_C_nonC hc.not_C (clean_nonC hc.not_C
        (clean_C_nonC he.not_C (clean_nonC he.not_C clean_nil))))
  | cvv h => exact nil (clean_rafsi h (by decide) (by decide) (by decide) clean_nil)
  | cvhv h => exact nil (clean_rafsi h (by decide) (by decide) (by decide) clean_nil)
  | ccv h => exact nil (clean_rafsi h (by decide) (by decide) (by decide) clean_nil)
  | cvccy h _ ih => exact clean_cvcc h ih
  | ccvcy h _ ih => exact clean_ccvc h ih
  | cvcJoin _ hb _ _ hj ih => exact clean_C_nonC hb.not_C (clean_nonC hb.not_C (clean_join hj ih))
  | cvcy _ hb _ _ _ ih =>
    exact clean_C_nonC hb.not_C (clean_nonC hb.not_C (clean_C_nonC not_C_y (clean_nonC not_C_y ih)))
  | cvvMore h _ ih => exact clean_rafsi h (by decide) (by decide) (by decide) ih
  | cvhvMore h _ ih => exact clean_rafsi h (by decide) (by decide) (by decide) ih
  | ccvMore h _ ih => exact clean_rafsi h (by decide) (by decide) (by decide) ih

theorem clean_rn (ht : Tail st n t) : Clean (rnHyphen t :: t) := by
  obtain ⟨x, y, z, u, rfl, hx, _⟩ := Tail_start ht
  refine ⟨?_, ?_, clean_tail ht⟩
  · intro d v hd _ hdc
    simp only [List.cons.injEq] at hd
    obtain ⟨rfl, rfl⟩ := hd
    have : ∀ c ∈ consonants, Medial (if c = 'r' then 'n' else 'r') c := by decide +kernel
    simpa [rnHyphen] using this x hdc
  · intro d e v hd hb
    simp only [List.cons.injEq] at hd
    obtain ⟨rfl, rfl, rfl⟩ := hd
    have hn := (bad_n hb).1
    have : x = 'r' := by
      simp only [rnHyphen, List.head?_cons, Option.some.injEq] at hn
      exact Classical.byContradiction (fun hx => by simp [hx] at hn)
    subst this
    rw [hn] at hb
    have : ∀ l ∈ badTriples, l[1]? ≠ some 'r' := by decide
    exact this _ hb rfl

theorem clean_cc (h : CcLujvo st t) : Clean t := by
  cases h with
  | single h => simpa using clean_rafsi h (by decide) (by decide) (by decide) clean_nil
  | ccv h ht => exact clean_rafsi h (by decide) (by decide) (by decide) (clean_tail ht)
  | ccvcy h ht => exact clean_ccvc h (clean_tail ht)

/-- C23: a valid lujvo has no forbidden cluster anywhere. -/
theorem clean_valid (h : Valid st t) : Clean t := by
  cases h with
  | cc h => exact clean_cc h
  | cvccy h ht => exact clean_cvcc h (clean_tail ht)
  | cvcJoin _ hb _ ht hj _ => exact clean_C_nonC hb.not_C (clean_nonC hb.not_C (clean_join hj (clean_tail ht)))
  | cvcy _ hb _ ht _ =>
    exact clean_C_nonC hb.not_C (clean_nonC hb.not_C (clean_C_nonC not_C_y (clean_nonC not_C_y (clean_tail ht))))
  | cvHyphen hs h ht =>
    rcases hs with rfl | rfl <;> exact clean_rafsi h (by decide) (by decide) (by decide) (clean_rn ht)
  | cvCcv hs h ht =>
    have := clean_rafsi ht (by decide) (by decide) (by decide) clean_nil
    rw [List.append_nil] at this
    rcases hs with rfl | rfl <;> exact clean_rafsi h (by decide) (by decide) (by decide) this

/-- C23: wherever two consonants meet in a word the maker stores, they are a permitted pair, and no
forbidden triple occurs anywhere. -/
theorem every_form_clean {ws : List Word} {fs : List Form} {lim : Bool}
    {es : List (Word × List Word)} (he : entriesOf ws = some es)
    (h2 : 2 ≤ ws.length) (h50 : ws.length < 50) (hne : ∃ rs, AllowedAll o es rs)
    (h : makelujvo o ws = .ok (fs, lim)) :
    ∀ f ∈ fs, ∀ u v c d, f.word = u ++ c :: d :: v →
      (C c → C d → Medial c d) ∧ ∀ e v', v = e :: v' → [c, d, e] ∉ badTriples :=
  fun f hf _ _ _ _ e => clean_at (clean_valid (every_form_valid he h2 h50 hne h f hf).1) e

/-! ## The printed list -/

/-- The mark a form should get: a star on each form of minimum score, but none at all if the first
form contains the ambiguous `brod`. -/
def mark (best f : Form) : Char :=
  if best.brod = false ∧ f.score = best.score then '*' else if f.brod then '!' else ' '

theorem annotTies_eq (best : Form) : ∀ {l : List Form}, (best :: l).Pairwise (fun a b => a.score ≤ b.score) →
    annotTies best.score best.brod l = l.map (fun f => (mark best f, f))
  | [], _ => rfl
  | f :: l, h => by
    have hb := (List.pairwise_cons.1 h).1
    have hfl := (List.pairwise_cons.1 h).2
    have hl := (List.pairwise_cons.1 hfl).2
    by_cases hf : f.score = best.score
    · have ih := annotTies_eq best (l := l)
        (List.pairwise_cons.2 ⟨fun g hg => hb g (List.mem_cons_of_mem _ hg), hl⟩)
      cases hbr : best.brod <;> rw [hbr] at ih <;> simp [annotTies, hf, ih, mark, hbr]
    · have hlt : best.score < f.score := by
        have := hb f (by simp); omega
      simp only [annotTies, hf, if_false, List.map_cons, mark, and_false, List.cons.injEq, true_and]
      apply List.map_congr_left
      intro g hg
      have := (List.pairwise_cons.1 hfl).1 g hg
      have hne : g.score ≠ best.score := by omega
      simp [hne]

/-- The annotation of a sorted list. -/
theorem annotate_eq {best : Form} {l : List Form}
    (h : (best :: l).Pairwise (fun a b => a.score ≤ b.score)) :
    annotate (best :: l) = (best :: l).map (fun f => (mark best f, f)) := by
  simp only [annotate, annotTies_eq best h, List.map_cons, List.cons.injEq, and_true]
  cases hb : best.brod <;> simp [mark, hb]

/-- The stars mark exactly the forms of minimum score, when the first form is not a `brod` one. -/
theorem star_iff {best : Form} {l : List Form}
    (h : (best :: l).Pairwise (fun a b => a.score ≤ b.score)) (hb : best.brod = false) (f : Form) :
    ('*', f) ∈ annotate (best :: l) ↔ f ∈ best :: l ∧ ∀ g ∈ best :: l, f.score ≤ g.score := by
  rw [annotate_eq h]
  have hmin : ∀ g ∈ best :: l, best.score ≤ g.score := by
    intro g hg
    rcases List.mem_cons.1 hg with rfl | hg
    · exact Int.le_refl _
    · exact (List.pairwise_cons.1 h).1 g hg
  constructor
  · intro hm
    obtain ⟨g, hg, e⟩ := List.mem_map.1 hm
    simp only [Prod.mk.injEq] at e
    obtain ⟨e, rfl⟩ := e
    refine ⟨hg, ?_⟩
    have : g.score = best.score := by
      refine Classical.byContradiction (fun hne => ?_)
      simp only [mark, hne, and_false, if_false] at e
      split at e <;> simp at e
    intro x hx
    rw [this]; exact hmin x hx
  · rintro ⟨hf, hm⟩
    refine List.mem_map.2 ⟨f, hf, ?_⟩
    have : f.score = best.score := Int.le_antisymm (hm best (by simp)) (hmin f hf)
    simp [mark, hb, this]

/-- The flag of an ambiguous form is lost exactly in a tie with an unambiguous first form. -/
theorem flag_lost_iff {best : Form} {l : List Form}
    (h : (best :: l).Pairwise (fun a b => a.score ≤ b.score)) {f : Form} (hf : f ∈ best :: l)
    (hbr : f.brod = true) :
    ('!', f) ∉ annotate (best :: l) ↔ best.brod = false ∧ f.score = best.score := by
  rw [annotate_eq h]
  constructor
  · intro hn
    refine Classical.byContradiction (fun hc => ?_)
    exact hn (List.mem_map.2 ⟨f, hf, by simp [mark, hc, hbr]⟩)
  · intro hc hm
    obtain ⟨g, hg, e⟩ := List.mem_map.1 hm
    simp only [Prod.mk.injEq] at e
    obtain ⟨e, rfl⟩ := e
    simp [mark, hc] at e

/-- What is printed starts with the best form, and nothing is lost from the count. -/
theorem shown_spec (all : Bool) (l : List (Char × Form)) :
    (∃ rest, l = (shown all l).1 ++ rest ∧ rest.length = (shown all l).2) ∧
    ((shown all l).1.head? = l.head?) ∧ (all = true → (shown all l).2 = 0) ∧
    (all = false → (shown all l).1.length ≤ 8) := by
  unfold shown
  cases all with
  | true => exact ⟨⟨[], by simp⟩, by simp⟩
  | false =>
    by_cases h : l.length > 8
    · simp only [Bool.not_false, Bool.true_and, h, decide_true, if_true]
      refine ⟨⟨l.drop 8, by simp, by simp⟩, ?_, by simp, fun _ => by simp; omega⟩
      cases l <;> simp
    · simp only [Bool.not_false, Bool.true_and, h, decide_false, Bool.false_eq_true, if_false]
      refine ⟨⟨[], by simp⟩, trivial, by simp, fun _ => by omega⟩

/-! ## When the maker succeeds -/

theorem readComponents_ok : ∀ {ws : List Word} {cs : List (Word × List Word)},
    readComponents o ws = .ok cs → ∃ es, entriesOf ws = some es ∧ cs = allForms o es
  | [], cs, h => by
    simp only [readComponents, Except.ok.injEq] at h
    exact ⟨[], rfl, h.symm⟩
  | w :: ws, cs, h => by
    simp only [readComponents] at h
    split at h
    · simp at h
    split at h
    · simp at h
    rename_i g short hl
    simp only [bind, Except.bind] at h
    split at h
    · simp at h
    rename_i rest hr
    simp only [pure, Except.pure, Except.ok.injEq] at h
    obtain ⟨es, h1, h2⟩ := readComponents_ok hr
    refine ⟨(g, short) :: es, by simp [entriesOf, hl, h1], ?_⟩
    rw [← h, allForms, entries_isEmpty h1, h2]

theorem picks_of_nonempty : ∀ {fss : List (List Word)}, (∀ fs ∈ fss, fs ≠ []) → ∃ rs, Picks fss rs
  | [], _ => ⟨[], trivial⟩
  | fs :: fss, h => by
    obtain ⟨rs, hrs⟩ := picks_of_nonempty (fss := fss) (fun x hx => h x (List.mem_cons_of_mem _ hx))
    match fs, h fs (by simp) with
    | r :: fs, _ => exact ⟨r :: rs, by simp, hrs⟩

/-- The maker produces a list exactly when there are 2 to 49 words, all known, and there is an
allowed choice of forms. It never stops in the middle of the search. -/
theorem makelujvo_ok_iff {ws : List Word} : (∃ p, makelujvo o ws = .ok p) ↔
    2 ≤ ws.length ∧ ws.length < 50 ∧ ∃ es, entriesOf ws = some es ∧ ∃ rs, AllowedAll o es rs := by
  constructor
  · rintro ⟨p, h⟩
    simp only [makelujvo, bind, Except.bind, pure, Except.pure] at h
    by_cases h50 : ws.length ≥ 50
    · simp [h50] at h
    rw [if_neg h50] at h
    cases hr : readComponents o ws with
    | error x => simp [hr] at h
    | ok cs =>
      simp only [hr] at h
      obtain ⟨es, he, rfl⟩ := readComponents_ok hr
      cases hem : (allForms o es).any (fun p => p.2.isEmpty) with
      | true => simp [hem] at h
      | false =>
        by_cases h2 : ws.length < 2
        · simp [hem, h2] at h
        refine ⟨by omega, by omega, es, he, ?_⟩
        have hne : ∀ fs ∈ (allForms o es).map (·.2), fs ≠ [] := by
          intro fs hfs hnil
          obtain ⟨q, hq, rfl⟩ := List.mem_map.1 hfs
          have := List.any_eq_false.1 hem q hq
          simp [hnil] at this
        obtain ⟨rs, hrs⟩ := picks_of_nonempty hne
        exact ⟨rs, (picks_iff (entries_mem he).1).1 hrs⟩
  · rintro ⟨h2, h50, es, he, hne⟩
    obtain ⟨fs, lim, h, _⟩ := makelujvo_spec he h2 h50 hne
    exact ⟨_, h⟩

/-! ## Failures of the maker -/

/-- A word of more than five letters overruns its buffer. -/
theorem long_word_overflows {w : Word} {ws : List Word} (h : 5 < w.length) (hl : ws.length < 49) :
    makelujvo o (w :: ws) = .error .outOfBounds := by
  simp only [makelujvo, readComponents, bind, Except.bind, pure, Except.pure]
  rw [if_neg (by simp; omega)]
  simp [h]

/-! ## Concrete cases -/

example : entriesOf ["lojbo".toList, "bangu".toList] =
    some [("lojbo".toList, ["lob".toList, "jbo".toList]), ("bangu".toList, ["ban".toList, "bau".toList])] := by
  decide +kernel

example : AllowedAll ⟨false, false⟩
    [("lojbo".toList, ["lob".toList, "jbo".toList]), ("bangu".toList, ["ban".toList, "bau".toList])]
    ["jbo".toList, "bau".toList] := by
  refine ⟨.inl (by decide), ?_, trivial⟩
  exact .inl ⟨by decide, ['b', 'a'], 'u', by decide, by decide⟩

example : (makelujvo ⟨false, false⟩ ["lojbo".toList, "bangu".toList]) =
    .ok ([⟨"lobybau".toList, 6967, false⟩, ⟨"jbobau".toList, 5847, false⟩], false) := by decide +kernel

example : (makelujvo ⟨false, false⟩ ["tosmabru".toList, "bangu".toList]) = .error .outOfBounds :=
  long_word_overflows (by decide) (by decide)

example : annotate [⟨"jbobau".toList, 5847, false⟩, ⟨"lobybau".toList, 6967, false⟩] =
    [('*', ⟨"jbobau".toList, 5847, false⟩), (' ', ⟨"lobybau".toList, 6967, false⟩)] := by decide

/-- A tie in which the `!` is overwritten. -/
example : annotate [⟨"jbobau".toList, 5847, false⟩, ⟨"lobybau".toList, 5847, true⟩] =
    [('*', ⟨"jbobau".toList, 5847, false⟩), ('*', ⟨"lobybau".toList, 5847, true⟩)] := by decide

example : Clean "lobybau".toList ∧ ¬ Clean "lobbau".toList := by
  refine ⟨clean_C_nonC (by decide) (clean_nonC (by decide) (clean_C_nonC (by decide)
    (clean_nonC (by decide) (clean_C_nonC (by decide) (clean_nonC (by decide)
      (clean_nonC (by decide) clean_nil)))))), ?_⟩
  intro h
  exact absurd ((clean_at h (u := ['l', 'o']) (v := ['a', 'u']) rfl).1 (by decide) (by decide)) (by decide)

example : Shapes ["jbo".toList, "bau".toList] [.ccv, .cvv] ∧
    Spec.score "jbobau".toList ["jbo".toList, "bau".toList] [.ccv, .cvv] = 5847 := by
  constructor
  · exact ⟨by decide, by decide, trivial⟩
  · decide

end Jbo.Lujvo
