import Verif.MorfLujvoRun
import Verif.MorfThm
import Verif.LujvoLemmas
/-!
# The scanner calls lujvo what is a lujvo, and gismu what is a gismu
-/

namespace Jbo.Morf
open Jbo.Dfasyn Jbo.Lujvo.Nfa Jbo.Lujvo.Spec

theorem kinds_lujvo : ∀ k < 32, ((kind k).1 = .lujvo ↔ k = 3 ∨ k = 4 ∨ k = 6) ∧ ((kind k).1 = .gismu ↔ k = 1 ∨ k = 2) ∧
    (k = 3 ∨ k = 1 → (kind k).2 = false) ∧ (k = 4 ∨ k = 6 ∨ k = 2 → (kind k).2 = true) := by decide +kernel

/-- The letters of lujvo and gismu. -/
theorem acc_letters : ∀ {q : Item} {p x : Char} {w : List Char}, Lujvo.Nfa.Acc q p x w → ∀ c ∈ w, Letter c := by
  intro q p x w
  induction w generalizing q p x with
  | nil => intro _ c hc; simp at hc
  | cons d t ih =>
    intro h c hc
    rw [Lujvo.Nfa.Acc] at h
    obtain ⟨r, _, h1, q', _, h2⟩ := h
    rcases List.mem_cons.1 hc with rfl | hc
    · have hC := ok_C h1
      cases hr : r.1 with
      | v => rw [hr] at h1; exact .inr (.inl h1)
      | dip => rw [hr] at h1; exact .inr (.inl (dip_right h1))
      | apos => rw [hr] at h1; exact .inr (.inr (.inl h1))
      | y => rw [hr] at h1; exact .inr (.inr (.inr h1))
      | _ => rw [hr] at hC; exact .inl (hC (by decide) (by decide) (by decide) (by decide))
    · split at h2
      · exact ih h2 c hc
      · exact ih h2 c hc

theorem letter_plain {c : Char} (h : Letter c) : Plain c := by
  rcases h with h | h | rfl | rfl
  · have : ∀ c ∈ consonants, Plain c := by decide +kernel
    exact this c h
  · have : ∀ c ∈ vowels, Plain c := by decide +kernel
    exact this c h
  · decide
  · decide

theorem lujvo_plain {w : List Char} (h : IsLujvo w) : ∀ c ∈ w, Plain c := by
  rw [← lujvo_iff (p := '\'') (x := '\'')] at h
  intro c hc
  rcases h with h | ⟨h, _⟩ | ⟨h, _⟩ <;> exact letter_plain (acc_letters h c hc)

theorem gismu_plain {w : List Char} (h : IsGismu w) : ∀ c ∈ w, Plain c := by
  rw [← gismu_iff (p := '\'') (x := '\'')] at h
  exact fun c hc => letter_plain (acc_letters h c hc)

theorem plain_of_caps {s : List Char} (h : ¬ Caps s) : ∀ c ∈ bare s, Plain c := by
  intro c hc
  rw [bare, List.mem_filter] at hc
  refine ⟨by simpa using hc.2, fun h' => h ⟨c, hc.1, h'⟩⟩

theorem caps_of_plain {s : List Char} (h : ∀ c ∈ bare s, Plain c) : ¬ Caps s := by
  rintro ⟨c, hc, h'⟩
  refine (h c ?_).2 h'
  rw [bare, List.mem_filter]
  refine ⟨hc, ?_⟩
  have : c ≠ ',' := by rintro rfl; revert h'; decide
  simpa using this

/-- One beginning, one word. -/
theorem single_counted {l : List Nat} {d : Bool} : (∃ k, counted d l = [k]) ↔ l.length = if d then 2 else 1 := by
  have hl : (counted d l).length = if d then l.length - 1 else l.length := by
    unfold counted; cases d <;> simp
  rw [← List.length_eq_one_iff, hl]
  cases d <;> simp <;> omega

section
variable {M B : Generated} (hM : Tables M) {cultural : Bool} {s : List Char} (hs : s.length ≤ 65536)
include hM hs

theorem scan_one {w : Word} {ty : MorfType} {a b b' : Nat} (hty : Brivla ty)
    (hw : ∀ w', typeOf cultural w' = ty ↔ w' = w)
    (hx : ∀ r, xtraOf r w = .none)
    (hk : ∀ k < 32, ((kind k).1 = w ↔ k = a ∨ k = b ∨ k = b') ∧ (k = a → (kind k).2 = false) ∧ (k = b ∨ k = b' → (kind k).2 = true))
    (hp : ∀ c ∈ bare s, Plain c) (ha : 0 < a) (hb : 0 < b) (hb' : 0 < b') :
    (∃ k, morfScan M B cultural s = .ok ⟨ty, [k], .none⟩) ↔
      isOne a b b' (exitN graphX (nodeN (bare s).reverse)) (min 3 (nst (bare s).reverse)) = true := by
  have hscan := morfScan_eq (B := B) hM cultural s hs
  have hch := chars_backwards s
  have hup : upper (chars (backwards s)) = false := by
    cases h : upper (chars (backwards s)) with
    | false => rfl
    | true => exact absurd ((upper_caps s).1 h) (caps_of_plain hp)
  have hlen : (starts (backwards s)).length = nst (bare s).reverse := by rw [nst_chars, hch]
  rw [← hch]
  cases hi : node (chars (backwards s)) with
  | none =>
    rw [hi] at hscan
    obtain ⟨r, _, _, hscan⟩ := hscan
    have hN : nodeN (chars (backwards s)) = 0 := by unfold nodeN; rw [hi]
    rw [hN, show exitN graphX 0 = 0 from rfl, isOne]
    have e1 : Nat.beq 0 a = false := by cases a with | zero => omega | succ a => rfl
    have e2 : Nat.beq 0 b = false := by cases b with | zero => omega | succ a => rfl
    have e3 : Nat.beq 0 b' = false := by cases b' with | zero => omega | succ a => rfl
    rw [e1, e2, e3]
    constructor
    · rintro ⟨k, h⟩
      rw [hscan] at h
      simp only [Except.ok.injEq, Result.mk.injEq] at h
      rw [← h.1] at hty
      exact absurd hty (by decide)
    · intro h; cases h
  | some i =>
    rw [hi] at hscan
    simp only at hscan
    have hN : exitN graphX (nodeN (chars (backwards s))) = (morfCert.cls i).exit := by
      rw [nodeN_some hi]; exact exitX_eq i
    have hkind := hk _ (exit_lt i)
    rw [hN, hscan, hch, ← hlen]
    have key : (∃ k, result B cultural s i = .ok ⟨ty, [k], .none⟩) ↔
        (kind (morfCert.cls i).exit).1 = w ∧ ∃ k, counted (kind (morfCert.cls i).exit).2 (starts (backwards s)) = [k] := by
      constructor
      · rintro ⟨k, h⟩
        obtain ⟨_, _, h3, h4, _⟩ := result_brivla h hty
        exact ⟨(hw _).1 h3.symm, k, h4.symm⟩
      · rintro ⟨h1, k, h2⟩
        have hlong : (kind (morfCert.cls i).exit).1.long = true := by
          have ht := (hw w).2 rfl
          rw [h1]
          rw [← ht] at hty
          cases w <;> first | rfl | exact absurd hty (by cases cultural <;> decide)
        refine ⟨k, ?_⟩
        rw [result_of_kind hlong hup, h1, hx, h2, (hw w).2 rfl]
    rw [key, hkind.1, single_counted]
    unfold isOne
    simp only [Bool.or_eq_true, Bool.and_eq_true, nbeq_iff]
    constructor
    · rintro ⟨h1, h2⟩
      by_cases h3 : (morfCert.cls i).exit = a
      · rw [hkind.2.1 h3] at h2
        left; exact ⟨h3, by simp at h2; omega⟩
      · have h4 : (morfCert.cls i).exit = b ∨ (morfCert.cls i).exit = b' := by rcases h1 with h | h; exact absurd h h3; exact h
        rw [hkind.2.2 h4] at h2
        right; exact ⟨h4, by simp at h2; omega⟩
    · rintro (⟨h1, h2⟩ | ⟨h1, h2⟩)
      · rw [hkind.2.1 h1]; exact ⟨.inl h1, by simp; omega⟩
      · rw [hkind.2.2 h1]; exact ⟨.inr h1, by simp; omega⟩

theorem scan_plain {ty : MorfType} {st : List Nat} {x : Xtra} (hty : Brivla ty) (h : morfScan M B cultural s = .ok ⟨ty, st, x⟩) :
    ∀ c ∈ bare s, Plain c := by
  have hscan := morfScan_eq (B := B) hM cultural s hs
  cases hi : node (chars (backwards s)) with
  | none =>
    rw [hi] at hscan
    obtain ⟨r, _, _, hscan⟩ := hscan
    rw [hscan] at h
    simp only [Except.ok.injEq, Result.mk.injEq] at h
    rw [← h.1] at hty
    exact absurd hty (by decide)
  | some i =>
    rw [hi] at hscan
    simp only at hscan
    rw [hscan] at h
    have := (result_brivla h hty).2.1
    refine plain_of_caps (fun hc => ?_)
    rw [(upper_caps s).2 hc] at this
    cases this

end

theorem scan_lujvo {M B : Generated} (hM : Tables M) {s : List Char} (hs : s.length ≤ 65536) (hp : ∀ c ∈ bare s, Plain c) :
    (∃ k, morfScan M B false s = .ok ⟨.lujvo, [k], .none⟩) ↔ IsLujvo (bare s) := by
  rw [scan_one (B := B) (cultural := false) hM hs (w := .lujvo) (ty := .lujvo) (a := 3) (b := 4) (b' := 6) (by decide)
      (by intro w'; cases w' <;> decide) (fun _ => rfl)
      (fun k hk => ⟨(kinds_lujvo k hk).1, fun h => (kinds_lujvo k hk).2.2.1 (.inl h), fun h => (kinds_lujvo k hk).2.2.2 (by omega)⟩)
      hp (by decide) (by decide) (by decide),
    (one_iff (fun c hc => hp c (List.mem_reverse.1 hc))).1, List.reverse_reverse]

theorem scan_gismu {M B : Generated} (hM : Tables M) {cultural : Bool} {s : List Char} (hs : s.length ≤ 65536) (hp : ∀ c ∈ bare s, Plain c) :
    (∃ k, morfScan M B cultural s = .ok ⟨.gismu, [k], .none⟩) ↔ IsGismu (bare s) := by
  rw [scan_one (B := B) (cultural := cultural) hM hs (w := .gismu) (ty := .gismu) (a := 1) (b := 2) (b' := 2) (by decide)
      (by intro w'; cases w' <;> cases cultural <;> decide) (fun _ => rfl)
      (fun k hk => ⟨by rw [(kinds_lujvo k hk).2.1]; omega, fun h => (kinds_lujvo k hk).2.2.1 (.inr h), fun h => (kinds_lujvo k hk).2.2.2 (by omega)⟩)
      hp (by decide) (by decide) (by decide),
    (one_iff (fun c hc => hp c (List.mem_reverse.1 hc))).2, List.reverse_reverse]

/-- **C62.** The scanner says "one lujvo" of a word exactly when the word without its commas is a lujvo by the
grammar. -/
theorem lujvo_exact {M B : Generated} (hM : Tables M) {s : List Char} (hs : s.length ≤ 65536) :
    (∃ k, morfScan M B false s = .ok ⟨.lujvo, [k], .none⟩) ↔ IsLujvo (bare s) := by
  constructor
  · rintro ⟨k, h⟩
    exact (scan_lujvo hM hs (scan_plain hM hs (by decide) h)).1 ⟨k, h⟩
  · intro h
    exact (scan_lujvo hM hs (lujvo_plain h)).2 h

/-- **C63.** The scanner says "one gismu" of a word exactly when the word without its commas has the shape CVCCV
or CCVCV with permitted clusters. -/
theorem gismu_exact {M B : Generated} (hM : Tables M) {cultural : Bool} {s : List Char} (hs : s.length ≤ 65536) :
    (∃ k, morfScan M B cultural s = .ok ⟨.gismu, [k], .none⟩) ↔ IsGismu (bare s) := by
  constructor
  · rintro ⟨k, h⟩
    exact (scan_gismu hM hs (scan_plain hM hs (by decide) h)).1 ⟨k, h⟩
  · intro h
    exact (scan_gismu hM hs (gismu_plain h)).2 h

theorem bare_self {s : List Char} (h : NoComma s) : bare s = s := by
  rw [bare, List.filter_eq_self]
  intro c hc
  simpa using h c hc

/-- The position that is given for a word without commas. -/
theorem position_zero {M B : Generated} (hM : Tables M) {cultural : Bool} {s : List Char} (hs : s.length ≤ 65536)
    (hc : NoComma s) {ty : MorfType} {k : Nat} {x : Xtra} (h : morfScan M B cultural s = .ok ⟨ty, [k], x⟩) : k = 0 := by
  obtain ⟨ps, lead, h1, h2, _, h4⟩ := starts_partition hM hs h
  have hl : lead = [] := by
    cases lead with
    | nil => rfl
    | cons c t => exact absurd (h1 c List.mem_cons_self) (hc c (h2 ▸ List.mem_append_left _ List.mem_cons_self))
  subst hl
  cases ps with
  | nil => simp [offsets] at h4
  | cons p ps =>
    rw [offsets] at h4
    simp only [List.cons.injEq] at h4
    exact h4.1

/-- The same for words without commas: the one beginning is at the front. -/
theorem lujvo_exact_front {M B : Generated} (hM : Tables M) {s : List Char} (hs : s.length ≤ 65536) (hc : NoComma s) :
    morfScan M B false s = .ok ⟨.lujvo, [0], .none⟩ ↔ IsLujvo s := by
  have h := lujvo_exact (B := B) hM hs
  rw [bare_self hc] at h
  rw [← h]
  constructor
  · intro h; exact ⟨0, h⟩
  · rintro ⟨k, hk⟩; rw [position_zero hM hs hc hk] at hk; exact hk

theorem gismu_exact_front {M B : Generated} (hM : Tables M) {cultural : Bool} {s : List Char} (hs : s.length ≤ 65536) (hc : NoComma s) :
    morfScan M B cultural s = .ok ⟨.gismu, [0], .none⟩ ↔ IsGismu s := by
  have h := gismu_exact (B := B) (cultural := cultural) hM hs
  rw [bare_self hc] at h
  rw [← h]
  constructor
  · intro h; exact ⟨0, h⟩
  · rintro ⟨k, hk⟩; rw [position_zero hM hs hc hk] at hk; exact hk

theorem moved_none {x : Xtra} {n : Nat} (h : Xtra.none = x.moved n) : x = .none := by
  cases x <;> first | rfl | cases h

theorem xtra_none {M B : Generated} (hM : Tables M) {cultural : Bool} {s : List Char} (hs : s.length ≤ 65536)
    {ty : MorfType} {st : List Nat} {x : Xtra} (hty : ty = .lujvo ∨ ty = .gismu)
    (h : morfScan M B cultural s = .ok ⟨ty, st, x⟩) : x = .none := by
  have hb : Brivla ty := by rcases hty with rfl | rfl <;> decide
  have hscan := morfScan_eq (B := B) hM cultural s hs
  cases hi : node (chars (backwards s)) with
  | none =>
    rw [hi] at hscan
    obtain ⟨r, _, _, hscan⟩ := hscan
    rw [hscan] at h
    simp only [Except.ok.injEq, Result.mk.injEq] at h
    exact h.2.2.symm
  | some i =>
    rw [hi] at hscan
    simp only at hscan
    rw [hscan] at h
    obtain ⟨_, _, h3, _, h5⟩ := result_brivla h hb
    rw [h5]
    rcases hty with rfl | rfl
    · cases hk : (kind (morfCert.cls i).exit).1 <;> first | rfl | (rw [hk] at h3; exact absurd h3 (by cases cultural <;> decide))
    · cases hk : (kind (morfCert.cls i).exit).1 <;> first | rfl | (rw [hk] at h3; exact absurd h3 (by cases cultural <;> decide))

/-- **C62, C63.** Whenever the scanner says "lujvo", however many cmavo stand before, what follows the last beginning is
a lujvo by the grammar; likewise for gismu. -/
theorem last_word_exact {M B : Generated} (hM : Tables M) {s : List Char} (hs : s.length ≤ 65536) {st : List Nat} {x : Xtra} :
    (morfScan M B false s = .ok ⟨.lujvo, st, x⟩ → ∃ pre post before, s = pre ++ post ∧ st = before ++ [pre.length] ∧ IsLujvo (bare post)) ∧
    (∀ cultural, morfScan M B cultural s = .ok ⟨.gismu, st, x⟩ →
      ∃ pre post before, s = pre ++ post ∧ st = before ++ [pre.length] ∧ IsGismu (bare post)) := by
  constructor
  · intro h
    obtain ⟨pre, post, before, x', h1, h2, h3, h4, _⟩ := brivla_splits hM hs h (by decide)
    have hp : post.length ≤ 65536 := by rw [h1, List.length_append] at hs; omega
    have hx := xtra_none hM hp (.inl rfl) h3
    subst hx
    exact ⟨pre, post, before, h1, h2, (lujvo_exact hM hp).1 ⟨0, h3⟩⟩
  · intro cultural h
    obtain ⟨pre, post, before, x', h1, h2, h3, h4, _⟩ := brivla_splits hM hs h (by decide)
    have hp : post.length ≤ 65536 := by rw [h1, List.length_append] at hs; omega
    have hx := xtra_none hM hp (.inr rfl) h3
    subst hx
    exact ⟨pre, post, before, h1, h2, (gismu_exact hM hp).1 ⟨0, h3⟩⟩

/-- `jbobau` is a lujvo by the grammar, so the scanner must say so, with a comma as well; `jbobaua`, with two
vowels that are no diphthong, and `soirsru`, with a hyphen that is not needed, are none, so it must not. -/
example {M B : Generated} (hM : Tables M) :
    morfScan M B false "jbobau".toList = .ok ⟨.lujvo, [0], .none⟩ ∧
    (∃ k, morfScan M B false "jbo,bau".toList = .ok ⟨.lujvo, [k], .none⟩) ∧
    morfScan M B false "soirsru".toList ≠ .ok ⟨.lujvo, [0], .none⟩ := by
  have h : IsLujvo "jbobau".toList := by
    refine ⟨?_, ?_, ?_, by decide⟩
    · exact .cc (.ccv (w := ['j', 'b', 'o']) (n := 1) (by decide) (.cvv (by decide)))
    · show Flows ['j', 'b', 'o', 'b', 'a', 'u']
      rw [flows_cons, flows_cons, flows_cons, flows_cons, flows_cons]
      exact ⟨by decide, by decide, by decide, by decide, by decide, flows_one⟩
    · rintro ⟨s, u, t, hs, hu, ht, e⟩
      obtain ⟨x, y, z, rfl, _⟩ := Lujvo.shape_ccv ht
      rcases hs with rfl | rfl
      · obtain ⟨a, b, c, rfl, _, hb, _⟩ := Lujvo.shape_cvv hu
        simp only [List.cons_append, show "jbobau".toList = ['j', 'b', 'o', 'b', 'a', 'u'] from rfl, List.cons.injEq] at e
        rw [← e.2.1] at hb
        exact absurd hb (by decide)
      · obtain ⟨a, b, c, rfl, _, hb, _⟩ := Lujvo.shape_cvhv hu
        simp only [List.cons_append, show "jbobau".toList = ['j', 'b', 'o', 'b', 'a', 'u'] from rfl, List.cons.injEq] at e
        rw [← e.2.1] at hb
        exact absurd hb (by decide)
  refine ⟨(lujvo_exact_front hM (by decide) (by unfold NoComma; decide)).2 h, (lujvo_exact hM (by decide)).2 h, ?_⟩
  intro h'
  exact ((lujvo_exact_front hM (by decide) (by unfold NoComma; decide)).1 h').needed
    ⟨.cvv, ['s', 'o', 'i'], ['s', 'r', 'u'], .inl rfl, by decide, by decide, by decide⟩

/-- Gismu: a good one, one with a bad cluster, one with a bad beginning. -/
example {M B : Generated} (hM : Tables M) (cultural : Bool) :
    morfScan M B cultural "gismu".toList = .ok ⟨.gismu, [0], .none⟩ ∧
    morfScan M B cultural "gicsu".toList ≠ .ok ⟨.gismu, [0], .none⟩ ∧
    morfScan M B cultural "lbama".toList ≠ .ok ⟨.gismu, [0], .none⟩ := by
  refine ⟨(gismu_exact_front hM (by decide) (by unfold NoComma; decide)).2 (by unfold IsGismu; decide), ?_, ?_⟩
  · intro h
    exact absurd ((gismu_exact_front hM (by decide) (by unfold NoComma; decide)).1 h) (by unfold IsGismu; decide)
  · intro h
    exact absurd ((gismu_exact_front hM (by decide) (by unfold NoComma; decide)).1 h) (by unfold IsGismu; decide)

/-- A gismu and a lujvo after cmavo: the theorem applies to these runs. -/
example {M B : Generated} (hM : Tables M) (hB : Bc.Tables B) :
    morfScan M B false "lemlatu".toList = .ok ⟨.gismu, [0, 2], .none⟩ ∧
    morfScan M B false "mi,jbobau".toList = .ok ⟨.lujvo, [0, 3], .none⟩ := by
  refine ⟨?_, ?_⟩ <;> exact known_scan hM hB (by decide) (by decide +kernel)

end Jbo.Morf
