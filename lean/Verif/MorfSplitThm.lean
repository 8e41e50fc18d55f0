import Verif.MorfSplitInv
import Verif.MorfSpec
/-!
# Words that the scanner cuts
-/

namespace Jbo.Morf
open Jbo.Dfasyn

/-! ## Positions -/

theorem lettersAt_append (k : Nat) (u v : List Char) :
    lettersAt k (u ++ v) = lettersAt k u ++ lettersAt (k + u.length) v := by
  induction u generalizing k with
  | nil => simp [lettersAt]
  | cons c u ih =>
    simp only [List.cons_append, lettersAt, ih, List.length_cons]
    rw [show k + 1 + u.length = k + (u.length + 1) from by omega]
    split <;> rfl

/-- A letter, moved. -/
def mv (n : Nat) (a : At) : At := (a.1 + n, a.2)

theorem lettersAt_mv (k n : Nat) (v : List Char) : lettersAt (k + n) v = (lettersAt k v).map (mv n) := by
  induction v generalizing k with
  | nil => rfl
  | cons c v ih =>
    simp only [lettersAt]
    rw [show k + n + 1 = k + 1 + n from by omega, ih]
    split <;> rfl

theorem lettersAt_split {s : List Char} : ∀ {k : Nat} {A B : List At} {q : Nat} {c : Char},
    lettersAt k s = A ++ (q, c) :: B →
    ∃ u v, s = u ++ c :: v ∧ q = k + u.length ∧ lettersAt k u = A ∧ c ≠ ',' := by
  induction s with
  | nil => intro k A B q c h; simp [lettersAt] at h
  | cons d s ih =>
    intro k A B q c h
    rw [lettersAt] at h
    by_cases hd : d = ','
    · rw [if_pos hd] at h
      obtain ⟨u, v, h1, h2, h3, h4⟩ := ih h
      exact ⟨d :: u, v, by rw [h1]; rfl, by rw [List.length_cons]; omega, by rw [lettersAt, if_pos hd, h3], h4⟩
    · rw [if_neg hd] at h
      cases A with
      | nil =>
        simp only [List.nil_append, List.cons.injEq, Prod.mk.injEq] at h
        exact ⟨[], s, by rw [h.1.2]; rfl, by rw [← h.1.1]; rfl, rfl, h.1.2 ▸ hd⟩
      | cons a A =>
        simp only [List.cons_append, List.cons.injEq] at h
        obtain ⟨u, v, h1, h2, h3, h4⟩ := ih h.2
        exact ⟨d :: u, v, by rw [h1]; rfl, by rw [List.length_cons]; omega,
          by rw [lettersAt, if_neg hd, h3, h.1], h4⟩

theorem lettersAt_noComma (k : Nat) (s : List Char) : NoComma (chars (lettersAt k s)) := by
  induction s generalizing k with
  | nil => simp [lettersAt, chars, NoComma]
  | cons c s ih =>
    rw [lettersAt]
    split
    · exact ih _
    · intro d hd
      rcases List.mem_cons.1 hd with rfl | hd
      · assumption
      · exact ih _ d hd

theorem backwards_noComma (s : List Char) : NoComma (chars (backwards s)) := by
  intro c hc
  unfold backwards chars at hc
  rw [List.map_reverse, List.mem_reverse] at hc
  exact lettersAt_noComma 0 s c hc

theorem chars_mv (n : Nat) (r : List At) : chars (r.map (mv n)) = chars r := by
  simp [chars, mv, Function.comp_def]

theorem starts_mv (n : Nat) (r : List At) : starts (r.map (mv n)) = (starts r).map (· + n) := by
  induction r with
  | nil => rfl
  | cons a r ih =>
    simp only [List.map_cons, starts, chars_mv, ih]
    rw [show (mv n a).2 = a.2 from rfl]
    split <;> rfl

theorem cstarts_mv (n : Nat) (r : List At) : cstarts (r.map (mv n)) = (cstarts r).map (· + n) := by
  induction r with
  | nil => rfl
  | cons a r ih =>
    simp only [List.map_cons, cstarts, chars_mv, ih]
    rw [show (mv n a).2 = a.2 from rfl]
    split <;> rfl

theorem p2_mv (n : Nat) (r : List At) : p2 (r.map (mv n)) = (p2 r).map (· + n) := by
  match r with
  | [] => rfl
  | [_] => rfl
  | _ :: _ :: _ => rfl

theorem hyph_mv (x y : Name) (n : Nat) (r : List At) : hyph x y (r.map (mv n)) = (hyph x y r).map (· + n) := by
  induction r with
  | nil => rfl
  | cons a r ih =>
    simp only [List.map_cons, hyph, chars_mv, ih, p2_mv]
    cases node (chars r) with
    | none => rfl
    | some i => simp only; split <;> rfl

/-- Cutting the text of a word is cutting the word. -/
theorem backwards_cut {s : List Char} {x b : List At} {a : At} (h : backwards s = x ++ a :: b) :
    ∃ pre post, s = pre ++ post ∧ pre.length = a.1 ∧ backwards pre = b ∧
      x ++ [a] = (backwards post).map (mv pre.length) ∧ ∃ c t, post = c :: t ∧ c ≠ ',' := by
  have h' : lettersAt 0 s = b.reverse ++ (a.1, a.2) :: x.reverse := by
    have := congrArg List.reverse h
    unfold backwards at this
    rw [List.reverse_reverse] at this
    rw [this]; simp
  obtain ⟨u, v, h1, h2, h3, h4⟩ := lettersAt_split h'
  refine ⟨u, a.2 :: v, h1, by omega, ?_, ?_, a.2, v, rfl, h4⟩
  · unfold backwards; rw [h3, List.reverse_reverse]
  · rw [h1, lettersAt_append, h3] at h'
    have h5 := List.append_cancel_left h'
    have h6 := lettersAt_mv 0 u.length (a.2 :: v)
    rw [h6] at h5
    unfold backwards
    rw [List.map_reverse, h5]
    simp

theorem backwards_nil {s : List Char} : backwards s = [] ↔ Silent s := by
  unfold backwards
  rw [List.reverse_eq_nil_iff]
  have : ∀ k, lettersAt k s = [] ↔ Silent s := by
    induction s with
    | nil => simp [lettersAt, Silent]
    | cons c s ih =>
      intro k
      rw [lettersAt]
      by_cases hc : c = ','
      · rw [if_pos hc, ih]
        simp [Silent, hc]
      · rw [if_neg hc]
        simp [Silent, hc]
  exact this 0

/-! ## The kinds of words -/

/-- Words that are brivla, or nearly. -/
def Word.long : Word → Bool
  | .unknown | .cmavos | .cmavosEndCy | .cmene => false
  | _ => true

theorem kind_table : ∀ k < 32, (kind k).1.long = isBrivla k ∧ (isBrivla k = true → (kind k).2 = isDec k) ∧
    kind (canon k) = kind k ∧ (isLong k = true ↔ (kind k).1 = .fuivla3 ∨ (kind k).1 = .fuivla3x) ∧
    (isCvc k = true ↔ (kind k).1 = .fuivla3Cvc ∨ (kind k).1 = .fuivla3xCvc) := by decide +kernel

theorem kind_22 : kind 22 = (.cmavos, false) := by decide +kernel

/-- A brivla stands at the end of the text, after cmavo or after nothing. -/
theorem brivla_tail {r : List At} (hr : NoComma (chars r)) {i : Nat} (hi : node (chars r) = some i)
    (hk : (kind (morfCert.cls i).exit).1.long = true) :
    ∃ x a b j, r = x ++ a :: b ∧ isStart a.2 (chars b) = true ∧ node (chars (x ++ [a])) = some j ∧
      kind (morfCert.cls j).exit = kind (morfCert.cls i).exit ∧
      (starts (x ++ [a])).length = (if (kind (morfCert.cls i).exit).2 then 2 else 1) ∧
      (b = [] ∨ ∃ m, node (chars b) = some m ∧ kind (morfCert.cls m).exit = (.cmavos, false)) ∧
      ((kind (morfCert.cls i).exit).1 = .fuivla3 ∨ (kind (morfCert.cls i).exit).1 = .fuivla3x →
        hyph4 r = hyph4 (x ++ [a])) ∧
      ((kind (morfCert.cls i).exit).1 = .fuivla3Cvc ∨ (kind (morfCert.cls i).exit).1 = .fuivla3xCvc →
        hyph3 r = hyph3 (x ++ [a])) := by
  obtain ⟨e, he, hK⟩ := knows_all r hr (by rw [hi]; simp)
  have hg := split_good
  rw [withGraph_eq] at hg
  have hg := List.all_eq_true.1 hg e he
  generalize Split.dec e = s at hK hg
  have hsD : s.D = i := by
    have := hK.D
    rw [hi] at this
    exact (Option.some.inj this).symm
  obtain ⟨k1, k2, k3, k4, k5⟩ := kind_table _ (exit_lt i)
  have hbr : isBrivla (morfCert.cls i).exit = true := k1 ▸ hk
  have key : ∀ {t b : List At} {k E : Nat} {bf v3 v4 : Bool}, TailOf r t b k E bf v3 v4 →
      k = (if (kind (morfCert.cls i).exit).2 then 2 else 1) → bf = true →
      canon (exitN graphX E) = canon (morfCert.cls i).exit → (isLong (morfCert.cls i).exit = true → v4 = true) →
      (isCvc (morfCert.cls i).exit = true → v3 = true) →
      ∃ x a b j, r = x ++ a :: b ∧ isStart a.2 (chars b) = true ∧ node (chars (x ++ [a])) = some j ∧
      kind (morfCert.cls j).exit = kind (morfCert.cls i).exit ∧
      (starts (x ++ [a])).length = (if (kind (morfCert.cls i).exit).2 then 2 else 1) ∧
      (b = [] ∨ ∃ m, node (chars b) = some m ∧ kind (morfCert.cls m).exit = (.cmavos, false)) ∧
      ((kind (morfCert.cls i).exit).1 = .fuivla3 ∨ (kind (morfCert.cls i).exit).1 = .fuivla3x →
        hyph4 r = hyph4 (x ++ [a])) ∧
      ((kind (morfCert.cls i).exit).1 = .fuivla3Cvc ∨ (kind (morfCert.cls i).exit).1 = .fuivla3xCvc →
        hyph3 r = hyph3 (x ++ [a])) := by
    intro t b k E bf v3 v4 hT hk' hbf hc h4 h3
    obtain ⟨x, a, hx, ha⟩ := hT.cut
    subst hx
    have hE := hT.E
    unfold nodeN at hE
    cases hn : node (chars (x ++ [a])) with
    | none =>
      exfalso
      rw [hn] at hE
      simp only at hE
      rw [hE, exitN] at hc
      have : ∀ k < 32, isBrivla k = true → canon 0 ≠ canon k := by decide
      exact this _ (exit_lt i) hbr hc
    | some j =>
      rw [hn] at hE
      simp only at hE
      rw [hE, exitN, exitX_eq] at hc
      refine ⟨x, a, b, j, by rw [hT.eq]; simp, ha, hn, ?_, hT.starts.trans hk', ?_, ?_, ?_⟩
      · rw [← (kind_table _ (exit_lt j)).2.2.1, hc, k3]
      · rcases hT.before hbf with hb | hb
        · exact Or.inl hb
        · right
          unfold nodeN at hb
          cases hm : node (chars b) with
          | none => rw [hm] at hb; simp [exitN] at hb
          | some m =>
            rw [hm] at hb
            simp only [exitN, exitX_eq] at hb
            exact ⟨m, rfl, by rw [hb, kind_22]⟩
      · exact fun h => hT.h4 (h4 (k4.2 h))
      · exact fun h => hT.h3 (h3 (k5.2 h))
  unfold Split.good at hg
  rw [hsD, exitX_eq] at hg
  simp only [hbr, Bool.not_true, Bool.false_or] at hg
  have hr0 : r ≠ [] := by
    intro h0
    subst h0
    have : node (chars []) = some 0 := rfl
    rw [hi] at this
    have hi0 : i = 0 := Option.some.inj this
    subst hi0
    have hc : (morfCert.cls 0).exit = 0 := rfl
    rw [hc] at hbr
    cases hbr
  cases hdec : isDec (morfCert.cls i).exit with
  | true =>
    rw [hdec] at hg
    simp only [if_true, Bool.and_eq_true, Bool.or_eq_true, Bool.not_eq_true'] at hg
    obtain ⟨⟨⟨⟨g1, g2⟩, g3⟩, g4⟩, g5⟩ := hg
    obtain ⟨t, b, hT⟩ := hK.two (Nat.eq_of_beq_eq_true g1)
    refine key hT (by rw [k2 hbr, hdec]; rfl) g2 (Nat.eq_of_beq_eq_true g3) ?_ ?_
    · intro h; rcases g4 with g4 | g4
      · rw [h] at g4; cases g4
      · exact g4
    · intro h; rcases g5 with g5 | g5
      · rw [h] at g5; cases g5
      · exact g5
  | false =>
    rw [hdec] at hg
    simp only [Bool.false_eq_true, if_false, Bool.and_eq_true, Bool.or_eq_true, Bool.not_eq_true'] at hg
    obtain ⟨⟨⟨g2, g3⟩, g4⟩, g5⟩ := hg
    obtain ⟨t, b, hT⟩ := hK.one hr0
    refine key hT (by rw [k2 hbr, hdec]; rfl) g2 (Nat.eq_of_beq_eq_true g3) ?_ ?_
    · intro h; rcases g4 with g4 | g4
      · rw [h] at g4; cases g4
      · exact g4
    · intro h; rcases g5 with g5 | g5
      · rw [h] at g5; cases g5
      · exact g5

/-! ## The theorem -/

theorem starts_first (x : List At) (a : At) : ∃ y, starts (x ++ [a]) = y ++ [a.1] := by
  induction x with
  | nil => exact ⟨[], by rw [List.nil_append, starts, if_pos (by exact isStart_nil _)]; rfl⟩
  | cons d x ih =>
    obtain ⟨y, hy⟩ := ih
    rw [List.cons_append, starts, hy]
    split
    · exact ⟨d.1 :: y, rfl⟩
    · exact ⟨y, rfl⟩

/-- The beginnings that count. -/
def counted (d : Bool) (l : List Nat) : List Nat := if d then l.reverse.dropLast else l.reverse

theorem counted_map (f : Nat → Nat) (d : Bool) (l : List Nat) : counted d (l.map f) = (counted d l).map f := by
  unfold counted
  split
  · rw [← List.map_reverse, List.map_dropLast]
  · rw [List.map_reverse]

theorem counted_cut {x b : List At} {a : At} {d : Bool} (ha : isStart a.2 (chars b) = true) (hb : NoComma (chars b))
    (hl : (starts (x ++ [a])).length = if d then 2 else 1) :
    counted d (starts (x ++ [a])) = [a.1] ∧ counted d (starts (x ++ a :: b)) = (starts b).reverse ++ [a.1] := by
  rw [cut_starts ha hb]
  obtain ⟨y, hy⟩ := starts_first x a
  rw [hy] at hl ⊢
  rw [List.length_append, List.length_singleton] at hl
  unfold counted
  cases d with
  | false =>
    have : y = [] := by
      cases y with
      | nil => rfl
      | cons z y => simp at hl
    subst this
    simp
  | true =>
    match y with
    | [] => simp at hl
    | [z] =>
      simp only [if_true]
      constructor
      · rfl
      · rw [show (([z] ++ [a.1]) ++ starts b).reverse = ((starts b).reverse ++ [a.1]) ++ [z] from by simp]
        rw [List.dropLast_concat]
    | z :: z' :: y => simp at hl

/-- What a brivla type of result comes from. -/
def typeOf (cultural : Bool) : Word → MorfType
  | .gismu => .gismu
  | .lujvo => .lujvo
  | .culturalLujvo => if cultural then .lujvo else .bogus
  | .fuivla3 => .fuivla3
  | .fuivla3Cvc => .fuivla3Cvc
  | .fuivla3x => .fuivla3x
  | .fuivla3xCvc => .fuivla3xCvc
  | .fuivla4 => .fuivla4
  | _ => .bogus

def xtraOf (r : List At) : Word → Xtra
  | .fuivla3 | .fuivla3x => .stage3 (hyph4 r)
  | .fuivla3Cvc | .fuivla3xCvc => .stage3 (hyph3 r)
  | _ => .none

theorem result_brivla {B : Generated} {cultural : Bool} {s : List Char} {i : Nat} {ty : MorfType} {st : List Nat}
    {x : Xtra} (h : result B cultural s i = .ok ⟨ty, st, x⟩) (ht : Brivla ty) :
    (kind (morfCert.cls i).exit).1.long = true ∧ upper (chars (backwards s)) = false ∧
      ty = typeOf cultural (kind (morfCert.cls i).exit).1 ∧
      st = counted (kind (morfCert.cls i).exit).2 (starts (backwards s)) ∧
      x = xtraOf (backwards s) (kind (morfCert.cls i).exit).1 := by
  unfold result at h
  rw [classify_exitName] at h
  generalize kind (morfCert.cls i).exit = k at h
  obtain ⟨w, d⟩ := k
  dsimp only at h ⊢
  unfold finish at h
  dsimp only at h
  unfold small at h
  cases hu : upper (chars (backwards s)) with
  | true =>
    exfalso
    rw [hu] at h
    simp only [if_true] at h
    have hno : ¬ Brivla .badUppercase ∧ ¬ Brivla .bogus ∧ ¬ Brivla .cmene := by decide
    have : ty = .badUppercase ∨ ty = .bogus ∨ ty = .cmene := by
      cases w <;> simp only [Except.ok.injEq, Result.mk.injEq] at h
      case cmene =>
        split at h
        · cases h
        · simp only [Except.ok.injEq, Result.mk.injEq] at h
          exact Or.inr (Or.inr h.1.symm)
      all_goals first | exact Or.inl h.1.symm | exact Or.inr (Or.inl h.1.symm)
    rcases this with h | h | h
    · exact hno.1 (h ▸ ht)
    · exact hno.2.1 (h ▸ ht)
    · exact hno.2.2 (h ▸ ht)
  | false =>
    rw [hu] at h
    simp only [Bool.false_eq_true, if_false] at h
    have hno : ¬ Brivla .bogus ∧ ¬ Brivla .cmene ∧ ¬ Brivla .cmavos := by decide
    cases w <;> simp only [Except.ok.injEq, Result.mk.injEq] at h
    case cmene =>
      exfalso
      split at h
      · cases h
      · simp only [Except.ok.injEq, Result.mk.injEq] at h
        exact hno.2.1 (h.1 ▸ ht)
    case unknown => exact absurd (h.1 ▸ ht) hno.1
    case cmavos => exact absurd (h.1 ▸ ht) hno.2.2
    case cmavosEndCy => exact absurd (h.1 ▸ ht) hno.2.2
    all_goals exact ⟨rfl, rfl, h.1.symm, h.2.1.symm, h.2.2.symm⟩

theorem result_of_kind {B : Generated} {cultural : Bool} {s : List Char} {i : Nat}
    (hl : (kind (morfCert.cls i).exit).1.long = true) (hu : upper (chars (backwards s)) = false) :
    result B cultural s i = .ok ⟨typeOf cultural (kind (morfCert.cls i).exit).1,
      counted (kind (morfCert.cls i).exit).2 (starts (backwards s)),
      xtraOf (backwards s) (kind (morfCert.cls i).exit).1⟩ := by
  unfold result
  rw [classify_exitName]
  generalize kind (morfCert.cls i).exit = k at hl
  obtain ⟨w, d⟩ := k
  dsimp only at hl ⊢
  unfold finish small
  rw [hu]
  simp only [Bool.false_eq_true, if_false]
  cases w <;> first | rfl | exact absurd hl (by decide)

theorem result_cmavos {B : Generated} {cultural : Bool} {s : List Char} {i : Nat}
    (hk : kind (morfCert.cls i).exit = (.cmavos, false)) (hu : upper (chars (backwards s)) = false) :
    result B cultural s i = .ok ⟨.cmavos, (starts (backwards s)).reverse, .none⟩ := by
  unfold result
  rw [classify_exitName, hk]
  dsimp only
  unfold finish small
  rw [hu]
  rfl

theorem xtra_moved {r t : List At} {n : Nat} {w : Word}
    (h4 : w = .fuivla3 ∨ w = .fuivla3x → hyph4 r = hyph4 (t.map (mv n)))
    (h3 : w = .fuivla3Cvc ∨ w = .fuivla3xCvc → hyph3 r = hyph3 (t.map (mv n))) :
    xtraOf r w = (xtraOf t w).moved n := by
  unfold hyph4 hyph3 at *
  rw [hyph_mv] at h3 h4
  cases w <;> simp_all [xtraOf, Xtra.moved, hyph4, hyph3]

/-- If the scanner finds a brivla, its last beginning divides the word in two: what stands before is
nothing (or commas) or is itself a series of cmavo, with the other beginnings; what follows is by
itself the same kind of brivla, with one beginning and the same hyphen. -/
theorem brivla_splits {M B : Generated} (hM : Tables M) {cultural : Bool} {s : List Char} (hs : s.length ≤ 65536)
    {ty : MorfType} {st : List Nat} {x : Xtra} (h : morfScan M B cultural s = .ok ⟨ty, st, x⟩) (ht : Brivla ty) :
    ∃ pre post before x', s = pre ++ post ∧ st = before ++ [pre.length] ∧
      morfScan M B cultural post = .ok ⟨ty, [0], x'⟩ ∧ x = x'.moved pre.length ∧
      ((Silent pre ∧ before = []) ∨ morfScan M B cultural pre = .ok ⟨.cmavos, before, .none⟩) := by
  have hscan := morfScan_eq (B := B) hM cultural s hs
  cases hi : node (chars (backwards s)) with
  | none =>
    rw [hi] at hscan
    obtain ⟨l, _, _, hl⟩ := hscan
    rw [hl] at h
    simp only [Except.ok.injEq, Result.mk.injEq] at h
    rw [← h.1] at ht
    exact absurd ht (by decide)
  | some i =>
    rw [hi] at hscan
    simp only at hscan
    rw [hscan] at h
    obtain ⟨h1, h2, h3, h4, h5⟩ := result_brivla h ht
    have hnc := backwards_noComma s
    obtain ⟨y, a, b, j, e1, e2, e3, e4, e5, e6, e7, e8⟩ := brivla_tail hnc hi h1
    obtain ⟨pre, post, f1, f2, f3, f4, _⟩ := backwards_cut e1
    have hbc : NoComma (chars b) := f3 ▸ backwards_noComma pre
    have hup : upper (chars (y ++ [a])) = false ∧ upper (chars b) = false := by
      rw [e1, show y ++ a :: b = (y ++ [a]) ++ b from by simp, chars_append, upper_append, Bool.or_eq_false_iff] at h2
      exact h2
    obtain ⟨g1, g2⟩ := counted_cut e2 hbc e5
    have hcp : chars (y ++ [a]) = chars (backwards post) := by rw [f4, chars_mv]
    refine ⟨pre, post, (starts b).reverse, xtraOf (backwards post) (kind (morfCert.cls i).exit).1, f1, ?_, ?_, ?_, ?_⟩
    · rw [h4, e1, g2, f2]
    · have hp := morfScan_eq (B := B) hM cultural post (by rw [f1, List.length_append] at hs; omega)
      rw [hcp] at e3
      rw [e3] at hp
      simp only at hp
      rw [hp, result_of_kind (by rw [e4]; exact h1) (by rw [← hcp]; exact hup.1), e4]
      rw [f4, starts_mv] at g1
      have : counted (kind (morfCert.cls i).exit).2 (starts (backwards post)) = [0] := by
        rw [counted_map, ← f2] at g1
        generalize counted (kind (morfCert.cls i).exit).2 (starts (backwards post)) = l at g1
        cases l with
        | nil => simp at g1
        | cons z l =>
          rw [List.map_cons, List.cons.injEq, List.map_eq_nil_iff] at g1
          rw [g1.2, show z = 0 from by omega]
      rw [this, h3]
    · rw [h5]
      refine xtra_moved ?_ ?_
      · rw [← f4]; exact e7
      · rw [← f4]; exact e8
    · rcases e6 with e6 | ⟨m, e6, e6'⟩
      · left
        rw [e6] at f3
        exact ⟨backwards_nil.1 f3, by rw [e6]; rfl⟩
      · right
        have hp := morfScan_eq (B := B) hM cultural pre (by rw [f1, List.length_append] at hs; omega)
        rw [f3, e6] at hp
        simp only at hp
        rw [hp, result_cmavos e6' (by rw [f3]; exact hup.2), f3]

end Jbo.Morf
