import Verif.GramBase
import Verif.TermsThm
/-!
# Every parse tree can be read

The theorems about `terms.c` are stated for trees that have a reading (`TermsTreeSpec`).  Here: every tree of
the grammar has one.
-/

namespace Jbo.Gram
open Jbo.Terms Jbo.Terms.Spec

/-- The terminal that the scanner never gives. -/
theorem kids_never {P : NT → Node → Prop} {its : List Item} {cs : List Node} (h : Kids P its cs) : .never ∉ its := by
  induction h with
  | nil => simp
  | n _ _ ih => simp [ih]
  | word hw _ ih =>
    simp only [List.mem_cons, not_or]
    refine ⟨?_, ih⟩
    rintro rfl
    cases hw with
    | alone h => cases h
    | marked _ h _ => cases h
  | put _ _ ih => simp [ih]
  | out _ ih => simp [ih]

/-- A check of the rules of one non-terminal. -/
def on (t : NT) (f : List Item → Bool) : Bool := rules.all (fun r => !(r.lhs == t) || r.rhs.contains .never || f r.rhs)

theorem on_use {t : NT} {f : List Item → Bool} (h : on t f = true) {x : Node} (hp : Parse t x) :
    ∃ i its cs, x = .nt i t cs ∧ f its = true ∧ Kids Parse its cs := by
  obtain ⟨i, cs, r, rfl, hr, he, hk⟩ := parse_inv hp
  have := all_mem h hr
  simp only [he, beq_self_eq_true, Bool.not_true, Bool.false_or, Bool.or_eq_true, List.contains_iff_mem] at this
  exact ⟨i, _, cs, rfl, this.resolve_left (kids_never hk), hk⟩

theorem kids_one {its : List Item} {cs : List Node} (h : Kids Parse its cs) {t : NT} (ht : t ≠ .augmented) (hc : its.count (.n t) = 1) :
    ∃ x, kids cs t = [x] ∧ Parse t x := by
  obtain ⟨h1, h2⟩ := kids_parse h ht
  rw [hc] at h1
  obtain ⟨x, hx⟩ := List.length_eq_one_iff.1 h1
  exact ⟨x, hx, h2 x (by rw [hx]; exact List.mem_singleton.2 rfl)⟩

theorem kids_zero {its : List Item} {cs : List Node} (h : Kids Parse its cs) {t : NT} (ht : t ≠ .augmented) (hc : its.count (.n t) = 0) :
    kids cs t = [] := by
  obtain ⟨h1, _⟩ := kids_parse h ht
  rw [hc] at h1
  exact List.length_eq_zero_iff.1 h1

theorem kids_le {its : List Item} {cs : List Node} (h : Kids Parse its cs) {t : NT} (ht : t ≠ .augmented) (hc : its.count (.n t) ≤ 1) :
    kids cs t = [] ∨ ∃ x, kids cs t = [x] ∧ Parse t x := by
  by_cases e : its.count (.n t) = 0
  · exact .inl (kids_zero h ht e)
  · exact .inr (kids_one h ht (by omega))

theorem kids_two {its : List Item} {cs : List Node} (h : Kids Parse its cs) {t : NT} (ht : t ≠ .augmented) (hc : its.count (.n t) = 2) :
    ∃ x y, kids cs t = [x, y] ∧ Parse t x ∧ Parse t y := by
  obtain ⟨h1, h2⟩ := kids_parse h ht
  rw [hc] at h1
  obtain ⟨x, y, hx⟩ := List.length_eq_two.1 h1
  exact ⟨x, y, hx, h2 x (by simp [hx]), h2 y (by simp [hx])⟩

/-- A rule with a single non-terminal. -/
theorem only {t : NT} {cs : List Node} (h : Kids Parse [.n t] cs) : ∃ c, cs = [c] ∧ Parse t c := by
  cases h with
  | n hp hk => cases hk; exact ⟨_, rfl, hp⟩
  | word hw _ => cases hw with
    | alone h => cases h
    | marked _ h _ => cases h

/-- A rule that begins with a non-terminal. -/
theorem first {t : NT} {its : List Item} {cs : List Node} (h : Kids Parse (.n t :: its) cs) :
    ∃ c ds, cs = c :: ds ∧ Parse t c ∧ Kids Parse its ds := by
  cases h with
  | n hp hk => exact ⟨_, _, rfl, hp, hk⟩
  | word hw _ => cases hw with
    | alone h => cases h
    | marked _ h _ => cases h

/-- A rule that begins with a selma'o. -/
theorem firstT {s : Sel} {its : List Item} {cs : List Node} (h : Kids Parse (.t s :: its) cs) :
    ∃ c ds, cs = c :: ds ∧ WordR (.t s) c ∧ Kids Parse its ds := by
  cases h with
  | word hw hk => exact ⟨_, _, rfl, hw, hk⟩

theorem firstW {it : Item} {its : List Item} {cs : List Node} (hi : it = .brivla ∨ it = .zei ∨ it = .leaf) (h : Kids Parse (it :: its) cs) :
    ∃ c ds, cs = c :: ds ∧ WordR it c ∧ Kids Parse its ds := by
  rcases hi with rfl | rfl | rfl <;> cases h with
  | word hw hk => exact ⟨_, _, rfl, hw, hk⟩

/-- The number of children that a rule surely gives. -/
def sure (its : List Item) : Nat := (its.filter Item.sure).length

theorem many {its : List Item} {cs : List Node} (h : Kids Parse its cs) {n : Nat} (hn : n ≤ sure its) : n ≤ cs.length :=
  Nat.le_trans hn (kids_length h).1

theorem mem_depth {t : NT} {i : Nat} {cs : List Node} {x : Node} (h : x ∈ cs) : x.depth < (Node.nt i t cs).depth := by
  rw [depth_nt]; have := depth_le h; omega

/-! ## Terms -/

theorem fa_words : ∀ w ∈ wordsOf .FA, w = "fi'a" ∨ ∃ p, (w, p) ∈ faPlaces := by
  intro w hw
  simp only [wordsOf, List.mem_cons, List.not_mem_nil, or_false] at hw
  rcases hw with rfl | rfl | rfl | rfl | rfl | rfl | rfl <;>
    simp [faPlaces]

theorem se_words : ∀ w ∈ wordsOf .SE, ∃ p, (w, p) ∈ sePlaces := by
  intro w hw
  simp only [wordsOf, List.mem_cons, List.not_mem_nil, or_false] at hw
  rcases hw with rfl | rfl | rfl | rfl <;> simp [sePlaces]

theorem term_rules : on .term (fun its => match its with
    | [.n _] => true
    | _ => false) = true := by decide +kernel

theorem placed_rules : on .termPlacedSumti (fun its => match its with
    | .t .FA :: _ => true
    | _ => false) = true := by decide +kernel

theorem term_read {x : Node} (h : Parse .term x) : ∃ e, TermR x e := by
  obtain ⟨i, its, cs, rfl, hf, hk⟩ := on_use term_rules h
  split at hf
  · rename_i t
    obtain ⟨c, rfl, hp⟩ := only hk
    by_cases e : t = .termPlacedSumti
    · subst e
      obtain ⟨j, its, cs, rfl, hf, hk⟩ := on_use placed_rules hp
      split at hf
      · obtain ⟨c, ds, rfl, hw, _⟩ := firstT hk
        obtain ⟨k, w, hm, hw⟩ := word_word hw (by decide)
        rcases fa_words w hm with rfl | ⟨p, hp⟩
        · exact ⟨_, .asked hw⟩
        · exact ⟨_, .placed hw hp⟩
      · cases hf
    · obtain ⟨j, cs, r, rfl, _, _, _⟩ := parse_inv hp
      by_cases e1 : t = .termPlainSumti
      · subst e1; exact ⟨_, .plain⟩
      by_cases e2 : t = .termTaggedSumti
      · subst e2; exact ⟨_, .tagged⟩
      by_cases e3 : t = .taggedTermset
      · subst e3; exact ⟨_, .tagset⟩
      exact ⟨_, .other (by simp [e, e1, e2, e3])⟩
  · cases hf

theorem terms2_rules : on .terms2 (fun its => its == [.n .term] || decide (2 ≤ sure its)) = true := by decide +kernel
theorem terms1_rules : on .terms1 (fun its => its == [.n .terms2] || decide (2 ≤ sure its)) = true := by decide +kernel
theorem terms_rules : on .terms (fun its => its == [.n .terms1] || its == [.n .terms, .n .terms1]) = true := by decide +kernel

theorem terms1_read {x : Node} (h : Parse .terms1 x) : ∃ e, Terms1R x e := by
  obtain ⟨i, its, cs, rfl, hf, hk⟩ := on_use terms1_rules h
  simp only [Bool.or_eq_true, beq_iff_eq, decide_eq_true_eq] at hf
  rcases hf with rfl | hf
  · obtain ⟨c, rfl, hp⟩ := only hk
    obtain ⟨i, its, cs, rfl, hf, hk⟩ := on_use terms2_rules hp
    simp only [Bool.or_eq_true, beq_iff_eq, decide_eq_true_eq] at hf
    rcases hf with rfl | hf
    · obtain ⟨c, rfl, hq⟩ := only hk
      obtain ⟨e, he⟩ := term_read hq
      exact ⟨e, .one he⟩
    · exact ⟨_, .cehe (many hk hf)⟩
  · exact ⟨_, .pehe (many hk hf)⟩

theorem terms_read : ∀ (n : Nat) {x : Node}, x.depth ≤ n → Parse .terms x → ∃ es, TermsR x es
  | 0, x, hd, h => by
    obtain ⟨i, its, cs, rfl, _, _⟩ := on_use terms_rules h
    rw [depth_nt] at hd; omega
  | n + 1, x, hd, h => by
    obtain ⟨i, its, cs, rfl, hf, hk⟩ := on_use terms_rules h
    simp only [Bool.or_eq_true, beq_iff_eq] at hf
    rcases hf with rfl | rfl
    · obtain ⟨c, rfl, hp⟩ := only hk
      obtain ⟨e, he⟩ := terms1_read hp
      exact ⟨_, .one he⟩
    · obtain ⟨c, ds, rfl, hp, hk⟩ := first hk
      obtain ⟨d, rfl, hq⟩ := only hk
      obtain ⟨e, he⟩ := terms1_read hq
      have := mem_depth (t := .terms) (i := i) (List.mem_cons_self .. : c ∈ [c, d])
      obtain ⟨es, hes⟩ := terms_read n (by omega) hp
      exact ⟨_, .more hes he⟩

theorem linkargs_rules : on .linkargs (fun its => its.count (.n .term) == 1 && decide (its.count (.n .links) ≤ 1)) = true := by
  decide +kernel
theorem links_rules : on .links (fun its => its.count (.n .term) == 1 && decide (its.count (.n .links) ≤ 1)) = true := by
  decide +kernel

theorem linked_read : ∀ (n : Nat) {t : NT} {x : Node}, t = .linkargs ∨ t = .links → x.depth ≤ n → Parse t x → ∃ es, LinkedR x es := by
  intro n
  induction n with
  | zero =>
    intro t x _ hd h
    obtain ⟨i, cs, r, rfl, _⟩ := parse_inv h
    rw [depth_nt] at hd; omega
  | succ n ih =>
    intro t x ht hd h
    have key : ∃ i its cs, x = .nt i t cs ∧ its.count (.n .term) = 1 ∧ its.count (.n .links) ≤ 1 ∧ Kids Parse its cs := by
      rcases ht with rfl | rfl
      · obtain ⟨i, its, cs, h1, hf, h2⟩ := on_use linkargs_rules h
        simp only [Bool.and_eq_true, beq_iff_eq, decide_eq_true_eq] at hf
        exact ⟨i, its, cs, h1, hf.1, hf.2, h2⟩
      · obtain ⟨i, its, cs, h1, hf, h2⟩ := on_use links_rules h
        simp only [Bool.and_eq_true, beq_iff_eq, decide_eq_true_eq] at hf
        exact ⟨i, its, cs, h1, hf.1, hf.2, h2⟩
    obtain ⟨i, its, cs, rfl, c1, c2, hk⟩ := key
    obtain ⟨tm, k1, p1⟩ := kids_one hk (by decide) c1
    obtain ⟨e, he⟩ := term_read p1
    rcases kids_le hk (by decide) c2 with k2 | ⟨l, k2, p2⟩
    · exact ⟨_, .last k1 he k2⟩
    · have := kids_depth k2
      rw [depth_nt] at hd
      obtain ⟨es, hes⟩ := ih (.inr rfl) (by omega) p2
      exact ⟨_, .more k1 he k2 hes⟩

/-! ## Selbri -/

def cnt (its : List Item) (t : NT) : Nat := its.count (.n t)

theorem selbri_rules : on .selbri (fun its => cnt its .selbri1 == 1) = true := by decide +kernel
theorem selbri1_rules : on .selbri1 (fun its => cnt its .selbri2 == 1 || (cnt its .selbri2 == 0 && cnt its .selbri == 1)) = true := by
  decide +kernel
theorem selbri2_rules : on .selbri2 (fun its => its == [.n .selbri3] ||
    (its.head? == some (.n .selbri3) && cnt its .selbri2 == 1 && decide (2 ≤ sure its))) = true := by decide +kernel
theorem selbri3_rules : on .selbri3 (fun its => cnt its .selbri4 == 1) = true := by decide +kernel
theorem selbri4_rules : on .selbri4 (fun its => (cnt its .selbri5 == 1 && cnt its .selbri4 == 0) ||
    (decide (2 ≤ sure its) && cnt its .selbri5 == 1 && cnt its .selbri4 == 1) ||
    (decide (2 ≤ sure its) && cnt its .selbri5 == 0 && cnt its .selbri4 == 1 && cnt its .keSelbri3 == 1)) = true := by decide +kernel
theorem keSelbri3_rules : on .keSelbri3 (fun its => cnt its .selbri3 == 1) = true := by decide +kernel
theorem selbri5_rules : on .selbri5 (fun its => cnt its .selbri6 == 1 && decide (cnt its .selbri5 ≤ 1)) = true := by decide +kernel
theorem selbri6_rules : on .selbri6 (fun its => its == [.n .tanruUnit] ||
    (decide (2 ≤ sure its) && cnt its .tanruUnit == 1 && cnt its .selbri6 == 1) ||
    (decide (2 ≤ sure its) && cnt its .tanruUnit == 0 && cnt its .selbri == 1 && cnt its .selbri6 == 1)) = true := by decide +kernel
theorem tanruUnit_rules : on .tanruUnit (fun its => its == [.n .tanruUnit1] || decide (2 ≤ sure its)) = true := by decide +kernel
theorem tanruUnit1_rules : on .tanruUnit1 (fun its => its == [.n .tanruUnit2] || its == [.n .tanruUnit2, .n .linkargs]) = true := by
  decide +kernel
theorem tanruUnit2_rules : on .tanruUnit2 (fun its => match its with
    | .brivla :: _ => true
    | .zei :: _ => true
    | .t .GOhA :: _ => true
    | .t .ME :: r => cnt r .sumti == 1
    | .t .NUhA :: r => cnt r .mexOperator == 1
    | [.n .keSelbri3Tu2] => true
    | [.n .numberMoiTu2] => true
    | [.n .seTu2] => true
    | [.n .jaiTagTu2] => true
    | [.n .jaiTu2] => true
    | [.n .naheTu2] => true
    | [.n .abstraction] => true
    | _ => false) = true := by decide +kernel
theorem keTu2_rules : on .keSelbri3Tu2 (fun its => cnt its .selbri3 == 1) = true := by decide +kernel
theorem moiTu2_rules : on .numberMoiTu2 (fun its => match its with
    | .n _ :: .t .MOI :: _ => true
    | _ => false) = true := by decide +kernel
theorem seTu2_rules : on .seTu2 (fun its => match its with
    | .t .SE :: r => cnt r .tanruUnit2 == 1
    | _ => false) = true := by decide +kernel
theorem jaiTagTu2_rules : on .jaiTagTu2 (fun its => cnt its .tag == 1 && cnt its .tanruUnit2 == 1) = true := by decide +kernel
theorem jaiTu2_rules : on .jaiTu2 (fun its => cnt its .tanruUnit2 == 1) = true := by decide +kernel
theorem naheTu2_rules : on .naheTu2 (fun its => cnt its .tanruUnit2 == 1) = true := by decide +kernel
theorem abstraction_rules : on .abstraction (fun its => match its with
    | .n .nuNaiSeq :: .n .subsentence :: _ => true
    | _ => false) = true := by decide +kernel
theorem nuNaiSeq_rules : on .nuNaiSeq (fun its => match its with
    | .t .NU :: _ => true
    | .n .nuNaiSeq :: _ => true
    | _ => false) = true := by decide +kernel

/-- The children of a `selbri_2`. -/
def S2 (es : List Node) : Prop := ∃ its, (its = [.n .selbri3] ∨
    (its.head? = some (.n .selbri3) ∧ cnt its .selbri2 = 1 ∧ 2 ≤ sure its)) ∧ Kids Parse its es

theorem s2_of {x : Node} (h : Parse .selbri2 x) : ∃ i es, x = .nt i .selbri2 es ∧ S2 es := by
  obtain ⟨i, its, cs, rfl, hf, hk⟩ := on_use selbri2_rules h
  simp only [Bool.or_eq_true, Bool.and_eq_true, beq_iff_eq, decide_eq_true_eq] at hf
  refine ⟨i, cs, rfl, its, ?_, hk⟩
  rcases hf with h | ⟨⟨h1, h2⟩, h3⟩
  · exact .inl h
  · exact .inr ⟨h1, h2, h3⟩

theorem core_read : ∀ (n : Nat) {x : Node}, x.depth ≤ n → Parse .selbri x → ∃ es, CoreR x es ∧ S2 es := by
  intro n
  induction n with
  | zero =>
    intro x hd h
    obtain ⟨i, cs, r, rfl, _⟩ := parse_inv h
    rw [depth_nt] at hd; omega
  | succ n ih =>
    intro x hd h
    obtain ⟨i, its, cs, rfl, hf, hk⟩ := on_use selbri_rules h
    simp only [cnt, beq_iff_eq] at hf
    obtain ⟨s1, k1, p1⟩ := kids_one hk (by decide) hf
    obtain ⟨j, its, ds, rfl, hf, hk'⟩ := on_use selbri1_rules p1
    simp only [cnt, Bool.or_eq_true, Bool.and_eq_true, beq_iff_eq] at hf
    rcases hf with hf | ⟨h0, hf⟩
    · obtain ⟨s2, k2, p2⟩ := kids_one hk' (by decide) hf
      obtain ⟨k, es, rfl, hs⟩ := s2_of p2
      exact ⟨es, .here k1 k2, hs⟩
    · have k2 := kids_zero hk' (by decide) h0
      obtain ⟨s, k3, p3⟩ := kids_one hk' (by decide) hf
      have d1 := kids_depth k1
      have d2 := kids_depth k3
      rw [depth_nt] at d1 hd
      obtain ⟨es, hc, hs⟩ := ih (by omega) p3
      exact ⟨es, .inner k1 k2 k3 hc, hs⟩

theorem last_read : ∀ (n : Nat) {es : List Node}, depthList es ≤ n → S2 es →
    ∃ k cs, LastR es (.nt k .selbri3 cs) ∧ Parse .selbri3 (.nt k .selbri3 cs) ∧ (Node.nt k .selbri3 cs).depth ≤ depthList es := by
  intro n
  induction n with
  | zero =>
    intro es hd ⟨its, h, hk⟩
    rcases h with rfl | ⟨h1, _, _⟩
    · obtain ⟨c, rfl, hp⟩ := only hk
      obtain ⟨i, cs, r, rfl, _⟩ := parse_inv hp
      simp only [depthList, Node.depth] at hd; omega
    · cases its with
      | nil => cases h1
      | cons it its =>
        simp only [List.head?_cons, Option.some.injEq] at h1
        subst h1
        obtain ⟨c, ds, rfl, hp, _⟩ := first hk
        obtain ⟨i, cs, r, rfl, _⟩ := parse_inv hp
        simp only [depthList, Node.depth] at hd; omega
  | succ n ih =>
    intro es hd ⟨its, h, hk⟩
    rcases h with rfl | ⟨_, h2, h3⟩
    · obtain ⟨c, rfl, hp⟩ := only hk
      have hp' := hp
      obtain ⟨i, cs, r, rfl, _⟩ := parse_inv hp
      exact ⟨i, cs, .here, hp', depth_le (List.mem_singleton.2 rfl)⟩
    · obtain ⟨s2, k2, p2⟩ := kids_one hk (by decide) h2
      obtain ⟨j, ds, rfl, hs⟩ := s2_of p2
      have d := kids_depth k2
      rw [depth_nt] at d
      obtain ⟨k, cs, hl, hp, hd'⟩ := ih (by omega) hs
      exact ⟨k, cs, .more (many hk h3) k2 hl, hp, by omega⟩

/-- The non-terminals of a selbri that have a reading. -/
def sbNTs : List NT := [.selbri, .selbri3, .selbri4, .selbri5, .selbri6, .tanruUnit1, .tanruUnit2]

theorem leaf_word {it : Item} {c : Node} (h : WordR it c) (hi : it = .brivla ∨ it = .zei) (r : List Node) : ∃ l, LeafR (c :: r) l := by
  rcases hi with rfl | rfl
  · cases h with
    | alone h => cases h; exact ⟨_, .brivla⟩
    | marked hb h _ => cases h; exact ⟨_, .brivlaM hb.any⟩
  · cases h with
    | alone h => cases h; exact ⟨_, .zei⟩
    | marked hb h _ => cases h; exact ⟨_, .zeiM hb.any⟩

theorem kids_word {s : Sel} {c : Node} {r : List Node} (h : WordR (.t s) c) {t : NT} (ht : t ≠ .augmented) : kids (c :: r) t = kids r t := by
  simp only [kids, List.filter_cons, word_isNT h ht]
  rfl

theorem sb_read : ∀ (n : Nat) {t : NT} {x : Node}, t ∈ sbNTs → x.depth ≤ n → Parse t x → ∃ a, SbR x a := by
  intro n
  induction n with
  | zero =>
    intro t x _ hd h
    obtain ⟨i, cs, r, rfl, _⟩ := parse_inv h
    rw [depth_nt] at hd; omega
  | succ n ih =>
    intro t x ht hd h
    have go : ∀ {u : NT} {cs : List Node} {y : Node} {ys : List Node} {i : Nat} {t : NT}, u ∈ sbNTs → (Node.nt i t cs).depth ≤ n + 1 →
        kids cs u = y :: ys → Parse u y → ∃ a, SbR y a := by
      intro u cs y ys i t hu hd hk hp
      have := kids_depth hk
      rw [depth_nt] at hd
      exact ih hu (by omega) hp
    simp only [sbNTs, List.mem_cons, List.not_mem_nil, or_false] at ht
    rcases ht with rfl | rfl | rfl | rfl | rfl | rfl | rfl
    · obtain ⟨es, hc, hs⟩ := core_read _ (Nat.le_refl _) h
      have dc := core_depth hc
      obtain ⟨k, cs, hl, hp, hd'⟩ := last_read _ (Nat.le_refl _) hs
      obtain ⟨b, hb⟩ := ih (t := .selbri3) (by decide) (by omega) hp
      obtain ⟨its, hi, hk⟩ := hs
      rcases hi with rfl | ⟨h1, _, h3⟩
      · obtain ⟨c, rfl, hq⟩ := only hk
        obtain ⟨j, cs', r, rfl, _⟩ := parse_inv hq
        have := depth_le (List.mem_singleton.2 rfl : Node.nt j .selbri3 cs' ∈ [Node.nt j .selbri3 cs'])
        obtain ⟨a, ha⟩ := ih (t := .selbri3) (by decide) (by omega) hq
        exact ⟨a, .selbri hc ha⟩
      · have hlen := many hk h3
        cases its with
        | nil => cases h1
        | cons it its =>
          simp only [List.head?_cons, Option.some.injEq] at h1
          subst h1
          obtain ⟨c, ds, rfl, hq, _⟩ := first hk
          obtain ⟨j, cs', r, rfl, _⟩ := parse_inv hq
          have := depth_le (List.mem_cons_self .. : Node.nt j .selbri3 cs' ∈ Node.nt j .selbri3 cs' :: ds)
          obtain ⟨a, ha⟩ := ih (t := .selbri3) (by decide) (by omega) hq
          refine ⟨_, .selbriCo hc ?_ hl ha hb⟩
          rintro rfl
          simp only [List.length_cons, List.length_nil] at hlen; omega
    · obtain ⟨i, its, cs, rfl, hf, hk⟩ := on_use selbri3_rules h
      simp only [cnt, beq_iff_eq] at hf
      obtain ⟨y, k, p⟩ := kids_one hk (by decide) hf
      obtain ⟨a, ha⟩ := go (by decide) hd k p
      exact ⟨a, .tanru k ha⟩
    · obtain ⟨i, its, cs, rfl, hf, hk⟩ := on_use selbri4_rules h
      simp only [cnt, Bool.or_eq_true, Bool.and_eq_true, beq_iff_eq, decide_eq_true_eq] at hf
      rcases hf with (⟨h5, h4⟩ | ⟨⟨hl, h5⟩, h4⟩) | ⟨⟨⟨hl, h5⟩, h4⟩, h3⟩
      · obtain ⟨y, k, p⟩ := kids_one hk (by decide) h5
        obtain ⟨a, ha⟩ := go (by decide) hd k p
        exact ⟨a, .conn k (kids_zero hk (by decide) h4) ha⟩
      · obtain ⟨y, k, p⟩ := kids_one hk (by decide) h5
        obtain ⟨z, k', p'⟩ := kids_one hk (by decide) h4
        obtain ⟨a, ha⟩ := go (by decide) hd k p
        obtain ⟨b, hb⟩ := go (by decide) hd k' p'
        exact ⟨_, .connMore (many hk hl) k k' ha hb⟩
      · obtain ⟨y, k, p⟩ := kids_one hk (by decide) h3
        obtain ⟨z, k', p'⟩ := kids_one hk (by decide) h4
        obtain ⟨b, hb⟩ := go (by decide) hd k' p'
        obtain ⟨j, its', ds, rfl, hf, hk'⟩ := on_use keSelbri3_rules p
        simp only [cnt, beq_iff_eq] at hf
        obtain ⟨w, k'', p''⟩ := kids_one hk' (by decide) hf
        have d1 := kids_depth k
        obtain ⟨a, ha⟩ := go (i := j) (t := .keSelbri3) (by decide) (by rw [depth_nt] at hd; omega) k'' p''
        exact ⟨_, .connKe (many hk hl) (kids_zero hk (by decide) h5) k k'' k' ha hb⟩
    · obtain ⟨i, its, cs, rfl, hf, hk⟩ := on_use selbri5_rules h
      simp only [cnt, Bool.and_eq_true, beq_iff_eq, decide_eq_true_eq] at hf
      obtain ⟨y, k, p⟩ := kids_one hk (by decide) hf.1
      obtain ⟨a, ha⟩ := go (by decide) hd k p
      rcases kids_le (t := .selbri5) hk (by decide) (of_decide_eq_true hf.2) with k' | ⟨z, k', p'⟩
      · exact ⟨a, .bo k k' ha⟩
      · obtain ⟨b, hb⟩ := go (by decide) hd k' p'
        exact ⟨_, .boMore k k' ha hb⟩
    · obtain ⟨i, its, cs, rfl, hf, hk⟩ := on_use selbri6_rules h
      simp only [cnt, Bool.or_eq_true, Bool.and_eq_true, beq_iff_eq, decide_eq_true_eq] at hf
      rcases hf with (rfl | ⟨⟨hl, h1⟩, h2⟩) | ⟨⟨⟨hl, h1⟩, h2⟩, h3⟩
      · obtain ⟨c, rfl, hp⟩ := only hk
        obtain ⟨j, its', ds, rfl, hf, hk'⟩ := on_use tanruUnit_rules hp
        simp only [Bool.or_eq_true, beq_iff_eq, decide_eq_true_eq] at hf
        rcases hf with rfl | hf
        · obtain ⟨c, rfl, hq⟩ := only hk'
          have hq' := hq
          obtain ⟨k, es, r, rfl, _⟩ := parse_inv hq
          have d1 := mem_depth (t := .selbri6) (i := i) (List.mem_singleton.2 rfl : Node.nt j .tanruUnit [.nt k .tanruUnit1 es] ∈ [Node.nt j .tanruUnit [.nt k .tanruUnit1 es]])
          have d2 := mem_depth (t := .tanruUnit) (i := j) (List.mem_singleton.2 rfl : Node.nt k .tanruUnit1 es ∈ [Node.nt k .tanruUnit1 es])
          obtain ⟨a, ha⟩ := ih (by decide) (by omega) hq'
          exact ⟨a, .unit ha⟩
        · exact ⟨_, .cei (many hk' hf)⟩
      · obtain ⟨y, k, p⟩ := kids_one hk (by decide) h1
        obtain ⟨z, k', p'⟩ := kids_one hk (by decide) h2
        obtain ⟨b, hb⟩ := go (by decide) hd k' p'
        exact ⟨_, .unitBo (many hk hl) k k' hb⟩
      · obtain ⟨y, k, p⟩ := kids_one hk (by decide) h2
        obtain ⟨z, k', p'⟩ := kids_one hk (by decide) h3
        obtain ⟨a, ha⟩ := go (by decide) hd k p
        obtain ⟨b, hb⟩ := go (by decide) hd k' p'
        exact ⟨_, .guhek (many hk hl) (kids_zero hk (by decide) h1) k k' ha hb⟩
    · obtain ⟨i, its, cs, rfl, hf, hk⟩ := on_use tanruUnit1_rules h
      simp only [Bool.or_eq_true, beq_iff_eq] at hf
      rcases hf with rfl | rfl
      · obtain ⟨c, rfl, hp⟩ := only hk
        have hp' := hp
        obtain ⟨j, ds, r, rfl, _⟩ := parse_inv hp
        have := mem_depth (t := .tanruUnit1) (i := i) (List.mem_singleton.2 rfl : Node.nt j .tanruUnit2 ds ∈ [Node.nt j .tanruUnit2 ds])
        obtain ⟨a, ha⟩ := ih (by decide) (by omega) hp'
        exact ⟨a, .plain ha⟩
      · obtain ⟨c, ds, rfl, hp, hk⟩ := first hk
        obtain ⟨d, rfl, hq⟩ := only hk
        obtain ⟨es, hes⟩ := linked_read _ (.inl rfl) (Nat.le_refl _) hq
        have hp' := hp
        obtain ⟨j, ds, r, rfl, _⟩ := parse_inv hp
        obtain ⟨k, ls, r, rfl, _⟩ := parse_inv hq
        have := mem_depth (t := .tanruUnit1) (i := i) (List.mem_cons_self .. : Node.nt j .tanruUnit2 ds ∈ [Node.nt j .tanruUnit2 ds, .nt k .linkargs ls])
        obtain ⟨a, ha⟩ := ih (by decide) (by omega) hp'
        exact ⟨_, .linked ha hes⟩
    · obtain ⟨i, its, cs, rfl, hf, hk⟩ := on_use tanruUnit2_rules h
      have one : ∀ {u : NT} {c : Node}, Node.depth (.nt i .tanruUnit2 [c]) ≤ n + 1 → ∀ {j : Nat} {ds : List Node}, c = .nt j u ds →
          (Node.nt j u ds).depth ≤ n + 1 := by
        intro u c hd j ds e
        subst e
        have := mem_depth (t := .tanruUnit2) (i := i) (List.mem_singleton.2 rfl : Node.nt j u ds ∈ [Node.nt j u ds])
        omega
      split at hf
      · obtain ⟨c, ds, rfl, hw, _⟩ := firstW (.inl rfl) hk
        obtain ⟨l, hl⟩ := leaf_word hw (.inl rfl) ds
        exact ⟨_, .word hl⟩
      · obtain ⟨c, ds, rfl, hw, _⟩ := firstW (.inr (.inl rfl)) hk
        obtain ⟨l, hl⟩ := leaf_word hw (.inr rfl) ds
        exact ⟨_, .word hl⟩
      · obtain ⟨c, ds, rfl, hw, _⟩ := firstT hk
        obtain ⟨k, w, hm, hw⟩ := word_word hw (by decide)
        exact ⟨_, .word (.goha hw)⟩
      · simp only [cnt, beq_iff_eq] at hf
        obtain ⟨c, ds, rfl, hw, hk⟩ := firstT hk
        obtain ⟨y, k, p⟩ := kids_one hk (by decide) hf
        rw [← kids_word hw (by decide)] at k
        obtain ⟨_, w, hm, hw⟩ := word_word hw (by decide)
        exact ⟨_, .word (.me hw k)⟩
      · simp only [cnt, beq_iff_eq] at hf
        obtain ⟨c, ds, rfl, hw, hk⟩ := firstT hk
        obtain ⟨y, k, p⟩ := kids_one hk (by decide) hf
        rw [← kids_word hw (by decide)] at k
        obtain ⟨_, w, hm, hw⟩ := word_word hw (by decide)
        exact ⟨_, .word (.nuha hw k)⟩
      · obtain ⟨c, rfl, hp⟩ := only hk
        obtain ⟨j, its, ds, rfl, hf, hk⟩ := on_use keTu2_rules hp
        simp only [cnt, beq_iff_eq] at hf
        obtain ⟨y, k, p⟩ := kids_one hk (by decide) hf
        obtain ⟨a, ha⟩ := go (by decide) (one hd rfl) k p
        exact ⟨a, .ke k ha⟩
      · obtain ⟨c, rfl, hp⟩ := only hk
        obtain ⟨j, its, ds, rfl, hf, hk⟩ := on_use moiTu2_rules hp
        split at hf
        · obtain ⟨c, ds, rfl, hq, hk⟩ := first hk
          obtain ⟨d, es, rfl, hw, _⟩ := firstT hk
          have ha := parse_not_aug hq
          obtain ⟨m, fs, r, rfl, _⟩ := parse_inv hq
          obtain ⟨_, w, hm, hw⟩ := word_word hw (by decide)
          exact ⟨_, .word (.moi ha hw)⟩
        · cases hf
      · obtain ⟨c, rfl, hp⟩ := only hk
        obtain ⟨j, its, ds, rfl, hf, hk⟩ := on_use seTu2_rules hp
        split at hf
        · simp only [cnt, beq_iff_eq] at hf
          obtain ⟨c, ds, rfl, hw, hk⟩ := firstT hk
          obtain ⟨y, k, p⟩ := kids_one hk (by decide) hf
          rw [← kids_word hw (by decide)] at k
          obtain ⟨a, ha⟩ := go (by decide) (one hd rfl) k p
          obtain ⟨_, w, hm, hw⟩ := word_word hw (by decide)
          obtain ⟨q, hq⟩ := se_words w hm
          exact ⟨_, .se hw hq k ha⟩
        · cases hf
      · obtain ⟨c, rfl, hp⟩ := only hk
        obtain ⟨j, its, ds, rfl, hf, hk⟩ := on_use jaiTagTu2_rules hp
        simp only [cnt, Bool.and_eq_true, beq_iff_eq] at hf
        obtain ⟨g, kg, _⟩ := kids_one hk (by decide) hf.1
        obtain ⟨y, k, p⟩ := kids_one hk (by decide) hf.2
        obtain ⟨a, ha⟩ := go (by decide) (one hd rfl) k p
        exact ⟨_, .jaiTag kg k ha⟩
      · obtain ⟨c, rfl, hp⟩ := only hk
        obtain ⟨j, its, ds, rfl, hf, hk⟩ := on_use jaiTu2_rules hp
        simp only [cnt, beq_iff_eq] at hf
        obtain ⟨y, k, p⟩ := kids_one hk (by decide) hf
        obtain ⟨a, ha⟩ := go (by decide) (one hd rfl) k p
        exact ⟨_, .jai k ha⟩
      · obtain ⟨c, rfl, hp⟩ := only hk
        obtain ⟨j, its, ds, rfl, hf, hk⟩ := on_use naheTu2_rules hp
        simp only [cnt, beq_iff_eq] at hf
        obtain ⟨y, k, p⟩ := kids_one hk (by decide) hf
        obtain ⟨a, ha⟩ := go (by decide) (one hd rfl) k p
        exact ⟨_, .nahe k ha⟩
      · obtain ⟨c, rfl, hp⟩ := only hk
        obtain ⟨j, its, ds, rfl, hf, hk⟩ := on_use abstraction_rules hp
        split at hf
        · obtain ⟨c, ds, rfl, hp, hk⟩ := first hk
          obtain ⟨k, its, es, rfl, hf, hk⟩ := on_use nuNaiSeq_rules hp
          split at hf
          · obtain ⟨c, fs, rfl, hw, _⟩ := firstT hk
            obtain ⟨_, w, hm, hw⟩ := word_word hw (by decide)
            exact ⟨_, .word (.nu hw)⟩
          · obtain ⟨c, fs, rfl, hq, _⟩ := first hk
            obtain ⟨m, gs, r, rfl, _⟩ := parse_inv hq
            exact ⟨_, .nus⟩
          · cases hf
        · cases hf
      · cases hf

/-! ## Bridi -/

theorem tailTerms_rules : on .tailTerms (fun its => decide (cnt its .terms ≤ 1)) = true := by decide +kernel
theorem subsentence_rules : on .subsentence (fun its => its == [.n .sentence] || its == [.n .prenex, .n .subsentence]) = true := by
  decide +kernel
theorem sentence_rules : on .sentence (fun its => its == [.n .noCuSentence] || its == [.n .observativeSentence] ||
    (decide (2 ≤ sure its) && decide (cnt its .terms ≤ 1) && cnt its .bridiTail == 1)) = true := by decide +kernel
theorem noCu_rules : on .noCuSentence (fun its => decide (cnt its .terms ≤ 1) && cnt its .bridiTail == 1) = true := by
  decide +kernel
theorem observative_rules : on .observativeSentence (fun its => decide (cnt its .terms ≤ 1) && cnt its .bridiTail == 1) = true := by
  decide +kernel
theorem bridiTail_rules : on .bridiTail (fun its => its == [.n .bridiTail1] ||
    (decide (2 ≤ sure its) && cnt its .bridiTail1 == 1 && cnt its .bridiTail == 1 && decide (cnt its .tailTerms ≤ 1))) = true := by
  decide +kernel
theorem bridiTail1_rules : on .bridiTail1 (fun its => its == [.n .bridiTail2] ||
    (decide (2 ≤ sure its) && cnt its .bridiTail1 == 1 && cnt its .bridiTail2 == 1 && decide (cnt its .tailTerms ≤ 1))) = true := by
  decide +kernel
theorem bridiTail2_rules : on .bridiTail2 (fun its => its == [.n .bridiTail3] ||
    (decide (2 ≤ sure its) && cnt its .bridiTail2 == 2 && decide (cnt its .tailTerms ≤ 1))) = true := by decide +kernel
theorem bridiTail3_rules : on .bridiTail3 (fun its => its == [.n .gekSentence] ||
    (its.head? == some (.n .mainSelbri) && decide (cnt its .tailTerms ≤ 1))) = true := by decide +kernel
theorem gekSentence_rules : on .gekSentence (fun its => match its with
    | .n .gek :: r => cnt r .subsentence == 2 && decide (cnt r .tailTerms ≤ 1)
    | .n t :: r => !(t == .gekSentence) && cnt r .gekSentence == 1
    | .t _ :: r => cnt r .gekSentence == 1
    | _ => false) = true := by decide +kernel

theorem tail_read {its : List Item} {cs : List Node} (h : Kids Parse its cs) (hc : cnt its .tailTerms ≤ 1) : ∃ t, TailR cs t := by
  rcases kids_le h (by decide) hc with k | ⟨x, k, p⟩
  · exact ⟨_, .none k⟩
  · obtain ⟨i, its', ts, rfl, hf, hk⟩ := on_use tailTerms_rules p
    rcases kids_le hk (by decide) (of_decide_eq_true hf) with k' | ⟨y, k', p'⟩
    · exact ⟨_, .vau k k'⟩
    · obtain ⟨es, hes⟩ := terms_read _ (Nat.le_refl _) p'
      exact ⟨_, .terms k k' hes⟩

theorem head_read {its : List Item} {cs : List Node} (h : Kids Parse its cs) (hc : cnt its .terms ≤ 1) : ∃ t, HeadR cs t := by
  rcases kids_le h (by decide) hc with k | ⟨x, k, p⟩
  · exact ⟨_, .none k⟩
  · obtain ⟨es, hes⟩ := terms_read _ (Nat.le_refl _) p
    exact ⟨_, .terms k hes⟩

theorem sen_read : ∀ (n : Nat) {x : Node}, x.depth ≤ n → Parse .subsentence x → ∃ s, SenR x s ∧ Parse .sentence s ∧ s.depth < x.depth := by
  intro n
  induction n with
  | zero =>
    intro x hd h
    obtain ⟨i, cs, r, rfl, _⟩ := parse_inv h
    rw [depth_nt] at hd; omega
  | succ n ih =>
    intro x hd h
    obtain ⟨i, its, cs, rfl, hf, hk⟩ := on_use subsentence_rules h
    simp only [Bool.or_eq_true, beq_iff_eq] at hf
    rcases hf with rfl | rfl
    · obtain ⟨c, rfl, hp⟩ := only hk
      exact ⟨c, .here, hp, mem_depth (List.mem_singleton.2 rfl)⟩
    · obtain ⟨p, ds, rfl, _, hk⟩ := first hk
      obtain ⟨c, rfl, hp⟩ := only hk
      have hd' := mem_depth (t := .subsentence) (i := i) (List.mem_cons_of_mem p (List.mem_singleton.2 rfl) : c ∈ [p, c])
      obtain ⟨s, hs, hp, hl⟩ := ih (by omega) hp
      exact ⟨s, .prenex hs, hp, by omega⟩

theorem body_read {x : Node} (h : Parse .sentence x) :
    ∃ its cs, BodyR x cs ∧ Kids Parse its cs ∧ cnt its .terms ≤ 1 ∧ cnt its .bridiTail = 1 ∧ depthList cs < x.depth := by
  obtain ⟨i, its, cs, rfl, hf, hk⟩ := on_use sentence_rules h
  simp only [Bool.or_eq_true, Bool.and_eq_true, beq_iff_eq, decide_eq_true_eq] at hf
  rcases hf with (rfl | rfl) | ⟨⟨h1, h2⟩, h3⟩
  · obtain ⟨c, rfl, hp⟩ := only hk
    obtain ⟨j, its, ds, rfl, hf, hk'⟩ := on_use noCu_rules hp
    simp only [Bool.and_eq_true, beq_iff_eq, decide_eq_true_eq] at hf
    have := mem_depth (t := .sentence) (i := i) (List.mem_singleton.2 rfl : Node.nt j .noCuSentence ds ∈ [Node.nt j .noCuSentence ds])
    rw [depth_nt] at this
    exact ⟨its, ds, .noCu, hk', hf.1, hf.2, by omega⟩
  · obtain ⟨c, rfl, hp⟩ := only hk
    obtain ⟨j, its, ds, rfl, hf, hk'⟩ := on_use observative_rules hp
    simp only [Bool.and_eq_true, beq_iff_eq, decide_eq_true_eq] at hf
    have := mem_depth (t := .sentence) (i := i) (List.mem_singleton.2 rfl : Node.nt j .observativeSentence ds ∈ [Node.nt j .observativeSentence ds])
    rw [depth_nt] at this
    exact ⟨its, ds, .observative, hk', hf.1, hf.2, by omega⟩
  · exact ⟨its, cs, .cu (many hk h1), hk, h2, h3, by rw [depth_nt]; omega⟩

theorem gek_read : ∀ (n : Nat) {x : Node}, x.depth ≤ n → Parse .gekSentence x →
    ∃ its ks, GekR x ks ∧ Kids Parse its ks ∧ cnt its .subsentence = 2 ∧ cnt its .tailTerms ≤ 1 ∧ depthList ks < x.depth := by
  intro n
  induction n with
  | zero =>
    intro x hd h
    obtain ⟨i, cs, r, rfl, _⟩ := parse_inv h
    rw [depth_nt] at hd; omega
  | succ n ih =>
    intro x hd h
    obtain ⟨i, its, cs, rfl, hf, hk⟩ := on_use gekSentence_rules h
    have go : ∀ {c : Node} {r : List Item} {ds : List Node}, Kids Parse r ds → cnt r .gekSentence = 1 → c.isNT .gek = false →
        c.isNT .gekSentence = false → (Node.nt i .gekSentence (c :: ds)).depth ≤ n + 1 →
        ∃ its ks, GekR (Node.nt i .gekSentence (c :: ds)) ks ∧ Kids Parse its ks ∧ cnt its .subsentence = 2 ∧
          cnt its .tailTerms ≤ 1 ∧ depthList ks < (Node.nt i .gekSentence (c :: ds)).depth := by
      intro c r ds hk h1 hc hc' hd
      obtain ⟨g, k, p⟩ := kids_one hk (by decide) h1
      have k' : kids (c :: ds) .gekSentence = [g] := by
        simp only [kids, List.filter_cons, hc'] at k ⊢
        exact k
      have d := kids_depth k'
      have e := depth_nt i .gekSentence (c :: ds)
      obtain ⟨its, ks, hg, hks, h2, h3, h4⟩ := ih (by omega) p
      exact ⟨its, ks, .inner hc k' hg, hks, h2, h3, by omega⟩
    split at hf
    · simp only [Bool.and_eq_true, beq_iff_eq, decide_eq_true_eq] at hf
      obtain ⟨g, ds, rfl, hp, hk'⟩ := first hk
      obtain ⟨j, ks, r, rfl, _⟩ := parse_inv hp
      refine ⟨_, _, .here, hk, ?_, ?_, by rw [depth_nt]; omega⟩
      · rw [cnt, List.count_cons_of_ne (by decide)]; exact hf.1
      · rw [cnt, List.count_cons_of_ne (by decide)]; exact hf.2
    · rename_i t r hne
      simp only [Bool.and_eq_true, beq_iff_eq, Bool.not_eq_true', beq_eq_false_iff_ne, ne_eq] at hf
      obtain ⟨c, ds, rfl, hp, hk'⟩ := first hk
      refine go hk' hf.2 ?_ ?_ hd
      · rw [parse_isNT hp]; simpa using fun e => hne (by rw [e])
      · rw [parse_isNT hp]; simpa using hf.1
    · simp only [beq_iff_eq] at hf
      obtain ⟨c, ds, rfl, hw, hk'⟩ := firstT hk
      exact go hk' hf (word_isNT hw (by decide)) (word_isNT hw (by decide)) hd
    · cases hf

/-- The non-terminals of a bridi. -/
def brNTs : List NT := [.subsentence, .bridiTail, .bridiTail1, .bridiTail2, .bridiTail3]

theorem br_read : ∀ (n : Nat) {t : NT} {x : Node}, t ∈ brNTs → x.depth ≤ n → Parse t x → ∃ a, BrR x a := by
  intro n
  induction n with
  | zero =>
    intro t x _ hd h
    obtain ⟨i, cs, r, rfl, _⟩ := parse_inv h
    rw [depth_nt] at hd; omega
  | succ n ih =>
    intro t x ht hd h
    have go : ∀ {u : NT} {cs : List Node} {y : Node} {i : Nat} {t : NT}, u ∈ brNTs → (Node.nt i t cs).depth ≤ n + 1 →
        y ∈ cs → Parse u y → ∃ a, BrR y a := by
      intro u cs y i t hu hd hm hp
      have := mem_depth (t := t) (i := i) hm
      exact ih hu (by omega) hp
    have km : ∀ {cs : List Node} {u : NT} {y : Node} {ys : List Node}, kids cs u = ys → y ∈ ys → y ∈ cs := by
      intro cs u y ys hk hy
      rw [← hk] at hy
      exact (List.mem_filter.1 hy).1
    have hd0 : ∀ {y : Node} {ys : List Node}, y ∈ y :: ys := List.mem_cons_self ..
    simp only [brNTs, List.mem_cons, List.not_mem_nil, or_false] at ht
    rcases ht with rfl | rfl | rfl | rfl | rfl
    · obtain ⟨s, hs, hp, hl⟩ := sen_read _ (Nat.le_refl _) h
      obtain ⟨its, cs, hb, hk, h1, h2, hl'⟩ := body_read hp
      obtain ⟨hh, hhr⟩ := head_read hk h1
      obtain ⟨bt, k, p⟩ := kids_one hk (by decide) h2
      have := depth_le (km k hd0)
      obtain ⟨a, ha⟩ := ih (t := .bridiTail) (by decide) (by omega) p
      exact ⟨_, .sub hs hb hhr k ha⟩
    · obtain ⟨i, its, cs, rfl, hf, hk⟩ := on_use bridiTail_rules h
      simp only [Bool.or_eq_true, Bool.and_eq_true, beq_iff_eq, decide_eq_true_eq] at hf
      rcases hf with rfl | ⟨⟨⟨h1, h2⟩, h3⟩, h4⟩
      · obtain ⟨c, rfl, hp⟩ := only hk
        obtain ⟨a, ha⟩ := go (by decide) hd hd0 hp
        obtain ⟨j, ds, r, rfl, _⟩ := parse_inv hp
        exact ⟨a, .tail ha⟩
      · obtain ⟨y, k, p⟩ := kids_one hk (by decide) h2
        obtain ⟨z, k', p'⟩ := kids_one hk (by decide) h3
        obtain ⟨t, ht⟩ := tail_read hk h4
        obtain ⟨a, ha⟩ := go (by decide) hd (km k hd0) p
        obtain ⟨b, hb⟩ := go (by decide) hd (km k' hd0) p'
        exact ⟨_, .tailKe (many hk h1) k k' ht ha hb⟩
    · obtain ⟨i, its, cs, rfl, hf, hk⟩ := on_use bridiTail1_rules h
      simp only [Bool.or_eq_true, Bool.and_eq_true, beq_iff_eq, decide_eq_true_eq] at hf
      rcases hf with rfl | ⟨⟨⟨h1, h2⟩, h3⟩, h4⟩
      · obtain ⟨c, rfl, hp⟩ := only hk
        obtain ⟨a, ha⟩ := go (by decide) hd hd0 hp
        obtain ⟨j, ds, r, rfl, _⟩ := parse_inv hp
        exact ⟨a, .tail1 ha⟩
      · obtain ⟨y, k, p⟩ := kids_one hk (by decide) h2
        obtain ⟨z, k', p'⟩ := kids_one hk (by decide) h3
        obtain ⟨t, ht⟩ := tail_read hk h4
        obtain ⟨a, ha⟩ := go (by decide) hd (km k hd0) p
        obtain ⟨b, hb⟩ := go (by decide) hd (km k' hd0) p'
        exact ⟨_, .tail1and (many hk h1) k k' ht ha hb⟩
    · obtain ⟨i, its, cs, rfl, hf, hk⟩ := on_use bridiTail2_rules h
      simp only [Bool.or_eq_true, Bool.and_eq_true, beq_iff_eq, decide_eq_true_eq] at hf
      rcases hf with rfl | ⟨⟨h1, h2⟩, h4⟩
      · obtain ⟨c, rfl, hp⟩ := only hk
        obtain ⟨a, ha⟩ := go (by decide) hd hd0 hp
        obtain ⟨j, ds, r, rfl, _⟩ := parse_inv hp
        exact ⟨a, .tail2 ha⟩
      · obtain ⟨y, z, k, p, p'⟩ := kids_two hk (by decide) h2
        obtain ⟨t, ht⟩ := tail_read hk h4
        obtain ⟨a, ha⟩ := go (by decide) hd (km k hd0) p
        obtain ⟨b, hb⟩ := go (by decide) hd (km k (List.mem_cons_of_mem _ hd0)) p'
        exact ⟨_, .tail2and (many hk h1) k ht ha hb⟩
    · obtain ⟨i, its, cs, rfl, hf, hk⟩ := on_use bridiTail3_rules h
      simp only [Bool.or_eq_true, Bool.and_eq_true, beq_iff_eq, decide_eq_true_eq] at hf
      rcases hf with rfl | ⟨h1, h2⟩
      · obtain ⟨c, rfl, hp⟩ := only hk
        obtain ⟨its, ks, hg, hk', h2, h3, hl⟩ := gek_read _ (Nat.le_refl _) hp
        obtain ⟨t, ht⟩ := tail_read hk' h3
        obtain ⟨y, z, k, p, p'⟩ := kids_two hk' (by decide) h2
        have d0 := mem_depth (t := .bridiTail3) (i := i) (List.mem_singleton.2 rfl : c ∈ [c])
        have d1 := depth_le (km k hd0)
        have d2 := depth_le (km k (List.mem_cons_of_mem _ hd0))
        obtain ⟨a, ha⟩ := ih (t := .subsentence) (by decide) (by omega) p
        obtain ⟨b, hb⟩ := ih (t := .subsentence) (by decide) (by omega) p'
        exact ⟨_, .gek hg k ht ha hb⟩
      · obtain ⟨t, ht⟩ := tail_read hk h2
        cases its with
        | nil => cases h1
        | cons it its =>
          simp only [List.head?_cons, Option.some.injEq] at h1
          subst h1
          obtain ⟨c, ds, rfl, hp, _⟩ := first hk
          obtain ⟨j, ks, r, rfl, _⟩ := parse_inv hp
          exact ⟨_, .main ht⟩

end Jbo.Gram
