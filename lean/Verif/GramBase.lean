import Verif.Gram
import Verif.TermsTree
/-!
# Facts about parse trees
-/

namespace Jbo.Gram
open Jbo.Terms Jbo.Terms.Spec

theorem all_mem {f : Rule → Bool} (h : rules.all f = true) {r : Rule} (hr : r ∈ rules) : f r = true :=
  List.all_eq_true.1 h r hr

theorem parse_inv {t : NT} {x : Node} (h : Parse t x) :
    ∃ i cs r, x = .nt i t cs ∧ r ∈ rules ∧ r.lhs = t ∧ Kids Parse r.rhs cs := by
  cases h with
  | mk hr hk => exact ⟨_, _, _, rfl, hr, rfl, hk⟩

theorem no_augmented : rules.all (fun r => r.lhs != .augmented) = true := by decide +kernel

theorem no_bahe : rules.all (fun r => !r.rhs.contains (.t .BAhE)) = true := by decide +kernel

theorem parse_not_aug {t : NT} {x : Node} (h : Parse t x) : t ≠ .augmented := by
  obtain ⟨i, cs, r, rfl, hr, rfl, _⟩ := parse_inv h
  have := all_mem no_augmented hr
  simpa using this

theorem base_isNT {it : Item} {x : Node} (h : Base it x) (t : NT) : x.isNT t = false := by
  cases h <;> rfl

theorem word_isNT {it : Item} {x : Node} (h : WordR it x) {t : NT} (ht : t ≠ .augmented) : x.isNT t = false := by
  cases h with
  | alone h => exact base_isNT h t
  | marked _ _ _ => simp [Node.isNT, Ne.symm ht]

theorem parse_isNT {t : NT} {x : Node} (h : Parse t x) (u : NT) : x.isNT u = decide (t = u) := by
  obtain ⟨i, cs, r, rfl, _, _, _⟩ := parse_inv h
  by_cases e : t = u
  · subst e; simp [Node.isNT]
  · simp [Node.isNT, e]

/-- The children of a type are those that the rule names. -/
theorem kids_parse {its : List Item} {cs : List Node} (h : Kids Parse its cs) {t : NT} (ht : t ≠ .augmented) :
    (kids cs t).length = its.count (.n t) ∧ ∀ c ∈ kids cs t, Parse t c := by
  induction h with
  | nil => exact ⟨rfl, by intro c hc; cases hc⟩
  | @n u c its cs hp _ ih =>
    by_cases e : u = t
    · subst e
      have : c.isNT u = true := by rw [parse_isNT hp]; simp
      simp only [kids, List.filter_cons, this, if_true, List.length_cons, List.count_cons_self]
      refine ⟨by rw [← ih.1]; rfl, ?_⟩
      intro d hd
      rcases List.mem_cons.1 hd with rfl | hd
      · exact hp
      · exact ih.2 d hd
    · have : c.isNT t = false := by rw [parse_isNT hp]; simp [e]
      simp only [kids, List.filter_cons, this]
      rw [List.count_cons_of_ne (by simp [e])]
      exact ih
  | @word it c its cs hw _ ih =>
    have : c.isNT t = false := word_isNT hw ht
    simp only [kids, List.filter_cons, this]
    rw [List.count_cons_of_ne]
    · exact ih
    · intro e
      subst e
      cases hw with
      | alone h => cases h
      | marked _ h _ => cases h
  | put _ _ ih =>
    simp only [kids, List.filter_cons, Node.isNT]
    rw [List.count_cons_of_ne (by simp)]
    exact ih
  | out _ ih =>
    rw [List.count_cons_of_ne (by simp)]
    exact ih

/-- What a child can be. -/
theorem kid_cases {P : NT → Node → Prop} {its : List Item} {cs : List Node} (h : Kids P its cs) {c : Node} (hc : c ∈ cs) :
    (∃ t, .n t ∈ its ∧ P t c) ∨ (∃ it ∈ its, WordR it c) ∨
      ∃ s i w, .e s ∈ its ∧ w ∈ wordsOf s ∧ c = .cmavo i s w := by
  induction h with
  | nil => cases hc
  | n hp _ ih =>
    rcases List.mem_cons.1 hc with rfl | hc
    · exact .inl ⟨_, List.mem_cons_self .., hp⟩
    · rcases ih hc with ⟨t, h1, h2⟩ | ⟨it, h1, h2⟩ | ⟨s, i, w, h1, h2⟩
      · exact .inl ⟨t, List.mem_cons_of_mem _ h1, h2⟩
      · exact .inr (.inl ⟨it, List.mem_cons_of_mem _ h1, h2⟩)
      · exact .inr (.inr ⟨s, i, w, List.mem_cons_of_mem _ h1, h2⟩)
  | word hw _ ih =>
    rcases List.mem_cons.1 hc with rfl | hc
    · exact .inr (.inl ⟨_, List.mem_cons_self .., hw⟩)
    · rcases ih hc with ⟨t, h1, h2⟩ | ⟨it, h1, h2⟩ | ⟨s, i, w, h1, h2⟩
      · exact .inl ⟨t, List.mem_cons_of_mem _ h1, h2⟩
      · exact .inr (.inl ⟨it, List.mem_cons_of_mem _ h1, h2⟩)
      · exact .inr (.inr ⟨s, i, w, List.mem_cons_of_mem _ h1, h2⟩)
  | put hw _ ih =>
    rcases List.mem_cons.1 hc with rfl | hc
    · exact .inr (.inr ⟨_, _, _, List.mem_cons_self .., hw, rfl⟩)
    · rcases ih hc with ⟨t, h1, h2⟩ | ⟨it, h1, h2⟩ | ⟨s, i, w, h1, h2⟩
      · exact .inl ⟨t, List.mem_cons_of_mem _ h1, h2⟩
      · exact .inr (.inl ⟨it, List.mem_cons_of_mem _ h1, h2⟩)
      · exact .inr (.inr ⟨s, i, w, List.mem_cons_of_mem _ h1, h2⟩)
  | out _ ih =>
    rcases ih hc with ⟨t, h1, h2⟩ | ⟨it, h1, h2⟩ | ⟨s, i, w, h1, h2⟩
    · exact .inl ⟨t, List.mem_cons_of_mem _ h1, h2⟩
    · exact .inr (.inl ⟨it, List.mem_cons_of_mem _ h1, h2⟩)
    · exact .inr (.inr ⟨s, i, w, List.mem_cons_of_mem _ h1, h2⟩)

/-- A symbol that surely gives a child. -/
def Item.sure : Item → Bool
  | .e _ => false
  | _ => true

theorem kids_length {P : NT → Node → Prop} {its : List Item} {cs : List Node} (h : Kids P its cs) :
    (its.filter Item.sure).length ≤ cs.length ∧ cs.length ≤ its.length := by
  induction h with
  | nil => exact ⟨Nat.le_refl _, Nat.le_refl _⟩
  | n _ _ ih => simp only [List.filter_cons, Item.sure, if_true, List.length_cons]; omega
  | @word it c its cs hw _ ih =>
    simp only [List.filter_cons, List.length_cons]
    split
    · rw [List.length_cons]; omega
    · omega
  | put _ _ ih => simp only [List.filter_cons, Item.sure, List.length_cons, Bool.false_eq_true, if_false]; omega
  | out _ ih => simp only [List.filter_cons, Item.sure, List.length_cons, Bool.false_eq_true, if_false]; omega

/-- A word of the grammar in the sense of the readings. -/
theorem word_word {s : Sel} {x : Node} (h : WordR (.t s) x) (hs : s ≠ .BAhE) : ∃ i w, w ∈ wordsOf s ∧ Word x i s w := by
  cases h with
  | alone h => cases h with
    | cmavo hw => exact ⟨_, _, hw, .alone⟩
  | marked hb h _ => cases h with
    | cmavo hw => exact ⟨_, _, hw, .marked hb.any hs⟩

end Jbo.Gram
