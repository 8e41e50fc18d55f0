import Verif.GramOcc
/-!
# Words among the children of a node
-/

namespace Jbo.Gram
open Jbo.Terms Jbo.Terms.Spec

/-- A selma'o that is neither BAhE nor that of an indicator. -/
def Plain (s : Sel) : Prop := s ≠ .BAhE ∧ s ∉ indicators

/-- A word as the parser gives it. -/
inductive Clean : Node → Nat → Sel → String → Prop
  | alone {i s w} : w ∈ wordsOf s → Clean (.cmavo i s w) i s w
  | marked {j bs i s w rs} : AllBahe bs → s ≠ .BAhE → w ∈ wordsOf s → (∀ r ∈ rs, Indic r) →
      Clean (.nt j .augmented (bs ++ .cmavo i s w :: rs)) i s w

theorem kid_clean {u : NT} {i : Nat} {cs : List Node} (h : Parse u (.nt i u cs)) {c : Node} (hc : c ∈ cs) {j : Nat} {s : Sel} {w : String}
    (hw : Word c j s w) : Clean c j s w := by
  cases hw with
  | alone =>
    rcases parse_kid h hc with ⟨t, _, ht⟩ | ⟨it, _, _, hw⟩ | ⟨s', j', w', _, hw, e⟩
    · obtain ⟨_, _, _, e, _⟩ := parse_inv ht; cases e
    · cases hw with
      | alone hb => cases hb with
        | cmavo hm => exact .alone hm
    · cases e; exact .alone hw
  | @marked k _ _ _ bs rs hb hs =>
    rcases parse_kid h hc with ⟨t, _, ht⟩ | ⟨it, _, hn, hw⟩ | ⟨s', j', w', _, _, e⟩
    · obtain ⟨_, _, _, e, _⟩ := parse_inv ht; cases e; exact absurd rfl (parse_not_aug ht)
    · generalize e : Node.nt k .augmented (bs ++ .cmavo j s w :: rs) = y at hw
      cases hw with
      | alone hb => subst e; cases hb
      | marked hb2 hbase hr =>
        injection e with _ _ e
        obtain ⟨rfl, rfl, rfl⟩ := split_unique' (fun b h => by obtain ⟨_, _, rfl⟩ := hb b h; rfl) (fun _ h => bahe_isSel hb2 h) (by simp [Node.isSel, hs]) (base_not_bahe hbase hn) e
        cases hbase with
        | cmavo hm => exact .marked hb2 hs hm hr
    · cases e

/-- What `find_nth_cmavo_child` finds. -/
def look (s : Sel) (cs : List Node) : Option Node := (cs.flatMap opened).find? (·.isSel s)

theorem find_look (i : Nat) (t : NT) (cs : List Node) (s : Sel) : findCmavo (.nt i t cs) s = .ok (look s cs) := rfl

theorem look_append (s : Sel) (a b : List Node) : look s (a ++ b) = (look s a).or (look s b) := by
  simp [look, List.find?_append]

theorem look_cons (s : Sel) (c : Node) (b : List Node) : look s (c :: b) = (look s [c]).or (look s b) := look_append s [c] b

theorem look_nil (s : Sel) : look s [] = none := rfl

theorem indic_find {s : Sel} (hs : Plain s) {r : Node} (h : Indic r) : r.isSel s = false := by
  cases h with
  | @word i s' w hm _ =>
    have : s' ≠ s := fun e => hs.2 (e ▸ hm)
    simp [Node.isSel, this]
  | marked _ _ _ => rfl

theorem bahe_find {s : Sel} (hs : Plain s) {bs : List Node} (hb : AllBahe bs) : bs.find? (·.isSel s) = none := by
  rw [List.find?_eq_none]
  intro b h
  obtain ⟨k, v, rfl, _⟩ := hb b h
  simp [Node.isSel, Ne.symm hs.1]

theorem look_clean {s : Sel} (hs : Plain s) {c : Node} {i : Nat} {s' : Sel} {w : String} (h : Clean c i s' w) :
    look s [c] = if s' = s then some (.cmavo i s' w) else none := by
  cases h with
  | alone _ =>
    by_cases e : s' = s <;> simp [look, opened, Node.isSel, e]
  | @marked j bs _ _ _ rs hb _ _ hr =>
    have h1 := bahe_find hs hb
    have h2 : rs.find? (·.isSel s) = none := by
      rw [List.find?_eq_none]
      intro r h
      simp [indic_find hs (hr r h)]
    have h3 : (Node.cmavo i s' w).isSel s = decide (s' = s) := by simp [Node.isSel, BEq.beq]
    have h4 : look s [.nt j .augmented (bs ++ .cmavo i s' w :: rs)] = (bs ++ .cmavo i s' w :: rs).find? (·.isSel s) := by
      rw [look, List.flatMap_cons, List.flatMap_nil, List.append_nil]; rfl
    rw [h4, List.find?_append, h1, List.find?_cons, h3, h2]
    by_cases e : s' = s <;> simp [e]

theorem word_clean {s : Sel} {c : Node} (hs : s ≠ .BAhE) (h : WordR (.t s) c) : ∃ i w, Word c i s w ∧ w ∈ wordsOf s := by
  obtain ⟨i, w, h1, h2⟩ := word_word h hs
  exact ⟨i, w, h2, h1⟩

theorem kids_nil {cs : List Node} (h : Kids Parse [] cs) : cs = [] := by cases h; rfl

/-- The words of a tree are in the table. -/
theorem occ_words {t : NT} {top : Node} (hp : Parse t top) {anc : List Node} {i : Nat} {s : Sel} {w : String}
    (h : Occ top anc (.cmavo i s w)) : w ∈ wordsOf s := by
  have hst := occ_stand hp h
  generalize e : Node.cmavo i s w = y at hst
  cases hst with
  | top hq => subst e; obtain ⟨_, _, _, e, _⟩ := parse_inv hq; cases e
  | child _ _ _ _ hw => subst e; obtain ⟨_, _, _, e, _⟩ := parse_inv hw; cases e
  | word _ _ _ _ hw =>
    subst e
    cases hw with
    | alone hb => cases hb with
      | cmavo hm => exact hm
  | put _ _ _ _ hw => cases e; exact hw
  | inner _ _ _ _ _ hb _ =>
    subst e
    cases hb with
    | cmavo hm => exact hm
  | bahe hw => cases e; exact hw
  | indic hq =>
    cases hq with
    | word _ hw => cases e; exact hw
    | marked _ _ _ => cases e
  | indicWord _ hw => cases e; exact hw

/-- The parent of a node of a parse tree. -/
theorem occ_parent {t : NT} {top : Node} (hp : Parse t top) {anc : List Node} {i : Nat} {u : NT} {cs : List Node}
    (h : Occ top anc (.nt i u cs)) (hu : u ≠ .augmented) (ht : u ≠ t) :
    Parse u (.nt i u cs) ∧ ∃ j v ds rest, anc = .nt j v ds :: rest ∧ Occ top rest (.nt j v ds) ∧ Parse v (.nt j v ds) ∧
      .nt i u cs ∈ ds ∧ Named v (.n u) := by
  obtain ⟨h1, ⟨_, _, e⟩ | ⟨j, v, ds, rest, rfl, h2, h3, h4, _⟩⟩ := occ_nt hp h hu
  · exact absurd e ht
  · exact ⟨h1, j, v, ds, rest, rfl, (occ_anc h [] _ _ rfl).1, h2, h3, h4⟩

/-- A child of a type that is there is named by the rule. -/
theorem kid_named {its : List Item} {cs : List Node} (h : Kids Parse its cs) {i : Nat} {u : NT} {ds : List Node} (hu : u ≠ .augmented)
    (hm : .nt i u ds ∈ cs) : .n u ∈ its := by
  rcases kid_cases h hm with ⟨t, h1, h2⟩ | ⟨it, _, hw⟩ | ⟨s, j, w, _, _, e⟩
  · obtain ⟨_, _, _, e, _⟩ := parse_inv h2; cases e; exact h1
  · exact absurd (word_sub hw .refl rfl) hu
  · cases e

end Jbo.Gram
