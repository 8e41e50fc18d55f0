import Verif.GramPass
/-!
# Nodes of a tree with their ancestors

A specification of "the node `x` stands in the tree and these are the nodes around it", and what a pass over the
tree logs in these terms.
-/

namespace Jbo.Gram
open Jbo.Terms Jbo.Terms.Spec

/-- The node `x` stands in the tree `top`; the list has its ancestors along `parent`, the nearest first.  The
word of a node AUGMENTED keeps the ancestors, the words of BAhE before it and the indicators after it have
none (`tree.c:562-629`). -/
inductive Occ (top : Node) : List Node → Node → Prop
  | top : Occ top [] top
  | child {anc i t cs c} : Occ top anc (.nt i t cs) → t ≠ .augmented → c ∈ cs → Occ top (.nt i t cs :: anc) c
  | word {anc i bs w rs} : Occ top anc (.nt i .augmented (bs ++ w :: rs)) → AllBahe bs → w.isSel .BAhE = false → Occ top anc w
  | before {anc i bs w rs b} : Occ top anc (.nt i .augmented (bs ++ w :: rs)) → AllBahe bs → b ∈ bs → Occ top [] b
  | after {anc i bs w rs r} : Occ top anc (.nt i .augmented (bs ++ w :: rs)) → AllBahe bs → w.isSel .BAhE = false → r ∈ rs → Occ top [] r

/-- The nodes below a node that has these ancestors. -/
inductive Under : List Node → Node → List Node → Node → Prop
  | refl {anc x} : Under anc x anc x
  | child {anc i t cs c anc' y} : t ≠ .augmented → c ∈ cs → Under (.nt i t cs :: anc) c anc' y → Under anc (.nt i t cs) anc' y
  | word {anc i bs w rs anc' y} : AllBahe bs → w.isSel .BAhE = false → Under anc w anc' y →
      Under anc (.nt i .augmented (bs ++ w :: rs)) anc' y
  | before {anc i bs w rs b anc' y} : AllBahe bs → b ∈ bs → Under [] b anc' y → Under anc (.nt i .augmented (bs ++ w :: rs)) anc' y
  | after {anc i bs w rs r anc' y} : AllBahe bs → w.isSel .BAhE = false → r ∈ rs → Under [] r anc' y →
      Under anc (.nt i .augmented (bs ++ w :: rs)) anc' y

theorem occ_under {top : Node} {anc anc' : List Node} {x y : Node} (h : Under anc x anc' y) : Occ top anc x → Occ top anc' y := by
  induction h with
  | refl => exact id
  | child h1 h2 _ ih => exact fun h => ih (.child h h1 h2)
  | word h1 h2 _ ih => exact fun h => ih (.word h h1 h2)
  | before h1 h2 _ ih => exact fun h => ih (.before h h1 h2)
  | after h1 h2 h3 _ ih => exact fun h => ih (.after h h1 h2 h3)

theorem under_trans {anc anc1 anc2 : List Node} {x y z : Node} (h : Under anc x anc1 y) (h2 : Under anc1 y anc2 z) : Under anc x anc2 z := by
  induction h with
  | refl => exact h2
  | child a b _ ih => exact .child a b (ih h2)
  | word a b _ ih => exact .word a b (ih h2)
  | before a b _ ih => exact .before a b (ih h2)
  | after a b c _ ih => exact .after a b c (ih h2)

theorem under_occ {top : Node} {anc : List Node} {x : Node} (h : Occ top anc x) : Under [] top anc x := by
  induction h with
  | top => exact .refl
  | child _ h1 h2 ih => exact under_trans ih (.child h1 h2 .refl)
  | word _ h1 h2 ih => exact under_trans ih (.word h1 h2 .refl)
  | before _ h1 h2 ih => exact under_trans ih (.before h1 h2 .refl)
  | after _ h1 h2 h3 ih => exact under_trans ih (.after h1 h2 h3 .refl)

/-! ## The pass -/

/-- The shape of the nodes AUGMENTED: words of BAhE, a word that is none, the rest. -/
def AugOk (x : Node) : Prop := ∀ i cs, x = .nt i .augmented cs → ∃ bs w rs, cs = bs ++ w :: rs ∧ AllBahe bs ∧ w.isSel .BAhE = false

theorem isSel_bahe {x : Node} (h : x.isSel .BAhE = true) : ∃ k v, x = .cmavo k .BAhE v := by
  cases x <;> simp [Node.isSel] at h
  subst h
  exact ⟨_, _, rfl⟩

theorem bahe_isSel {bs : List Node} (h : AllBahe bs) {b : Node} (hb : b ∈ bs) : b.isSel .BAhE = true := by
  obtain ⟨k, v, rfl, _⟩ := h b hb
  rfl

/-- The split of a node AUGMENTED is unique. -/
theorem split_unique' : ∀ {bs bs' : List Node} {w w' : Node} {rs rs' : List Node}, (∀ b ∈ bs, b.isSel .BAhE = true) → (∀ b ∈ bs', b.isSel .BAhE = true) → w.isSel .BAhE = false →
    w'.isSel .BAhE = false → bs ++ w :: rs = bs' ++ w' :: rs' → bs = bs' ∧ w = w' ∧ rs = rs' := by
  intro bs
  induction bs with
  | nil =>
    intro bs' w w' rs rs' _ hb' hw hw' e
    cases bs' with
    | nil => simp at e; exact ⟨rfl, e⟩
    | cons b bs' =>
      simp only [List.nil_append, List.cons_append, List.cons.injEq] at e
      have := hb' _ (List.mem_cons_self ..)
      rw [← e.1, hw] at this
      cases this
  | cons b bs ih =>
    intro bs' w w' rs rs' hb hb' hw hw' e
    cases bs' with
    | nil =>
      simp only [List.nil_append, List.cons_append, List.cons.injEq] at e
      have := hb _ (List.mem_cons_self ..)
      rw [e.1, hw'] at this
      cases this
    | cons b' bs' =>
      simp only [List.cons_append, List.cons.injEq] at e
      obtain ⟨rfl, e⟩ := e
      obtain ⟨rfl, rfl, rfl⟩ := ih (fun x hx => hb x (List.mem_cons_of_mem _ hx)) (fun x hx => hb' x (List.mem_cons_of_mem _ hx)) hw hw' e
      exact ⟨rfl, rfl, rfl⟩

theorem split_unique {bs bs' : List Node} {w w' : Node} {rs rs' : List Node} (h : AllBahe bs) (h' : AllBahe bs') :
    w.isSel .BAhE = false → w'.isSel .BAhE = false → bs ++ w :: rs = bs' ++ w' :: rs' → bs = bs' ∧ w = w' ∧ rs = rs' :=
  split_unique' (fun _ hb => bahe_isSel h hb) (fun _ hb => bahe_isSel h' hb)

section
variable {α : Type} {f : List Node → Node → M (List α)} {Q : List Node → Node → α → Prop}

/-- What the pass is to log at a node. -/
def At (f : List Node → Node → M (List α)) (Q : List Node → Node → α → Prop) (anc : List Node) (x : Node) : Prop :=
  AugOk x ∧ ∃ es, f anc x = .ok es ∧ ∀ e, e ∈ es ↔ Q anc x e

/-- What the pass is to log below a node. -/
def Goes (f : List Node → Node → M (List α)) (Q : List Node → Node → α → Prop) (anc : List Node) (x : Node) : Prop :=
  ∃ log, visit f anc x = .ok log ∧ ∀ e, e ∈ log ↔ ∃ anc' y, Under anc x anc' y ∧ Q anc' y e

theorem goes_all (anc : List Node) (cs : List Node) (h : ∀ c ∈ cs, Goes f Q anc c) :
    ∃ log, visitAll f anc cs = .ok log ∧ ∀ e, e ∈ log ↔ ∃ c ∈ cs, ∃ anc' y, Under anc c anc' y ∧ Q anc' y e := by
  induction cs with
  | nil => exact ⟨[], by rw [visitAll], by simp⟩
  | cons c cs ih =>
    obtain ⟨l1, h1, h2⟩ := h c (List.mem_cons_self ..)
    obtain ⟨l2, h3, h4⟩ := ih (fun d hd => h d (List.mem_cons_of_mem _ hd))
    refine ⟨l1 ++ l2, by rw [visitAll, h1, h3]; rfl, fun e => ?_⟩
    rw [List.mem_append, h2, h4]
    constructor
    · rintro (h | ⟨d, hd, h⟩)
      · exact ⟨c, List.mem_cons_self .., h⟩
      · exact ⟨d, List.mem_cons_of_mem _ hd, h⟩
    · rintro ⟨d, hd, hq⟩
      rcases List.mem_cons.1 hd with rfl | hd
      · exact .inl hq
      · exact .inr ⟨d, hd, hq⟩

theorem goes_aug (anc : List Node) (w : Node) (rs : List Node) (hw : w.isSel .BAhE = false) (gw : Goes f Q anc w)
    (gr : ∀ r ∈ rs, Goes f Q [] r) : ∀ (bs : List Node), AllBahe bs → (∀ b ∈ bs, Goes f Q [] b) →
    ∃ log, visitAug f anc (bs ++ w :: rs) = .ok log ∧ ∀ e, e ∈ log ↔
      (∃ b ∈ bs, ∃ anc' y, Under [] b anc' y ∧ Q anc' y e) ∨ (∃ anc' y, Under anc w anc' y ∧ Q anc' y e) ∨
      ∃ r ∈ rs, ∃ anc' y, Under [] r anc' y ∧ Q anc' y e := by
  intro bs
  induction bs with
  | nil =>
    intro _ _
    obtain ⟨l1, h1, h2⟩ := gw
    obtain ⟨l2, h3, h4⟩ := goes_all [] rs gr
    refine ⟨l1 ++ l2, ?_, fun e => ?_⟩
    · rw [List.nil_append, visitAug, hw, h1, h3]; rfl
    · rw [List.mem_append, h2, h4]; simp
  | cons b bs ih =>
    intro hb gb
    obtain ⟨l1, h1, h2⟩ := gb b (List.mem_cons_self ..)
    obtain ⟨l2, h3, h4⟩ := ih (fun x hx => hb x (List.mem_cons_of_mem _ hx)) (fun x hx => gb x (List.mem_cons_of_mem _ hx))
    refine ⟨l1 ++ l2, ?_, fun e => ?_⟩
    · rw [List.cons_append, visitAug, bahe_isSel hb (List.mem_cons_self ..), h1, h3]; rfl
    · rw [List.mem_append, h2, h4]
      constructor
      · rintro (h | ⟨d, hd, h⟩ | h)
        · exact .inl ⟨b, List.mem_cons_self .., h⟩
        · exact .inl ⟨d, List.mem_cons_of_mem _ hd, h⟩
        · exact .inr h
      · rintro (⟨d, hd, h⟩ | h)
        · rcases List.mem_cons.1 hd with rfl | hd
          · exact .inl h
          · exact .inr (.inl ⟨d, hd, h⟩)
        · exact .inr (.inr h)

theorem goes (n : Nat) : ∀ (anc : List Node) (x : Node), x.depth < n → (∀ anc' y, Under anc x anc' y → At f Q anc' y) → Goes f Q anc x := by
  induction n with
  | zero => intro anc x hd; omega
  | succ n ih =>
    intro anc x hd hat
    obtain ⟨hok, es, h1, h2⟩ := hat anc x .refl
    have plain : (∀ i t cs, x ≠ .nt i t cs) → Goes f Q anc x := by
      intro hx
      refine ⟨es, ?_, fun e => ?_⟩
      · cases x with
        | nt i t cs => exact absurd rfl (hx i t cs)
        | _ => rw [visit]; exact h1; intro _ _ _ e; cases e
      · rw [h2]
        constructor
        · exact fun h => ⟨anc, x, .refl, h⟩
        · rintro ⟨anc', y, hu, hq⟩
          cases hu with
          | refl => exact hq
          | child _ _ _ => exact absurd rfl (hx _ _ _)
          | word _ _ _ => exact absurd rfl (hx _ _ _)
          | before _ _ _ => exact absurd rfl (hx _ _ _)
          | after _ _ _ _ => exact absurd rfl (hx _ _ _)
    cases x with
    | nt i t cs =>
      by_cases ht : t = .augmented
      · subst ht
        obtain ⟨bs, w, rs, rfl, hb, hw⟩ := hok i cs rfl
        have dep : ∀ y ∈ bs ++ w :: rs, y.depth < n := fun y hy => by
          have := mem_depth (t := .augmented) (i := i) hy; omega
        obtain ⟨l, h3, h4⟩ := goes_aug (f := f) (Q := Q) anc w rs hw
          (ih anc w (dep w (by simp)) fun anc' y hu => hat anc' y (.word hb hw hu))
          (fun r hr => ih [] r (dep r (by simp [hr])) fun anc' y hu => hat anc' y (.after hb hw hr hu)) bs hb
          (fun b hb' => ih [] b (dep b (by simp [hb'])) fun anc' y hu => hat anc' y (.before hb hb' hu))
        refine ⟨es ++ l, by rw [visit, h1]; simp only [if_true]; rw [h3]; rfl, fun e => ?_⟩
        rw [List.mem_append, h2, h4]
        constructor
        · rintro (h | ⟨b, hb', anc', y, hu, h⟩ | ⟨anc', y, hu, h⟩ | ⟨r, hr, anc', y, hu, h⟩)
          · exact ⟨anc, _, .refl, h⟩
          · exact ⟨anc', y, .before hb hb' hu, h⟩
          · exact ⟨anc', y, .word hb hw hu, h⟩
          · exact ⟨anc', y, .after hb hw hr hu, h⟩
        · rintro ⟨anc', y, hu, h⟩
          generalize e1 : Node.nt i .augmented (bs ++ w :: rs) = z at hu
          cases hu with
          | refl => subst e1; exact .inl h
          | child h _ _ => cases e1; exact absurd rfl h
          | word hb2 hw2 hu =>
            injection e1 with _ _ e1
            obtain ⟨rfl, rfl, rfl⟩ := split_unique hb hb2 hw hw2 e1
            exact .inr (.inr (.inl ⟨_, _, hu, h⟩))
          | @before _ _ bs' w' rs' b _ _ hb2 hm hu =>
            injection e1 with _ _ e1
            have hbb := bahe_isSel hb2 hm
            refine .inr (.inl ⟨b, ?_, _, _, hu, h⟩)
            -- a word of BAhE that stands before a node is one of the first words
            have key : ∀ (bs bs' : List Node), AllBahe bs' → b ∈ bs' → bs ++ w :: rs = bs' ++ w' :: rs' → b ∈ bs := by
              intro bs
              induction bs with
              | nil =>
                intro bs' hb' hm e
                cases bs' with
                | nil => cases hm
                | cons c bs' =>
                  simp only [List.nil_append, List.cons_append, List.cons.injEq] at e
                  have := bahe_isSel hb' (List.mem_cons_self ..)
                  rw [← e.1, hw] at this
                  cases this
              | cons c bs ihb =>
                intro bs' hb' hm e
                cases bs' with
                | nil => cases hm
                | cons c' bs' =>
                  simp only [List.cons_append, List.cons.injEq] at e
                  rcases List.mem_cons.1 hm with rfl | hm
                  · rw [e.1]; exact List.mem_cons_self ..
                  · exact List.mem_cons_of_mem _ (ihb bs' (fun x hx => hb' x (List.mem_cons_of_mem _ hx)) hm e.2)
            exact key bs bs' hb2 hm e1
          | after hb2 hw2 hr hu =>
            injection e1 with _ _ e1
            obtain ⟨rfl, rfl, rfl⟩ := split_unique hb hb2 hw hw2 e1
            exact .inr (.inr (.inr ⟨_, hr, _, _, hu, h⟩))
      · obtain ⟨l, h3, h4⟩ := goes_all (f := f) (Q := Q) (.nt i t cs :: anc) cs (fun c hc => ih _ c
          (by have := mem_depth (t := t) (i := i) hc; omega) fun anc' y hu => hat anc' y (.child ht hc hu))
        refine ⟨es ++ l, by rw [visit, h1]; simp only [if_neg ht]; rw [h3]; rfl, fun e => ?_⟩
        rw [List.mem_append, h2, h4]
        constructor
        · rintro (h | ⟨c, hc, anc', y, hu, h⟩)
          · exact ⟨anc, _, .refl, h⟩
          · exact ⟨anc', y, .child ht hc hu, h⟩
        · rintro ⟨anc', y, hu, h⟩
          cases hu with
          | refl => exact .inl h
          | child _ hc hu => exact .inr ⟨_, hc, _, _, hu, h⟩
          | word _ _ _ => exact absurd rfl ht
          | before _ _ _ => exact absurd rfl ht
          | after _ _ _ _ => exact absurd rfl ht
    | _ => exact plain (by intro _ _ _ e; cases e)

/-- A pass that does the right thing at every node does the right thing on the tree. -/
theorem pass_logs (top : Node) (h : ∀ anc x, Occ top anc x → At f Q anc x) :
    ∃ log, visit f [] top = .ok log ∧ ∀ e, e ∈ log ↔ ∃ anc x, Occ top anc x ∧ Q anc x e := by
  obtain ⟨log, h1, h2⟩ := goes (f := f) (Q := Q) (top.depth + 1) [] top (Nat.lt_succ_self _) (fun anc y hu => h anc y (occ_under hu .top))
  refine ⟨log, h1, fun e => ?_⟩
  rw [h2]
  constructor
  · rintro ⟨anc, y, hu, hq⟩; exact ⟨anc, y, occ_under hu .top, hq⟩
  · rintro ⟨anc, y, hu, hq⟩; exact ⟨anc, y, under_occ hu, hq⟩
end

/-! ## The nodes of a parse tree -/

/-- A rule of `u` has the symbol. -/
def Named (u : NT) (it : Item) : Prop := ∃ r ∈ rules, r.lhs = u ∧ it ∈ r.rhs

/-- A node of a parse tree is a tree of the grammar or stands for a word. -/
inductive Stand (top : Node) : List Node → Node → Prop
  /-- the top -/
  | top {t} : Parse t top → Stand top [] top
  /-- a child that a rule names -/
  | child {anc i u cs t c} : Parse u (.nt i u cs) → Stand top anc (.nt i u cs) → c ∈ cs → Named u (.n t) → Parse t c →
      Stand top (.nt i u cs :: anc) c
  /-- a word, or the node AUGMENTED that has it -/
  | word {anc i u cs it c} : Parse u (.nt i u cs) → Stand top anc (.nt i u cs) → c ∈ cs → Named u it → WordR it c →
      Stand top (.nt i u cs :: anc) c
  /-- a terminator that was put in -/
  | put {anc i u cs j s w} : Parse u (.nt i u cs) → Stand top anc (.nt i u cs) → .cmavo j s w ∈ cs → Named u (.e s) → w ∈ wordsOf s →
      Stand top (.nt i u cs :: anc) (.cmavo j s w)
  /-- the word in a node AUGMENTED -/
  | inner {anc i u cs it j bs w rs} : Parse u (.nt i u cs) → Stand top anc (.nt i u cs) → .nt j .augmented (bs ++ w :: rs) ∈ cs →
      AllBahe bs → Named u it → Base it w → it ≠ .t .BAhE → Stand top (.nt i u cs :: anc) w
  /-- words of BAhE and indicators -/
  | bahe {j w} : w ∈ wordsOf .BAhE → Stand top [] (.cmavo j .BAhE w)
  | indic {x} : Indic x → Stand top [] x
  | indicWord {i s w} : s ∈ indicators → w ∈ wordsOf s → Stand top [] (.cmavo i s w)

theorem base_not_bahe {it : Item} {x : Node} (h : Base it x) (hn : it ≠ .t .BAhE) : x.isSel .BAhE = false := by
  cases h with
  | @cmavo i s w _ =>
    have : s ≠ .BAhE := fun e => hn (by rw [e])
    simp [Node.isSel, this]
  | _ => rfl

theorem parse_kid {u : NT} {i : Nat} {cs : List Node} (h : Parse u (.nt i u cs)) {c : Node} (hc : c ∈ cs) :
    (∃ t, Named u (.n t) ∧ Parse t c) ∨ (∃ it, Named u it ∧ it ≠ .t .BAhE ∧ WordR it c) ∨
      ∃ s j w, Named u (.e s) ∧ w ∈ wordsOf s ∧ c = .cmavo j s w := by
  obtain ⟨_, _, r, e, hr, rfl, hk⟩ := parse_inv h
  cases e
  rcases kid_cases hk hc with ⟨t, hm, hp⟩ | ⟨it, hi, hw⟩ | ⟨s, j, w, hm, hw, e⟩
  · exact .inl ⟨t, ⟨r, hr, rfl, hm⟩, hp⟩
  · refine .inr (.inl ⟨it, ⟨r, hr, rfl, hi⟩, ?_, hw⟩)
    rintro rfl
    have := all_mem no_bahe hr
    simp only [Bool.not_eq_true', List.contains_eq_mem, decide_eq_false_iff_not] at this
    exact this hi
  · exact .inr (.inr ⟨s, j, w, ⟨r, hr, rfl, hm⟩, hw, e⟩)

theorem indic_not_bahe {s : Sel} (h : s ∈ indicators) : s ≠ .BAhE := by
  rintro rfl; revert h; decide

theorem occ_stand {t : NT} {top : Node} (hp : Parse t top) {anc : List Node} {x : Node} (h : Occ top anc x) : Stand top anc x := by
  induction h with
  | top => exact .top hp
  | @child anc i t cs c ho ht hc ih =>
    -- the parent is a tree of the grammar
    have par : ∃ u, Parse u (.nt i t cs) := by
      generalize e : Node.nt i t cs = y at ih
      cases ih with
      | top h => exact ⟨_, h⟩
      | child _ _ _ _ h => exact ⟨_, h⟩
      | word _ _ _ _ hw =>
        exact absurd (word_sub hw .refl e.symm) ht
      | put _ _ _ _ _ => cases e
      | inner _ _ _ _ _ hb _ => subst e; cases hb
      | bahe _ => cases e
      | indic hi => exact absurd (indic_sub hi .refl e.symm) ht
      | indicWord _ _ => cases e
    obtain ⟨u, pu⟩ := par
    obtain ⟨_, _, r, e, _, _, _⟩ := parse_inv pu
    cases e
    rcases parse_kid pu hc with ⟨v, hn, hv⟩ | ⟨it, hn, _, hw⟩ | ⟨s, j, w, hn, hw, rfl⟩
    · exact .child pu ih hc hn hv
    · exact .word pu ih hc hn hw
    · exact .put pu ih hc hn hw
  | @word anc i bs w rs ho hb hw ih =>
    generalize e : Node.nt i .augmented (bs ++ w :: rs) = y at ih
    cases ih with
    | top h => subst e; obtain ⟨_, _, _, e, _⟩ := parse_inv h; cases e; exact absurd rfl (parse_not_aug h)
    | child _ _ _ _ h => subst e; obtain ⟨_, _, _, e, _⟩ := parse_inv h; cases e; exact absurd rfl (parse_not_aug h)
    | @word anc k u cs it c pu ps hc _ hwr =>
      subst e
      rcases parse_kid pu hc with ⟨v, _, hv⟩ | ⟨it, hnm, hn, hw2⟩ | ⟨s, j, w, _, hw2, e⟩
      · obtain ⟨_, _, _, e, _⟩ := parse_inv hv; cases e; exact absurd rfl (parse_not_aug hv)
      · generalize e : Node.nt i .augmented (bs ++ w :: rs) = y at hw2
        cases hw2 with
        | alone h => subst e; cases h
        | marked hb2 h hr =>
          injection e with _ _ e
          obtain ⟨rfl, rfl, rfl⟩ := split_unique hb hb2 hw (base_not_bahe h hn) e
          exact .inner pu ps hc hb hnm h hn
      · cases e
    | put _ _ _ _ _ => cases e
    | inner _ _ _ _ _ h _ => subst e; cases h
    | bahe _ => cases e
    | indic hi =>
      cases hi with
      | word _ _ => cases e
      | marked hb2 hs hws =>
        injection e with _ _ e
        obtain ⟨rfl, rfl, rfl⟩ := split_unique hb hb2 hw (by simp [Node.isSel, indic_not_bahe hs]) e
        exact .indicWord hs hws
    | indicWord _ _ => cases e
  | @before anc i bs w rs b ho hb hm ih =>
    obtain ⟨k, v, rfl, hv⟩ := hb b hm
    exact .bahe hv
  | @after anc i bs w rs r ho hb hw hr ih =>
    generalize e : Node.nt i .augmented (bs ++ w :: rs) = y at ih
    cases ih with
    | top h => subst e; obtain ⟨_, _, _, e, _⟩ := parse_inv h; cases e; exact absurd rfl (parse_not_aug h)
    | child _ _ _ _ h => subst e; obtain ⟨_, _, _, e, _⟩ := parse_inv h; cases e; exact absurd rfl (parse_not_aug h)
    | @word anc k u cs it c pu ps hc _ hwr =>
      subst e
      rcases parse_kid pu hc with ⟨v, _, hv⟩ | ⟨it, hnm, hn, hw2⟩ | ⟨s, j, w, _, hw2, e⟩
      · obtain ⟨_, _, _, e, _⟩ := parse_inv hv; cases e; exact absurd rfl (parse_not_aug hv)
      · generalize e : Node.nt i .augmented (bs ++ w :: rs) = y at hw2
        cases hw2 with
        | alone h => subst e; cases h
        | marked hb2 h hi =>
          injection e with _ _ e
          obtain ⟨rfl, rfl, rfl⟩ := split_unique hb hb2 hw (base_not_bahe h hn) e
          exact .indic (hi _ hr)
      · cases e
    | put _ _ _ _ _ => cases e
    | inner _ _ _ _ _ h _ => subst e; cases h
    | bahe _ => cases e
    | indic hi =>
      cases hi with
      | word _ _ => cases e
      | marked hb2 hs hws =>
        injection e with _ _ e
        obtain ⟨rfl, rfl, rfl⟩ := split_unique hb hb2 hw (by simp [Node.isSel, indic_not_bahe hs]) e
        cases hr
    | indicWord _ _ => cases e

/-- Nodes AUGMENTED are words of BAhE, one other word, indicators. -/
theorem occ_augOk {t : NT} {top : Node} (hp : Parse t top) {anc : List Node} {x : Node} (h : Occ top anc x) : AugOk x := by
  rintro i cs rfl
  have hs := occ_stand hp h
  generalize e : Node.nt i .augmented cs = y at hs
  have no : ∀ {v}, Parse v (.nt i .augmented cs) → False := fun hv => by
    obtain ⟨_, _, _, e, _⟩ := parse_inv hv; cases e; exact absurd rfl (parse_not_aug hv)
  cases hs with
  | top hq => subst e; exact (no hq).elim
  | child _ _ _ _ hq => subst e; exact (no hq).elim
  | word pu _ hc _ _ =>
    subst e
    rcases parse_kid pu hc with ⟨v, _, hv⟩ | ⟨it, _, hn, hw⟩ | ⟨s, j, w, _, _, e⟩
    · exact (no hv).elim
    · generalize e : Node.nt i .augmented cs = y at hw
      cases hw with
      | alone h => subst e; cases h
      | marked hb hq _ =>
        cases e
        exact ⟨_, _, _, rfl, hb, base_not_bahe hq hn⟩
    · cases e
  | put _ _ _ _ _ => cases e
  | inner _ _ _ _ _ h _ => subst e; cases h
  | bahe _ => cases e
  | indic hi =>
    cases hi with
    | word _ _ => cases e
    | marked hb hs _ =>
      cases e
      exact ⟨_, _, [], rfl, hb, by simp [Node.isSel, indic_not_bahe hs]⟩
  | indicWord _ _ => cases e

/-- A non-terminal of a parse tree, its parent and the parent's place. -/
theorem occ_nt {t : NT} {top : Node} (hp : Parse t top) {anc : List Node} {i : Nat} {u : NT} {cs : List Node}
    (h : Occ top anc (.nt i u cs)) (hu : u ≠ .augmented) :
    Parse u (.nt i u cs) ∧ ((anc = [] ∧ top = .nt i u cs ∧ u = t) ∨
      ∃ j v ds rest, anc = .nt j v ds :: rest ∧ Parse v (.nt j v ds) ∧ .nt i u cs ∈ ds ∧ Named v (.n u) ∧ Stand top rest (.nt j v ds)) := by
  have hs := occ_stand hp h
  have own : ∀ {v}, Parse v (.nt i u cs) → v = u := fun hv => by
    obtain ⟨_, _, _, e, _⟩ := parse_inv hv; cases e; rfl
  generalize e : Node.nt i u cs = y at hs
  cases hs with
  | top hq =>
    subst e
    refine ⟨own hq ▸ hq, .inl ⟨rfl, rfl, (own hp).symm⟩⟩
  | @child anc j v ds w c hv hs hc hn hw =>
    subst e
    cases own hw
    exact ⟨hw, .inr ⟨j, v, ds, anc, rfl, hv, hc, hn, hs⟩⟩
  | word _ _ _ _ hw => exact absurd (word_sub hw .refl e.symm) hu
  | put _ _ _ _ _ => cases e
  | inner _ _ _ _ _ h _ => subst e; cases h
  | bahe _ => cases e
  | indic hi => exact absurd (indic_sub hi .refl e.symm) hu
  | indicWord _ _ => cases e

/-- A word of a parse tree and its parent. -/
theorem occ_cmavo {t : NT} {top : Node} (hp : Parse t top) {anc : List Node} {i : Nat} {s : Sel} {w : String}
    (h : Occ top anc (.cmavo i s w)) (hs : s ≠ .BAhE) (hi : s ∉ indicators) :
    w ∈ wordsOf s ∧ ∃ j v ds rest, anc = .nt j v ds :: rest ∧ Parse v (.nt j v ds) ∧ (Named v (.t s) ∨ Named v (.e s)) ∧
      Stand top rest (.nt j v ds) := by
  have hst := occ_stand hp h
  generalize e : Node.cmavo i s w = y at hst
  cases hst with
  | top hq => subst e; obtain ⟨_, _, _, e, _⟩ := parse_inv hq; cases e
  | child _ _ _ _ hw => subst e; obtain ⟨_, _, _, e, _⟩ := parse_inv hw; cases e
  | word hv hs hc hn hw =>
    subst e
    cases hw with
    | alone hb => cases hb with
      | cmavo hm => exact ⟨hm, _, _, _, _, rfl, hv, .inl hn, hs⟩
  | put hv hs hc hn hw => cases e; exact ⟨hw, _, _, _, _, rfl, hv, .inr hn, hs⟩
  | inner hv hs hc _ hn hb _ =>
    subst e
    cases hb with
    | cmavo hm => exact ⟨hm, _, _, _, _, rfl, hv, .inl hn, hs⟩
  | bahe _ => cases e; exact absurd rfl hs
  | indic hq =>
    cases hq with
    | word hm _ => cases e; exact absurd hm hi
    | marked _ _ _ => cases e
  | indicWord hm _ => cases e; exact absurd hm hi

/-- The ancestors stand in the tree themselves. -/
theorem occ_anc {top : Node} {anc : List Node} {x : Node} (h : Occ top anc x) :
    ∀ near y rest, anc = near ++ y :: rest → Occ top rest y ∧ ∃ i t cs, y = .nt i t cs ∧ t ≠ .augmented := by
  induction h with
  | top => intro near y rest e; cases near <;> cases e
  | @child anc i t cs c ho ht hc ih =>
    intro near y rest e
    cases near with
    | nil => cases e; exact ⟨ho, _, _, _, rfl, ht⟩
    | cons n near => cases e; exact ih near y rest rfl
  | word _ _ _ ih => exact ih
  | before _ _ _ _ => intro near y rest e; cases near <;> cases e
  | after _ _ _ _ _ => intro near y rest e; cases near <;> cases e

end Jbo.Gram
