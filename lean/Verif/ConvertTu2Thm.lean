import Verif.ConvertBaiThm
import Verif.TransCompThm
/-!
# SE before units of tanru on every parse tree

Property C76.
-/

namespace Jbo.Convert
open Jbo.Terms Jbo.Gram Spec
open Jbo.Terms.Spec (sePlaces)
open Jbo.TransSpec (Op placeThrough exch)
open Jbo.Trans (table exchange_table jai_table)

/-- The nodes that the walk passes. -/
def onWay : List NT := [.seTu2, .naheTu2, .jaiTu2, .jaiTagTu2, .tanruUnit2, .tanruUnit1, .tanruUnit, .selbri6, .selbri5, .selbri4, .selbri3,
  .keSelbri3, .keSelbri3Tu2]

theorem way_rules : onWay.all (fun t => rules.all fun r => !(r.rhs.contains (.n t)) || (.selbri2 :: onWay).contains r.lhs) = true := by
  decide +kernel

theorem way_next {t v : NT} (ht : t ∈ onWay) (hn : Named v (.n t)) : v = .selbri2 ∨ v ∈ onWay := by
  obtain ⟨r, hr, rfl, hi⟩ := hn
  have := all_mem (List.all_eq_true.1 way_rules t ht) hr
  simpa [hi] using this

theorem selbri6_only : on .selbri6 (fun its => !(its.contains (.n .selbri)) || decide (2 ≤ sure its)) = true := by decide +kernel

theorem conv_range' {w : String} {p : Nat} (h : (w, p) ∈ sePlaces) : 2 ≤ p ∧ p ≤ 5 := by
  simp only [sePlaces, List.mem_cons, Prod.mk.injEq, List.not_mem_nil, or_false] at h
  rcases h with ⟨_, rfl⟩ | ⟨_, rfl⟩ | ⟨_, rfl⟩ | ⟨_, rfl⟩ <;> decide

theorem seTu2_word {i : Nat} {cs : List Node} (h : Parse .seTu2 (.nt i .seTu2 cs)) :
    ∃ s ds k w p, cs = s :: ds ∧ Terms.Spec.Word s k .SE w ∧ (w, p) ∈ sePlaces := by
  obtain ⟨_, its, _, e, hf, hk⟩ := on_use seTu2_rules h
  cases e
  split at hf
  · obtain ⟨s, ds, rfl, hs, _⟩ := firstT hk
    obtain ⟨k, w, hw, hs⟩ := word_word hs (by decide)
    obtain ⟨p, hp⟩ := se_words w hw
    exact ⟨s, ds, k, w, p, rfl, hs, hp⟩
  · cases hf

/-- What the walk is to find. -/
def Walked (places : List Nat) (inner : List Op) (up : List Node) : Prop :=
  ∃ near os ds, Scope CodeEnds up near ∧ Ops near os ∧ tu2Walk places up = .ok (placeThrough (os.reverse ++ inner) 1, ds) ∧
    ∀ k, k ∈ ds ↔ ∃ i s cs w, .nt i .seTu2 (s :: cs) ∈ near ∧ Terms.Spec.Word s k .SE w

theorem scope_nil {E : List Node → Prop} {up : List Node} (h : E up) : Scope E up [] :=
  ⟨up, rfl, h, fun _ _ e hb => absurd (List.append_eq_nil_iff.1 e.symm).2 hb⟩

theorem scope_cons {E : List Node → Prop} {x : Node} {up near : List Node} (hx : ¬ E (x :: up)) (h : Scope E up near) : Scope E (x :: up) (x :: near) := by
  obtain ⟨rest, rfl, h1, h2⟩ := h
  refine ⟨rest, rfl, h1, fun a b e hb => ?_⟩
  cases a with
  | nil => cases e; exact hx
  | cons y a => cases e; exact h2 a b rfl hb

theorem scope_unique {E : List Node → Prop} : ∀ {near near' up : List Node}, Scope E up near → Scope E up near' → near = near' := by
  intro near
  induction near with
  | nil =>
    rintro near' up ⟨r, rfl, h1, _⟩ ⟨r', e, _, h2⟩
    by_cases hn : near' = []
    · exact hn.symm
    · exact absurd (by rw [← e]; exact h1) (h2 [] near' rfl hn)
  | cons x near ih =>
    rintro near' up ⟨r, rfl, h1, h2⟩ ⟨r', e, h3, h4⟩
    cases near' with
    | nil => exact absurd (by rw [List.nil_append] at e; rw [e]; exact h3) (h2 [] (x :: near) rfl (by simp))
    | cons y near' =>
      simp only [List.cons_append, List.cons.injEq] at e
      obtain ⟨rfl, e⟩ := e
      rw [ih (near' := near') ⟨r, rfl, h1, fun a b e hb => h2 (x :: a) b (by rw [e]; rfl) hb⟩
        ⟨r', e, h3, fun a b e hb => h4 (x :: a) b (by rw [e]; rfl) hb⟩]

theorem ops_unique {near : List Node} {os os' : List Op} (h : Ops near os) (h' : Ops near os') : os = os' := by
  induction h generalizing os' with
  | nil => cases h'; rfl
  | se hs hp _ ih =>
    cases h' with
    | se hs' hp' h' =>
      obtain ⟨_, _, rfl⟩ := word_unique (by decide) (by decide) hs hs'
      rw [places_unique hp hp', ih h']
    | jai ht _ => rcases ht with e | e <;> cases e
    | other ht _ => exact absurd (by simp) ht
  | jai ht _ ih =>
    cases h' with
    | se _ _ _ => rcases ht with e | e <;> cases e
    | jai _ h' => rw [ih h']
    | other ht' _ => rcases ht with rfl | rfl <;> exact absurd (by simp) ht'
  | other ht _ ih =>
    cases h' with
    | se _ _ _ => exact absurd (by simp) ht
    | jai ht' _ => rcases ht' with rfl | rfl <;> exact absurd (by simp) ht
    | other _ h' => exact ih h'

theorem walk_eval {top : Node} (hp : Parse .chunks top) : ∀ (n : Nat) {i : Nat} {t : NT} {cs rest : List Node} (inner : List Op), rest.length ≤ n →
    Occ top rest (.nt i t cs) → t = .selbri2 ∨ t ∈ onWay → Walked (table (placeThrough inner)) inner (.nt i t cs :: rest) := by
  intro n
  induction n with
  | zero =>
    intro i t cs rest inner hl ho ht
    rcases ht with rfl | ht
    · exact ⟨[], [], [], scope_nil .whole, .nil, rfl, by simp⟩
    · have ha : t ≠ .augmented := by rintro rfl; revert ht; decide
      have hc : t ≠ .chunks := by rintro rfl; revert ht; decide
      obtain ⟨_, j, v, ds, rest', rfl, _⟩ := occ_parent hp ho ha hc
      simp at hl
  | succ n ih =>
    intro i t cs rest inner hl ho ht
    rcases ht with rfl | ht
    · exact ⟨[], [], [], scope_nil .whole, .nil, rfl, by simp⟩
    have ha : t ≠ .augmented := by rintro rfl; revert ht; decide
    have hc : t ≠ .chunks := by rintro rfl; revert ht; decide
    obtain ⟨pt, j, v, ds, rest', rfl, hr, hv, hm, hn⟩ := occ_parent hp ho ha hc
    have hw := way_next ht hn
    have nxt : ∀ inner', Walked (table (placeThrough inner')) inner' (.nt j v ds :: rest') := fun inner' =>
      ih inner' (by simp at hl; omega) hr hw
    have pass : t ∉ [NT.seTu2, .jaiTu2, .jaiTagTu2] → ¬ CodeEnds (.nt i t cs :: .nt j v ds :: rest') →
        tu2Walk (table (placeThrough inner)) (.nt i t cs :: .nt j v ds :: rest') = tu2Walk (table (placeThrough inner)) (.nt j v ds :: rest') →
        Walked (table (placeThrough inner)) inner (.nt i t cs :: .nt j v ds :: rest') := by
      intro h1 h2 h3
      obtain ⟨near, os, ds', s1, s2, s3, s4⟩ := nxt inner
      refine ⟨_ :: near, os, ds', scope_cons h2 s1, .other h1 s2, by rw [h3, s3], fun k => ?_⟩
      rw [s4]
      constructor
      · rintro ⟨i', s, cs', w, hm, hw⟩; exact ⟨i', s, cs', w, List.mem_cons_of_mem _ hm, hw⟩
      · rintro ⟨i', s, cs', w, hm, hw⟩
        rcases List.mem_cons.1 hm with e | hm
        · cases e; exact absurd (by simp) h1
        · exact ⟨i', s, cs', w, hm, hw⟩
    have jai : t = .jaiTu2 ∨ t = .jaiTagTu2 →
        tu2Walk (table (placeThrough inner)) (.nt i t cs :: .nt j v ds :: rest') =
          tu2Walk ((table (placeThrough inner)).set 0 0) (.nt j v ds :: rest') →
        Walked (table (placeThrough inner)) inner (.nt i t cs :: .nt j v ds :: rest') := by
      intro h1 h3
      obtain ⟨near, os, ds', s1, s2, s3, s4⟩ := nxt (.jai :: inner)
      refine ⟨_ :: near, .jai :: os, ds', scope_cons ?_ s1, .jai h1 s2, ?_, fun k => ?_⟩
      · intro h; generalize e : Node.nt i t cs = y at h; rcases h1 with rfl | rfl <;> cases h <;> cases e
      · rw [h3, jai_table, List.reverse_cons, List.append_assoc]
        exact s3
      · rw [s4]
        constructor
        · rintro ⟨i', s, cs', w, hm, hw⟩; exact ⟨i', s, cs', w, List.mem_cons_of_mem _ hm, hw⟩
        · rintro ⟨i', s, cs', w, hm, hw⟩
          rcases List.mem_cons.1 hm with e | hm
          · cases e; rcases h1 with e | e <;> cases e
          · exact ⟨i', s, cs', w, hm, hw⟩
    have noEnd : t ≠ .selbri4 → t ≠ .selbri2 → ¬ CodeEnds (.nt i t cs :: .nt j v ds :: rest') := by
      intro h1 h2 h
      cases h with
      | modifier => exact h1 rfl
      | whole => exact h2 rfl
    have ht' := ht
    simp only [onWay, List.mem_cons, List.not_mem_nil, or_false] at ht'
    rcases ht' with rfl | rfl | rfl | rfl | rfl | rfl | rfl | rfl | rfl | rfl | rfl | rfl | rfl
    · -- SE
      obtain ⟨s, ds', k, w, p, rfl, hs, hpl⟩ := seTu2_word pt
      obtain ⟨e1, e2⟩ := se_eval hs hpl
      obtain ⟨near, os, ds2, s1, s2, s3, s4⟩ := nxt (.conv p :: inner)
      refine ⟨_ :: near, .conv p :: os, k :: ds2, scope_cons (noEnd (by decide) (by decide)) s1, .se hs hpl s2, ?_, fun k' => ?_⟩
      · have e3 : tu2Walk (Trans.exchange (table (placeThrough inner)) p) (.nt j v ds :: rest') =
            .ok (placeThrough ((Op.conv p :: os).reverse ++ inner) 1, ds2) := by
          rw [exchange_table _ (conv_range' hpl), List.reverse_cons, List.append_assoc]
          exact s3
        rw [tu2Walk.eq_def]
        simp only [childRef, Node.children, bind, Except.bind, List.getElem?_cons_zero, e1, e2, e3]
        rfl
      · rw [List.mem_cons, s4]
        constructor
        · rintro (rfl | ⟨i', s', cs', w', hm, hw⟩)
          · exact ⟨i, s, ds', w, List.mem_cons_self .., hs⟩
          · exact ⟨i', s', cs', w', List.mem_cons_of_mem _ hm, hw⟩
        · rintro ⟨i', s', cs', w', hm, hw⟩
          rcases List.mem_cons.1 hm with e | hm
          · cases e
            exact .inl (word_unique (by decide) (by decide) hw hs).1
          · exact .inr ⟨i', s', cs', w', hm, hw⟩
    · exact pass (by decide) (noEnd (by decide) (by decide)) rfl
    · exact jai (.inl rfl) rfl
    · exact jai (.inr rfl) rfl
    · exact pass (by decide) (noEnd (by decide) (by decide)) rfl
    · exact pass (by decide) (noEnd (by decide) (by decide)) rfl
    · exact pass (by decide) (noEnd (by decide) (by decide)) rfl
    · exact pass (by decide) (noEnd (by decide) (by decide)) rfl
    · exact pass (by decide) (noEnd (by decide) (by decide)) rfl
    · -- SELBRI_4
      by_cases h3 : v = .selbri3
      · subst h3
        obtain ⟨_, j', v', ds', rest'', rfl, _⟩ := occ_parent hp hr (by decide) (by decide)
        by_cases h4 : v' = .selbri3
        · subst h4
          refine ⟨[], [], [], scope_nil .modifier, .nil, ?_, by simp⟩
          rw [tu2Walk.eq_def]
          simp [Node.isNT, pure, Except.pure, table]
        · refine pass (by decide) (fun h => by cases h; exact h4 rfl) ?_
          rw [tu2Walk.eq_def]
          simp [Node.isNT, h4]
      · refine pass (by decide) (fun h => by cases h; exact h3 rfl) ?_
        rw [tu2Walk.eq_def]
        simp [Node.isNT, h3]
    · exact pass (by decide) (noEnd (by decide) (by decide)) rfl
    · exact pass (by decide) (noEnd (by decide) (by decide)) rfl
    · exact pass (by decide) (noEnd (by decide) (by decide)) rfl

/-! ## The words -/

theorem occ_brivla {t : NT} {top : Node} (hp : Parse t top) {anc : List Node} {i : Nat} (h : Occ top anc (.brivla i)) :
    ∃ j v ds rest, anc = .nt j v ds :: rest ∧ Named v .brivla := by
  have hst := occ_stand hp h
  generalize e : Node.brivla i = y at hst
  cases hst with
  | top hq => subst e; obtain ⟨_, _, _, e, _⟩ := parse_inv hq; cases e
  | child _ _ _ _ hw => subst e; obtain ⟨_, _, _, e, _⟩ := parse_inv hw; cases e
  | word _ _ _ hn hw =>
    subst e
    cases hw with
    | alone hb => cases hb; exact ⟨_, _, _, _, rfl, hn⟩
  | put _ _ _ _ _ => cases e
  | inner _ _ _ _ hn hb _ => subst e; cases hb; exact ⟨_, _, _, _, rfl, hn⟩
  | bahe _ => cases e
  | indic hq =>
    cases hq with
    | word _ _ => cases e
    | marked _ _ _ => cases e
  | indicWord _ _ => cases e

theorem brivla_in : rules.all (fun r => !(r.rhs.contains .brivla) || r.lhs == .tanruUnit2) = true := by decide +kernel
theorem nu_in : rules.all (fun r => !(r.rhs.contains (.t .NU) || r.rhs.contains (.e .NU)) || r.lhs == .nuNaiSeq) = true := by decide +kernel
theorem seq_in : rules.all (fun r => !(r.rhs.contains (.n .nuNaiSeq)) || r.lhs == .nuNaiSeq || r.lhs == .abstraction) = true := by
  decide +kernel
theorem abstraction_in : rules.all (fun r => !(r.rhs.contains (.n .abstraction)) || r.lhs == .tanruUnit2) = true := by decide +kernel

theorem toTu2_eval {top : Node} (hp : Parse .chunks top) : ∀ (n : Nat) {i : Nat} {t : NT} {cs rest : List Node}, rest.length ≤ n →
    Occ top rest (.nt i t cs) → t = .nuNaiSeq ∨ t = .abstraction →
    ∃ pre j ds rest', .nt i t cs :: rest = pre ++ .nt j .tanruUnit2 ds :: rest' ∧ toTu2 (.nt i t cs :: rest) = .ok (.nt j .tanruUnit2 ds :: rest') ∧
      Occ top rest' (.nt j .tanruUnit2 ds) ∧ ∀ y ∈ pre, Of [.nuNaiSeq, .abstraction] y := by
  intro n
  induction n with
  | zero =>
    intro i t cs rest hl ho ht
    obtain ⟨_, _, _, _, _, rfl, _⟩ := occ_parent hp ho (by rcases ht with rfl | rfl <;> decide) (by rcases ht with rfl | rfl <;> decide)
    simp at hl
  | succ n ih =>
    intro i t cs rest hl ho ht
    obtain ⟨_, j, v, ds, rest', rfl, hr, _, _, r, hrr, rfl, hi⟩ := occ_parent hp ho (by rcases ht with rfl | rfl <;> decide)
      (by rcases ht with rfl | rfl <;> decide)
    have own : Of [.nuNaiSeq, .abstraction] (.nt i t cs) := ⟨_, _, _, rfl, by rcases ht with rfl | rfl <;> simp⟩
    have step : ∀ us, toTu2 (.nt j r.lhs ds :: rest') = .ok us → toTu2 (.nt i t cs :: .nt j r.lhs ds :: rest') = .ok us := by
      intro us h
      rw [toTu2, if_neg (by rcases ht with rfl | rfl <;> decide)]
      exact h
    by_cases hv : r.lhs = .tanruUnit2
    · refine ⟨[.nt i t cs], j, ds, rest', by rw [hv]; rfl, step _ ?_, hv ▸ hr, fun y hy => ?_⟩
      · rw [toTu2, if_pos hv, hv]; rfl
      · rw [List.mem_singleton.1 hy]; exact own
    · have : r.lhs = .nuNaiSeq ∨ r.lhs = .abstraction := by
        rcases ht with rfl | rfl
        · have := all_mem seq_in hrr
          simpa [hi] using this
        · have := all_mem abstraction_in hrr
          simp [hi, hv] at this
      obtain ⟨pre, j', ds', rest'', e, h1, h2, h3⟩ := ih (by simp at hl; omega) hr this
      refine ⟨_ :: pre, j', ds', rest'', by rw [e]; rfl, step _ h1, h2, fun y hy => ?_⟩
      rcases List.mem_cons.1 hy with rfl | hy
      · exact own
      · exact h3 y hy

theorem pre_scope {near up : List Node} {os : List Op} (hs : Scope CodeEnds up near) (ho : Ops near os) : ∀ (pre : List Node),
    (∀ y ∈ pre, Of [.nuNaiSeq, .abstraction] y) → Scope CodeEnds (pre ++ up) (pre ++ near) ∧ Ops (pre ++ near) os ∧
      ∀ i s cs, .nt i .seTu2 (s :: cs) ∈ pre ++ near ↔ .nt i .seTu2 (s :: cs) ∈ near := by
  intro pre
  induction pre with
  | nil => exact fun _ => ⟨hs, ho, fun _ _ _ => Iff.rfl⟩
  | cons y pre ih =>
    intro h
    obtain ⟨i, t, cs, rfl, ht⟩ := h y (List.mem_cons_self ..)
    obtain ⟨h1, h2, h3⟩ := ih (fun z hz => h z (List.mem_cons_of_mem _ hz))
    have ht : t = .nuNaiSeq ∨ t = .abstraction := by simpa using ht
    refine ⟨scope_cons ?_ h1, .other (by rcases ht with rfl | rfl <;> decide) h2, fun i' s cs' => ?_⟩
    · have : ∀ l, ¬ CodeEnds (.nt i t cs :: l) := by
        intro l hc
        rcases ht with rfl | rfl <;> cases hc
      exact this _
    · rw [← h3]
      constructor
      · intro h
        rcases List.mem_cons.1 h with e | h
        · cases e; rcases ht with e | e <;> cases e
        · exact h
      · exact fun h => List.mem_cons_of_mem _ h

theorem tu2_at {top : Node} (hp : Parse .chunks top) (done : Nat → Bool) (anc : List Node) (x : Node) (ho : Occ top anc x) :
    ∃ es, tu2Node done anc x = .ok es ∧ ∀ e, e ∈ es ↔ PlaceTold CodeEnds done anc x e := by
  -- a word with places
  have main : ∀ (pre : List Node) (j : Nat) (ds rest : List Node), anc = pre ++ .nt j .tanruUnit2 ds :: rest → Occ top rest (.nt j .tanruUnit2 ds) →
      (∀ y ∈ pre, Of [.nuNaiSeq, .abstraction] y) → Places x →
      ∃ es, tu2Conv done (.nt j .tanruUnit2 ds :: rest) x = .ok es ∧ ∀ e, e ∈ es ↔ PlaceTold CodeEnds done anc x e := by
    intro pre j ds rest e hr hpre hx
    cases hd : done x.id with
    | true =>
      refine ⟨[], by rw [tu2Conv, hd]; rfl, fun e => ⟨nofun, fun h => ?_⟩⟩
      cases h with
      | conv _ h _ _ => rw [hd] at h; cases h
      | se _ h _ _ _ => rw [hd] at h; cases h
    | false =>
      obtain ⟨near, os, ks, s1, s2, s3, s4⟩ := walk_eval hp _ [] (Nat.le_refl _) hr (.inr (by decide))
      obtain ⟨p1, p2, p3⟩ := pre_scope s1 s2 pre hpre
      rw [← e] at p1
      refine ⟨.conv x.id (placeThrough os.reverse 1) :: ks.map .dontGloss, ?_, fun e => ?_⟩
      · rw [List.append_nil] at s3
        have s3 : tu2Walk [1, 2, 3, 4, 5] (.nt j .tanruUnit2 ds :: rest) = .ok (placeThrough os.reverse 1, ks) := s3
        rw [tu2Conv, hd, s3]; rfl
      · rw [List.mem_cons, List.mem_map]
        constructor
        · rintro (rfl | ⟨k, hk, rfl⟩)
          · exact .conv hx hd p1 p2
          · obtain ⟨i, s, cs, w, hm, hw⟩ := (s4 k).1 hk
            exact .se hx hd p1 ((p3 _ _ _).2 hm) hw
        · intro h
          cases h with
          | conv _ _ q1 q2 =>
            cases scope_unique p1 q1
            rw [ops_unique p2 q2]
            exact .inl rfl
          | se _ _ q1 hm hw =>
            cases scope_unique p1 q1
            exact .inr ⟨_, (s4 _).2 ⟨_, _, _, _, (p3 _ _ _).1 hm, hw⟩, rfl⟩
  have none : (∀ i, x ≠ .brivla i) → (∀ i w, x ≠ .cmavo i .NU w) → ∃ es, tu2Node done anc x = .ok es ∧ ∀ e, e ∈ es ↔ PlaceTold CodeEnds done anc x e := by
    intro h1 h2
    have np : ¬ Places x := by
      rintro (⟨i, e⟩ | ⟨i, w, e⟩)
      · exact h1 i e
      · exact h2 i w e
    refine ⟨[], ?_, fun e => ⟨nofun, fun h => ?_⟩⟩
    · unfold tu2Node
      split
      · exact absurd rfl (h1 _)
      · exact absurd rfl (h2 _ _)
      · rfl
    · cases h with
      | conv h _ _ _ => exact absurd h np
      | se h _ _ _ _ => exact absurd h np
  by_cases h1 : ∃ i, x = .brivla i
  · obtain ⟨i, rfl⟩ := h1
    obtain ⟨j, v, ds, rest, rfl, r, hr, rfl, hi⟩ := occ_brivla hp ho
    have hv : r.lhs = .tanruUnit2 := by simpa [hi] using all_mem brivla_in hr
    have h3 := (occ_anc ho [] _ _ rfl).1
    rw [hv] at h3 ho main ⊢
    exact main [] j ds rest rfl h3 nofun (.inl ⟨_, rfl⟩)
  by_cases h2 : ∃ i w, x = .cmavo i .NU w
  · obtain ⟨i, w, rfl⟩ := h2
    obtain ⟨_, j, v, ds, rest, rfl, _, hn, _⟩ := occ_cmavo hp ho (by decide) (by decide)
    have hv : v = .nuNaiSeq := by
      rcases hn with ⟨r, hr, rfl, hi⟩ | ⟨r, hr, rfl, hi⟩ <;> simpa [hi] using all_mem nu_in hr
    subst hv
    obtain ⟨pre, j', ds', rest', e, t1, t2, t3⟩ := toTu2_eval hp _ (Nat.le_refl _) (occ_anc ho [] _ _ rfl).1 (.inl rfl)
    obtain ⟨es, m1, m2⟩ := main pre j' ds' rest' e t2 t3 (.inr ⟨_, _, rfl⟩)
    exact ⟨es, by rw [tu2Node, t1]; exact m1, m2⟩
  · exact none (fun i e => h1 ⟨i, e⟩) (fun i w e => h2 ⟨i, w, e⟩)

/-- What the pass does on every tree of the grammar. -/
theorem places_any (top : Node) (hp : Parse .chunks top) (done : Nat → Bool) :
    ∃ log, markTu2s done top = .ok log ∧ ∀ e, e ∈ log ↔ ∃ anc x, Occ top anc x ∧ PlaceTold CodeEnds done anc x e :=
  pass_logs (Q := PlaceTold CodeEnds done) top fun anc x ho => ⟨occ_augOk hp ho, tu2_at hp done anc x ho⟩

/-! ## Texts without `bo` -/

theorem bo_ends {top : Node} (hb : NoBo top) (hp : Parse .chunks top) {anc : List Node} {x : Node} (ho : Occ top anc x) {near rest : List Node} (e : anc = near ++ rest) :
    Ends rest ↔ CodeEnds rest := by
  have sub : ∀ a y r, rest = a ++ y :: r → Occ top r y := fun a y r h => (occ_anc ho (near ++ a) y r (by rw [e, h, List.append_assoc])).1
  constructor
  · intro h
    cases h with
    | modifier => exact .modifier
    | @bo i j as b c cs r =>
      obtain ⟨_, e⟩ := hb _ _ _ (sub [_] _ _ rfl)
      cases e
    | whole _ => exact .whole
  · intro h
    cases h with
    | modifier => exact .modifier
    | @whole i as r =>
      refine .whole fun hf => ?_
      have key : ∀ r, Forethought r → (∀ a y r', r = a ++ y :: r' → Occ top r' y) → False := by
        intro r hf
        induction hf with
        | @here i j k as bs cs r =>
          intro hs
          obtain ⟨c, rfl⟩ := hb _ _ _ (hs [_, _] _ _ rfl)
          -- the only child would be a selbri
          obtain ⟨_, j', v, ds, rest', e, _, hv, hm, hn⟩ := occ_parent hp (hs [_] _ _ rfl) (by decide) (by decide)
          cases e
          cases List.mem_singleton.1 hm
          obtain ⟨_, its, _, e, hf, hk⟩ := on_use selbri6_only hv
          cases e
          have h1 := kid_named hk (by decide) (List.mem_singleton.2 rfl)
          have h2 := kids_length hk
          simp only [Bool.or_eq_true, Bool.not_eq_true', List.contains_eq_mem, decide_eq_false_iff_not, decide_eq_true_eq] at hf
          rcases hf with hf | hf
          · exact hf h1
          · have := many hk hf
            simp at this
        | na _ ih => intro hs; exact ih fun a y r' e => hs (_ :: _ :: a) y r' (by rw [e]; rfl)
      exact key r hf fun a y r' e => sub (_ :: a) y r' (by rw [e]; rfl)

/-- **SE before units of tanru.**  On every tree of the grammar in which no tanru has `bo` or a forethought connection,
every brivla and abstractor for which this has not been done before knows which of its places is the first place of the unit
of which it is the last part. -/
theorem places_partial (top : Node) (hp : Parse .chunks top) (hb : NoBo top) (done : Nat → Bool) :
    ∃ log, markTu2s done top = .ok log ∧ ∀ e, e ∈ log ↔ ∃ anc x, Occ top anc x ∧ PlaceTold Ends done anc x e := by
  obtain ⟨log, h1, h2⟩ := places_any top hp done
  refine ⟨log, h1, fun e => ?_⟩
  rw [h2]
  have sc : ∀ {anc x near}, Occ top anc x → (Scope CodeEnds anc near ↔ Scope Ends anc near) := by
    intro anc x near ho
    constructor
    · rintro ⟨rest, rfl, h1, h2⟩
      refine ⟨rest, rfl, (bo_ends hb hp ho rfl).2 h1, fun a b e hne h => h2 a b e hne ?_⟩
      subst e
      exact (bo_ends hb hp ho (List.append_assoc ..)).1 h
    · rintro ⟨rest, rfl, h1, h2⟩
      refine ⟨rest, rfl, (bo_ends hb hp ho rfl).1 h1, fun a b e hne h => h2 a b e hne ?_⟩
      subst e
      exact (bo_ends hb hp ho (List.append_assoc ..)).2 h
  constructor
  · rintro ⟨anc, x, ho, h⟩
    refine ⟨anc, x, ho, ?_⟩
    cases h with
    | conv a b c d => exact .conv a b ((sc ho).1 c) d
    | se a b c d e => exact .se a b ((sc ho).1 c) d e
  · rintro ⟨anc, x, ho, h⟩
    refine ⟨anc, x, ho, ?_⟩
    cases h with
    | conv a b c d => exact .conv a b ((sc ho).2 c) d
    | se a b c d e => exact .se a b ((sc ho).2 c) d e

/-! ## Examples -/

/-- A check for the spec. -/
def forethoughtB : List Node → Bool
  | .nt _ t _ :: .nt _ u _ :: r => t == .selbri1 && u == .selbri && ((match r with
    | .nt _ v _ :: _ => v == .selbri6
    | _ => false) || forethoughtB r)
  | _ => false

theorem forethoughtB_sound : ∀ (n : Nat) {l : List Node}, l.length ≤ n → forethoughtB l = true → Forethought l := by
  intro n
  induction n with
  | zero => intro l hl h; cases l <;> simp [forethoughtB] at hl h
  | succ n ih =>
    intro l hl h
    unfold forethoughtB at h
    split at h
    · simp only [Bool.and_eq_true, Bool.or_eq_true, beq_iff_eq] at h
      obtain ⟨⟨rfl, rfl⟩, h⟩ := h
      rcases h with h | h
      · split at h
        · simp only [beq_iff_eq] at h
          subst h
          exact .here
        · cases h
      · exact .na (ih (by simp at hl; omega) h)
    · cases h

theorem forethoughtB_complete {l : List Node} (h : Forethought l) : forethoughtB l = true := by
  induction h with
  | here => simp [forethoughtB]
  | na _ ih => unfold forethoughtB; simp [ih]

def endsB : List Node → Bool
  | .nt _ .selbri4 _ :: .nt _ .selbri3 _ :: .nt _ .selbri3 _ :: _ => true
  | .nt _ .tanruUnit _ :: .nt _ .selbri6 (_ :: _ :: _) :: _ => true
  | .nt _ .selbri2 _ :: r => !forethoughtB r
  | _ => false

theorem endsB_iff {l : List Node} : endsB l = true ↔ Ends l := by
  constructor
  · intro h
    unfold endsB at h
    split at h
    · exact .modifier
    · exact .bo
    · refine .whole fun hf => ?_
      rw [forethoughtB_complete hf] at h
      cases h
    · cases h
  · intro h
    cases h with
    | modifier => rfl
    | bo => rfl
    | whole hf =>
      simp only [endsB, Bool.not_eq_true', Bool.eq_false_iff]
      exact fun h => hf (forethoughtB_sound _ (Nat.le_refl _) h)

def scopeB : List Node → Option (List Node)
  | [] => none
  | x :: r => if endsB (x :: r) then some [] else (scopeB r).map (x :: ·)

theorem scopeB_sound : ∀ {l near : List Node}, scopeB l = some near → Scope Ends l near := by
  intro l
  induction l with
  | nil => intro near h; cases h
  | cons x r ih =>
    intro near h
    rw [scopeB] at h
    split at h
    · rename_i he
      cases h
      exact scope_nil (endsB_iff.1 he)
    · rename_i he
      obtain ⟨near', h1, rfl⟩ := Option.map_eq_some_iff.1 h
      exact scope_cons (fun h => he (endsB_iff.2 h)) (ih h1)

def opsB : List Node → Option (List Op)
  | [] => some []
  | .nt _ .seTu2 (.cmavo _ .SE w :: _) :: r => match sePlaces.find? (·.1 == w) with
    | some p => (opsB r).map (.conv p.2 :: ·)
    | none => none
  | .nt _ .seTu2 _ :: _ => none
  | .nt _ .jaiTu2 _ :: r => (opsB r).map (.jai :: ·)
  | .nt _ .jaiTagTu2 _ :: r => (opsB r).map (.jai :: ·)
  | .nt _ _ _ :: r => opsB r
  | _ => none

theorem opsB_sound : ∀ {l : List Node} {os : List Op}, opsB l = some os → Ops l os := by
  intro l
  induction l with
  | nil => intro os h; cases h; exact .nil
  | cons x r ih =>
    intro os h
    unfold opsB at h
    split at h
    · cases ‹_ :: _ = _›
    · rename_i e
      cases e
      split at h
      · rename_i p hp
        obtain ⟨os', h1, rfl⟩ := Option.map_eq_some_iff.1 h
        have h2 := List.mem_of_find?_eq_some hp
        have h3 := List.find?_some hp
        simp only [beq_iff_eq] at h3
        exact .se .alone (by rw [← h3]; exact h2) (ih h1)
      · cases h
    · cases h
    · rename_i e; cases e
      obtain ⟨os', h1, rfl⟩ := Option.map_eq_some_iff.1 h
      exact .jai (.inl rfl) (ih h1)
    · rename_i e; cases e
      obtain ⟨os', h1, rfl⟩ := Option.map_eq_some_iff.1 h
      exact .jai (.inr rfl) (ih h1)
    · rename_i h1 h2 h3 h4 e; cases e
      refine .other ?_ (ih h)
      simp only [List.mem_cons, List.not_mem_nil, or_false]
      rintro (rfl | rfl | rfl)
      · exact h2 rfl
      · exact h3 rfl
      · exact h4 rfl
    · cases h

/-- What the words are to know, by the end of a path. -/
theorem told_of {top : Node} (p : List Nat) {i : Nat} {os : List Op}
    (h : (down [] top p).bind (fun q => match q.2 with
      | .brivla j => if j = i then (scopeB q.1).bind opsB else none
      | _ => none) = some os) :
    ∃ anc x, Occ top anc x ∧ PlaceTold Ends (fun _ => false) anc x (.conv i (placeThrough os.reverse 1)) := by
  obtain ⟨⟨anc, x⟩, h1, h2⟩ := Option.bind_eq_some_iff.1 h
  cases x <;> simp only [reduceCtorEq] at h2
  split at h2
  · rename_i e
    subst e
    obtain ⟨near, h3, h4⟩ := Option.bind_eq_some_iff.1 h2
    exact ⟨anc, _, down_occ p .top h1, .conv (.inl ⟨_, rfl⟩) rfl (scopeB_sound h3) (opsB_sound h4)⟩
  · cases h2

/-- *mi* and a unit. -/
def miUnit (u : List Node) : Node := textOf (up [.noCuSentence] (koha 10 "mi" ++ tailOf' u []))

/-- A unit with SE. -/
def seUnit (w : String) (i : Nat) (u : List Node) : List Node := [.nt i .seTu2 [.cmavo (i + 1) .SE w, .nt 0 .tanruUnit2 u]]

/-- A unit of a tanru between `ke` and `ke'e`. -/
def keUnit (s6 : Node) : List Node := [.nt 0 .keSelbri3Tu2 (.cmavo 50 .KE "ke" :: up [.selbri3, .selbri4, .selbri5] [s6])]

mutual
def noBoB : Node → Bool
  | .nt _ t cs => (t != .selbri6 || cs.length == 1) && noBoBs cs
  | _ => true
def noBoBs : List Node → Bool
  | [] => true
  | c :: cs => noBoB c && noBoBs cs
end

theorem noBoBs_mem {cs : List Node} (h : noBoBs cs = true) : ∀ c ∈ cs, noBoB c = true := by
  induction cs with
  | nil => simp
  | cons c cs ih =>
    rw [noBoBs, Bool.and_eq_true] at h
    intro d hd
    rcases List.mem_cons.1 hd with rfl | hd
    · exact h.1
    · exact ih h.2 d hd

theorem noBo_of {top : Node} (h : noBoB top = true) : NoBo top := by
  have key : ∀ {anc x}, Occ top anc x → noBoB x = true := by
    intro anc x ho
    induction ho with
    | top => exact h
    | child _ _ hc ih => rw [noBoB, Bool.and_eq_true] at ih; exact noBoBs_mem ih.2 _ hc
    | word _ _ _ ih => rw [noBoB, Bool.and_eq_true] at ih; exact noBoBs_mem ih.2 _ (by simp)
    | before _ _ hm ih => rw [noBoB, Bool.and_eq_true] at ih; exact noBoBs_mem ih.2 _ (by simp [hm])
    | after _ _ _ hm ih => rw [noBoB, Bool.and_eq_true] at ih; exact noBoBs_mem ih.2 _ (by simp [hm])
  intro anc i cs ho
  have := key ho
  rw [noBoB, Bool.and_eq_true] at this
  have h1 : cs.length = 1 := by simpa using this.1
  exact List.length_eq_one_iff.1 h1

set_option maxRecDepth 10000 in
/-- *mi se te broda*: the first place of the whole is the second of *broda*. -/
example : Parse .chunks (miUnit (seUnit "se" 60 (seUnit "te" 62 [.brivla 64]))) ∧
    NoBo (miUnit (seUnit "se" 60 (seUnit "te" 62 [.brivla 64]))) ∧
    markTu2s (fun _ => false) (miUnit (seUnit "se" 60 (seUnit "te" 62 [.brivla 64]))) = .ok [.conv 64 2, .dontGloss 63, .dontGloss 61] :=
  ⟨parse_of (by decide +kernel), noBo_of (by decide), rfl⟩

set_option maxRecDepth 10000 in
/-- **A defect.**  In *mi se ke broda bo brode ke'e* the modifier *broda* is taken to be converted by `se`. -/
theorem bo_converted :
    let top := miUnit (seUnit "se" 60 (keUnit (.nt 0 .selbri6 (up [.tanruUnit, .tanruUnit1, .tanruUnit2] [.brivla 64] ++
      .cmavo 66 .BO "bo" :: up [.selbri6, .tanruUnit, .tanruUnit1, .tanruUnit2] [.brivla 65]))))
    Parse .chunks top ∧ markTu2s (fun _ => false) top = .ok [.conv 64 2, .dontGloss 61, .conv 65 2, .dontGloss 61] ∧
      ∃ anc x, Occ top anc x ∧ PlaceTold Ends (fun _ => false) anc x (.conv 64 1) :=
  ⟨parse_of (by decide +kernel), rfl, told_of [0, 0, 0, 0, 0, 0, 0, 0, 0, 0, 0, 1, 0, 0, 0, 0, 0, 0, 0, 0, 0, 0, 0, 0, 0, 0, 0, 1, 0, 1, 0, 0, 0, 0, 0, 0, 0] (os := []) rfl⟩

set_option maxRecDepth 10000 in
/-- **A defect.**  In *mi se ke gu'e broda gi brode ke'e* the first part is taken not to be converted by `se`. -/
theorem guhe_not_converted :
    let top := miUnit (seUnit "se" 60 (keUnit (.nt 0 .selbri6 (up [.guhek] [.cmavo 66 .GUhA "gu'e"] ++ selbriOf [.brivla 64] ++
      up [.gik] [.cmavo 67 .GI "gi"] ++ up [.selbri6, .tanruUnit, .tanruUnit1, .tanruUnit2] [.brivla 65]))))
    Parse .chunks top ∧ markTu2s (fun _ => false) top = .ok [.conv 64 1, .conv 65 2, .dontGloss 61] ∧
      ∃ anc x, Occ top anc x ∧ PlaceTold Ends (fun _ => false) anc x (.conv 64 2) :=
  ⟨parse_of (by decide +kernel), rfl, told_of [0, 0, 0, 0, 0, 0, 0, 0, 0, 0, 0, 1, 0, 0, 0, 0, 0, 0, 0, 0, 0, 0, 0, 0, 0, 0, 0, 1, 0, 1, 0, 0, 0, 1, 0, 0, 0, 0, 0, 0, 0, 0, 0, 0]
    (os := [.conv 2]) rfl⟩

end Jbo.Convert
