import Verif.ConvertScanLem
import Verif.ConvertBaiThm
/-!
# The scan for tanru: every call is correct
-/

namespace Jbo.Convert
open Jbo.Terms Jbo.Gram Spec
open Jbo.Terms.Spec (kids)

theorem word_item {it : Item} {c : Node} (h : WordR it c) (hn : it ≠ .t .BAhE) {j : Nat} {s : Terms.Sel} {w : String}
    (hw : Terms.Spec.Word c j s w) : it = .t s := by
  cases hw with
  | alone => cases h with
    | alone hb => cases hb; rfl
  | @marked k _ _ _ bs rs hb hs =>
    generalize e : Node.nt k .augmented (bs ++ .cmavo j s w :: rs) = y at h
    cases h with
    | alone hb => subst e; cases hb
    | marked hb2 hbase hr =>
      injection e with _ _ e
      obtain ⟨rfl, rfl, rfl⟩ := split_unique' (fun b h => by obtain ⟨_, _, rfl⟩ := hb b h; rfl) (fun _ h => bahe_isSel hb2 h)
        (by simp [Node.isSel, hs]) (base_not_bahe hbase hn) e
      cases hbase; rfl

theorem look_other_word {it : Item} {c : Node} (h : WordR it c) {s : Terms.Sel} (hs : Plain s) (hi : it ≠ .t s) : look s [c] = none := by
  have base : ∀ {x : Node}, Base it x → x.isSel s = false := by
    intro x hx
    cases hx with
    | @cmavo i s' w hm =>
      have : s' ≠ s := fun e => hi (e ▸ rfl)
      simp [Node.isSel, this]
    | brivla => rfl
    | zei => rfl
    | leaf => rfl
  cases h with
  | alone hb =>
    have h1 := base hb
    have h2 : opened c = [c] := by cases hb <;> rfl
    simp [look, h2, h1]
  | @marked x j bs rs hb hx hr =>
    have h2 : rs.find? (·.isSel s) = none := by
      rw [List.find?_eq_none]
      intro r h
      simp [indic_find hs (hr r h)]
    have h4 : look s [.nt j .augmented (bs ++ x :: rs)] = (bs ++ x :: rs).find? (·.isSel s) := by
      rw [look, List.flatMap_cons, List.flatMap_nil, List.append_nil]; rfl
    rw [h4, List.find?_append, bahe_find hs hb, List.find?_cons, base hx, h2]
    rfl

theorem look_kids {s : Terms.Sel} (hs : Plain s) {its : List Item} {cs : List Node} (h : Kids Parse its cs) (he : .e s ∉ its) (hb : .t .BAhE ∉ its) :
    (its.count (.t s) = 0 → look s cs = none ∧ ∀ c ∈ cs, ∀ j w, ¬ Terms.Spec.Word c j s w) ∧
    (its.count (.t s) = 1 → ∃ c ∈ cs, ∃ j w, look s cs = some (.cmavo j s w) ∧ Terms.Spec.Word c j s w ∧
      ∀ d ∈ cs, ∀ j' w', Terms.Spec.Word d j' s w' → j' = j) := by
  have skip : ∀ {it : Item} {c : Node} {its : List Item} {cs : List Node}, it ≠ .t s → look s [c] = none → (∀ j w, ¬ Terms.Spec.Word c j s w) →
      ((its.count (.t s) = 0 → look s cs = none ∧ ∀ c ∈ cs, ∀ j w, ¬ Terms.Spec.Word c j s w) ∧
      (its.count (.t s) = 1 → ∃ c ∈ cs, ∃ j w, look s cs = some (.cmavo j s w) ∧ Terms.Spec.Word c j s w ∧
        ∀ d ∈ cs, ∀ j' w', Terms.Spec.Word d j' s w' → j' = j)) →
      (((it :: its).count (.t s) = 0 → look s (c :: cs) = none ∧ ∀ d ∈ c :: cs, ∀ j w, ¬ Terms.Spec.Word d j s w) ∧
      ((it :: its).count (.t s) = 1 → ∃ d ∈ c :: cs, ∃ j w, look s (c :: cs) = some (.cmavo j s w) ∧ Terms.Spec.Word d j s w ∧
        ∀ d ∈ c :: cs, ∀ j' w', Terms.Spec.Word d j' s w' → j' = j)) := by
    intro it c its cs hi hl hw ⟨ih0, ih1⟩
    rw [List.count_cons_of_ne hi, look_cons, hl]
    constructor
    · intro h0
      obtain ⟨a, b⟩ := ih0 h0
      refine ⟨by rw [a]; rfl, ?_⟩
      intro d hd
      rcases List.mem_cons.1 hd with rfl | hd'
      · exact hw
      · exact b d hd'
    · intro h1
      obtain ⟨d, hd, j, w, a, b, k⟩ := ih1 h1
      refine ⟨d, List.mem_cons_of_mem _ hd, j, w, by rw [a]; rfl, b, ?_⟩
      intro d' hd' j' w' hw'
      rcases List.mem_cons.1 hd' with rfl | hd''
      · exact absurd hw' (hw _ _)
      · exact k d' hd'' j' w' hw'
  induction h with
  | nil => exact ⟨fun _ => ⟨rfl, by nofun⟩, by nofun⟩
  | @n t c its cs hp _ ih =>
    have ih := ih (fun h => he (List.mem_cons_of_mem _ h)) (fun h => hb (List.mem_cons_of_mem _ h))
    refine skip (by nofun) ?_ ?_ ih
    · have ha := parse_not_aug hp
      obtain ⟨i, ds, _, rfl, _⟩ := parse_inv hp
      have : opened (.nt i t ds) = [.nt i t ds] := by
        unfold opened; split
        · rename_i e; cases e; exact absurd rfl ha
        · rfl
      simp [look, this, Node.isSel]
    · intro j w hw
      have ha := parse_not_aug hp
      obtain ⟨i, ds, _, rfl, _⟩ := parse_inv hp
      cases hw
      exact ha rfl
  | @word it c its cs hw _ ih =>
    have ih := ih (fun h => he (List.mem_cons_of_mem _ h)) (fun h => hb (List.mem_cons_of_mem _ h))
    have hn : it ≠ .t .BAhE := fun e => hb (e ▸ List.mem_cons_self ..)
    by_cases hi : it = .t s
    · subst hi
      rw [List.count_cons_self]
      refine ⟨by omega, fun h1 => ?_⟩
      obtain ⟨a, b⟩ := ih.1 (by omega)
      obtain ⟨j, w, hw1, hw2⟩ := word_word hw hs.1
      have hcl : Clean c j s w := by
        cases hw with
        | alone hbs => cases hbs with
          | cmavo hm => cases hw2; exact .alone hm
        | marked hb' hbs hr => cases hbs with
          | cmavo hm =>
            obtain ⟨rfl, _, rfl⟩ := word_unique hs.1 hs.1 hw2 (.marked hb'.any hs.1)
            exact .marked hb' hs.1 hm hr
      refine ⟨c, List.mem_cons_self .., j, w, ?_, hw2, ?_⟩
      · rw [look_cons, look_clean hs hcl, if_pos rfl]; rfl
      · intro d hd j' w' hw'
        rcases List.mem_cons.1 hd with rfl | hd'
        · exact (word_unique hs.1 hs.1 hw' hw2).1
        · exact absurd hw' (b d hd' j' w')
    · refine skip hi (look_other_word hw hs hi) ?_ ih
      intro j w hw'
      exact hi (word_item hw hn hw')
  | @put s' i w its cs hw _ ih =>
    have ih := ih (fun h => he (List.mem_cons_of_mem _ h)) (fun h => hb (List.mem_cons_of_mem _ h))
    have hne : s' ≠ s := fun e => he (e ▸ List.mem_cons_self ..)
    refine skip (by nofun) ?_ ?_ ih
    · simp [look, opened, Node.isSel, hne]
    · intro j v hv; cases hv; exact hne rfl
  | out _ ih =>
    have ih := ih (fun h => he (List.mem_cons_of_mem _ h)) (fun h => hb (List.mem_cons_of_mem _ h))
    rw [List.count_cons_of_ne (by nofun)]
    exact ih

/-! ## Abstractors -/

theorem scanNu_rules : on .nuNaiSeq (fun its => its.count (.t .NU) == 1 && decide (cnt its .nuNaiSeq ≤ 1) && !its.contains (.e .NU) &&
    !its.contains (.t .BAhE)) = true := by decide +kernel

theorem nuLoop_ok {B : Ev → Prop} {b : Bool} {x : Node} {st0 : St} : ∀ (fuel : Nat) {y : Node} {st : St}, y.depth ≤ fuel → Parse .nuNaiSeq y →
    Frame B b x st0 st → (∀ e, Mark y e → B e) →
    ∃ st', nuLoop fuel y st = .ok st' ∧ Frame B b x st0 st' ∧ Le st st' ∧ ∀ e, Mark y e → e ∈ st'.2 := by
  intro fuel
  induction fuel with
  | zero =>
    intro y st hd hp
    obtain ⟨_, _, _, rfl, _⟩ := parse_inv hp
    rw [depth_nt] at hd; omega
  | succ fuel ih =>
    intro y st hd hp fr hm
    obtain ⟨i, its, cs, rfl, hr, hk⟩ := on_use scanNu_rules hp
    simp only [Bool.and_eq_true, beq_iff_eq, decide_eq_true_eq, Bool.not_eq_true', List.contains_eq_mem, decide_eq_false_iff_not] at hr
    obtain ⟨⟨⟨h1, h2⟩, h3⟩, h4⟩ := hr
    obtain ⟨c, hc, j, w, hl, hw, hu⟩ := (look_kids (s := .NU) ⟨by decide, by decide⟩ hk h3 h4).2 h1
    have f1 : Frame B b x st0 (mark (.cmavo j .NU w) st) := mark_frame fr (hm _ (.nu hc hw))
    have own : ∀ d ∈ cs, ∀ j' w', Terms.Spec.Word d j' .NU w' → Ev.tertau j' ∈ (mark (.cmavo j .NU w) st).2 := by
      intro d hd j' w' hw'
      rw [hu d hd j' w' hw']
      exact mark_mem _ _
    rw [nuLoop]
    rcases kids_le hk (by decide) h2 with kt | ⟨d, kt, pt⟩
    · refine ⟨mark (.cmavo j .NU w) st, ?_, f1, mark_le _ _, ?_⟩
      · rw [find_look, hl, find_kids, kt]; rfl
      · intro e he
        cases he with
        | down hs hdm hv he' =>
          simp only [steps, List.mem_cons, Prod.mk.injEq, reduceCtorEq, false_and, List.not_mem_nil, or_false, false_or, true_and] at hs
          subst hs
          exact (none_mem kt hdm hv).elim
        | nu hdm hw' => exact own _ hdm _ _ hw'
    · obtain ⟨mt, nt⟩ := one_in kt
      obtain ⟨st2, e2, f2, l2, c2⟩ := ih (y := d) (by have := mem_depth (t := .nuNaiSeq) (i := i) mt; omega) pt f1
        (fun e he => hm e (.down (u := .nuNaiSeq) (by decide) mt nt he))
      refine ⟨st2, ?_, f2, le_trans (mark_le _ _) l2, ?_⟩
      · rw [find_look, hl, find_kids, kt]
        exact e2
      · intro e he
        cases he with
        | down hs hdm hv he' =>
          simp only [steps, List.mem_cons, Prod.mk.injEq, reduceCtorEq, false_and, List.not_mem_nil, or_false, false_or, true_and] at hs
          subst hs
          rw [one_mem kt hdm hv] at he'
          exact c2 _ he'
        | nu hdm hw' => exact l2.2 _ (own _ hdm _ _ hw')

/-! ## Units -/

theorem skip_bahe {bs : List Node} (hb : AllBahe bs) {c : Node} (hc : c.isSel .BAhE = false) (rs : List Node) : skipBahe (bs ++ c :: rs) = .ok c := by
  induction bs with
  | nil =>
    rw [List.nil_append]
    unfold skipBahe; split
    · rename_i e; cases e; simp [Node.isSel] at hc
    · rename_i e; cases e; rfl
    · rename_i e; cases e
  | cons b bs ih =>
    obtain ⟨k, v, rfl, _⟩ := hb b (List.mem_cons_self ..)
    rw [List.cons_append, skipBahe]
    exact ih (fun b hb' => hb b (List.mem_cons_of_mem _ hb'))

def unitNTs : List NT := [.seTu2, .jaiTu2, .naheTu2, .jaiTagTu2, .abstraction]

def unitRule : List Item → Bool
  | [.n t] => (unitNTs ++ [NT.keSelbri3Tu2, .numberMoiTu2]).contains t
  | .n _ :: _ => false
  | .e _ :: _ => false
  | .t .BAhE :: _ => false
  | [] => false
  | its => unitNTs.all (fun u => cnt its u == 0)

def absRule : List Item → Bool
  | .n t :: r => t == .nuNaiSeq && cnt r .nuNaiSeq == 0
  | _ => false

theorem scan2_rules : on .tanruUnit2 unitRule = true := by decide +kernel
theorem scanSe_rules : on .seTu2 (fun its => cnt its .tanruUnit2 == 1) = true := by decide +kernel
theorem scanJai_rules : on .jaiTagTu2 (fun its => match its with
    | .t _ :: r => cnt r .tanruUnit2 == 1
    | _ => false) = true := by decide +kernel
theorem scanAbs_rules : on .abstraction absRule = true := by decide +kernel

section
variable {f : Bool → Node → St → M St} {n : Nat} (hf : Correct f n) {B : Ev → Prop} {b : Bool} {x : Node} {st0 : St}
include hf

/-- The unit inside SE, JAI and NAhE. -/
theorem inner_ok {t : NT} (ht : (t, NT.tanruUnit2) ∈ steps) (hst : ∀ v, (t, v) ∈ steps → v = .tanruUnit2) (ht3 : t ≠ .selbri3) {i : Nat}
    {cs : List Node} {its : List Item} (hk : Kids Parse its cs) (hc : cnt its .tanruUnit2 = 1) {b' : Bool} {st : St}
    (hd : (Node.nt i t cs).depth ≤ n) (ins : Ins b x b' (.nt i t cs)) (fr : Frame B b x st0 st) (hm : ∀ e, Mark (.nt i t cs) e → B e) :
    ∃ c st', kids cs .tanruUnit2 = [c] ∧ f true c st = .ok st' ∧ Frame B b x st0 st' ∧ Le st st' ∧
      ∀ u d e, (t, u) ∈ steps → d ∈ cs → d.isNT u = true → Mark d e → e ∈ st'.2 := by
  obtain ⟨c, kc, pc⟩ := kids_one hk (by decide) hc
  obtain ⟨mc, nc⟩ := one_in kc
  have kid : Ins b x false c := by
    have := ins_trans ins (ins_child ins.nodup mc)
    simpa [ht3] using this
  obtain ⟨st', g1, g2, g3, _, g5⟩ := call hf fr kid (by have := mem_depth (t := t) (i := i) mc; omega) (last := true)
    (.inl ⟨_, pc, fun _ => by decide⟩) (by nofun) (fun _ e he => hm e (.down ht mc nc he))
  refine ⟨c, st', kc, g1, g2, g3, ?_⟩
  intro u d e hs hdm hu he
  obtain rfl := hst u hs
  rw [one_mem kc hdm hu] at he
  exact g5 rfl e he

theorem unit_ok {fuel : Nat} {b' : Bool} {y : Node} {st : St} (hd : y.depth ≤ n) (hfu : y.depth ≤ fuel) (hp : Parse .tanruUnit2 y) (ins : Ins b x b' y)
    (fr : Frame B b x st0 st) (hm : ∀ e, Mark y e → B e) :
    ∃ st', unitScan f fuel y st = .ok st' ∧ Frame B b x st0 st' ∧ Le st st' ∧ ∀ e, Mark y e → e ∈ st'.2 := by
  obtain ⟨i, its, cs, rfl, hr, hk⟩ := on_use scan2_rules hp
  -- a word
  have wordy : ∀ {it : Item} {r : List Item}, its = it :: r → (∀ t, it ≠ .n t) → (∀ s, it ≠ .e s) → it ≠ .t .BAhE → (unitNTs.all (fun u => cnt its u == 0)) = true →
      ∃ st', unitScan f fuel (.nt i .tanruUnit2 cs) st = .ok st' ∧ Frame B b x st0 st' ∧ Le st st' ∧ ∀ e, Mark (.nt i .tanruUnit2 cs) e → e ∈ st'.2 := by
    intro it r e1 hn he hbh hz
    have nodown : ∀ {u : NT} {d : Node}, (NT.tanruUnit2, u) ∈ steps → d ∈ cs → d.isNT u = true → False := by
      intro u d hs hdm hu
      have hmem : u ∈ unitNTs := by revert hs; simp [steps, unitNTs]
      have h0 : cnt its u = 0 := by simpa using List.all_eq_true.1 hz u hmem
      exact none_mem (kids_zero hk (by rintro rfl; revert hmem; decide) h0) hdm hu
    subst e1
    obtain ⟨c, ds, rfl, hw⟩ : ∃ c ds, cs = c :: ds ∧ WordR it c := by
      cases hk with
      | n => exact absurd rfl (hn _)
      | word hw _ => exact ⟨_, _, rfl, hw⟩
      | put => exact absurd rfl (he _)
      | out => exact absurd rfl (he _)
    have h0 : childRef (.nt i .tanruUnit2 (c :: ds)) 0 = .ok c := rfl
    cases hw with
    | alone hb =>
      cases hb with
      | @cmavo j s w _ =>
        refine ⟨st, rfl, fr, le_refl _, ?_⟩
        intro e he
        cases he with
        | down hs hdm hv _ => exact (nodown hs hdm hv).elim
        | word h => obtain ⟨j, h | h⟩ := h <;> cases h
      | @brivla j =>
        refine ⟨mark (.brivla j) st, rfl, mark_frame fr (hm _ (.word ⟨j, .inl rfl⟩)), mark_le _ _, ?_⟩
        intro e he
        cases he with
        | down hs hdm hv _ => exact (nodown hs hdm hv).elim
        | word h => exact mark_mem _ _
      | @zei j =>
        refine ⟨mark (.zei j) st, rfl, mark_frame fr (hm _ (.word ⟨j, .inr rfl⟩)), mark_le _ _, ?_⟩
        intro e he
        cases he with
        | down hs hdm hv _ => exact (nodown hs hdm hv).elim
        | word h => exact mark_mem _ _
      | @leaf j =>
        refine ⟨st, rfl, fr, le_refl _, ?_⟩
        intro e he
        cases he with
        | down hs hdm hv _ => exact (nodown hs hdm hv).elim
        | word h => obtain ⟨j, h | h⟩ := h <;> cases h
    | @marked w j bs rs hb hx hrs =>
      have hnb := base_not_bahe hx hbh
      have h1 : unitScan f fuel (.nt i .tanruUnit2 (.nt j .augmented (bs ++ w :: rs) :: ds)) st =
          (match w with | .brivla k => .ok (mark (.brivla k) st) | _ => .ok st : M St) := by
        change markAug _ st = _
        rw [markAug, stripAttitudinal, skip_bahe hb hnb]
        cases w <;> rfl
      have only : ∀ e, Mark (.nt i .tanruUnit2 (.nt j .augmented (bs ++ w :: rs) :: ds)) e → ∃ k, w = .brivla k ∧ e = .tertau k := by
        intro e he
        generalize ey : Node.nt i .tanruUnit2 (.nt j .augmented (bs ++ w :: rs) :: ds) = y at he
        cases he with
        | down hs hdm hv _ => cases ey; exact (nodown hs hdm hv).elim
        | word h => obtain ⟨j, h | h⟩ := h <;> (subst h; cases ey)
        | @aug i' a bs' j' rs' cs' hb' =>
          injection ey with _ _ ey
          injection ey with ey _
          injection ey with _ _ ey
          obtain ⟨_, e2, _⟩ := split_unique hb hb' hnb rfl ey
          exact ⟨j', e2, rfl⟩
        | jai => cases ey
        | nu => cases ey
      cases hx with
      | @brivla k =>
        refine ⟨mark (.brivla k) st, h1, mark_frame fr (hm _ (.aug hb)), mark_le _ _, ?_⟩
        intro e he
        obtain ⟨k', e1, rfl⟩ := only e he
        cases e1
        exact mark_mem _ _
      | cmavo _ => exact ⟨st, h1, fr, le_refl _, fun e he => by obtain ⟨_, e1, _⟩ := only e he; cases e1⟩
      | zei => exact ⟨st, h1, fr, le_refl _, fun e he => by obtain ⟨_, e1, _⟩ := only e he; cases e1⟩
      | leaf => exact ⟨st, h1, fr, le_refl _, fun e he => by obtain ⟨_, e1, _⟩ := only e he; cases e1⟩
  -- a node
  have node : ∀ {t : NT}, its = [.n t] → ∃ c, cs = [c] ∧ Parse t c ∧ c.depth < n ∧ c.depth < fuel ∧ Ins b x false c ∧
      ∀ e, Mark (.nt i .tanruUnit2 cs) e → (NT.tanruUnit2, t) ∈ steps ∧ Mark c e := by
    intro t e
    subst e
    obtain ⟨c, rfl, hc⟩ := only hk
    have hmc : c ∈ [c] := List.mem_singleton.2 rfl
    have := mem_depth (t := .tanruUnit2) (i := i) hmc
    refine ⟨c, rfl, hc, by omega, by omega, ins_trans ins (ins_child (t := .tanruUnit2) ins.nodup hmc), ?_⟩
    intro e he
    have ha := parse_not_aug hc
    obtain ⟨j, ds, _, rfl, _⟩ := parse_inv hc
    cases he with
    | @down _ _ _ _ u _ hs hdm hv he' =>
      obtain rfl := List.mem_singleton.1 hdm
      have : t = u := by simpa [Node.isNT] using hv
      subst this
      exact ⟨hs, he'⟩
    | word h => obtain ⟨j, h | h⟩ := h <;> cases h
    | aug => exact absurd rfl ha
  have down : ∀ {t : NT} {c : Node}, (NT.tanruUnit2, t) ∈ steps → cs = [c] → Parse t c → ∀ e, Mark c e → Mark (.nt i .tanruUnit2 cs) e := by
    intro t c hs e hc e' he'
    subst e
    exact .down hs (List.mem_singleton.2 rfl) (by rw [parse_isNT hc]; simp) he'
  -- SE, JAI, NAhE
  have simple : ∀ {t : NT} (hr : on t (fun its => cnt its .tanruUnit2 == 1) = true), its = [.n t] → (NT.tanruUnit2, t) ∈ steps → (t, NT.tanruUnit2) ∈ steps →
      (∀ v, (t, v) ∈ steps → v = .tanruUnit2) → t ≠ .selbri3 → t ∉ [NT.tanruUnit2, .jaiTagTu2, .nuNaiSeq] →
      (∀ j ds, unitScan f fuel (.nt i .tanruUnit2 [.nt j t ds]) st = (do surely (f true) (← findNth (.nt j t ds) 1 .tanruUnit2) st)) →
      ∃ st', unitScan f fuel (.nt i .tanruUnit2 cs) st = .ok st' ∧ Frame B b x st0 st' ∧ Le st st' ∧ ∀ e, Mark (.nt i .tanruUnit2 cs) e → e ∈ st'.2 := by
    intro t hru e hs1 hs2 hst h3 hnt heq
    obtain ⟨c, rfl, hc, hdc, _, hins, hmk⟩ := node e
    have dn := down hs1 rfl hc
    obtain ⟨j, its', ds, rfl, hr', hk'⟩ := on_use hru hc
    simp only [beq_iff_eq] at hr'
    obtain ⟨d, st', kd, g1, g2, g3, g4⟩ := inner_ok hf hs2 hst h3 hk' hr' (by omega) hins fr (fun e he => hm e (dn e he))
    refine ⟨st', ?_, g2, g3, ?_⟩
    · rw [heq, find_kids, kd]
      exact g1
    · intro e he
      obtain ⟨u, d', a1, a2, a3, a4⟩ := mark_down hnt (hmk e he).2
      exact g4 u d' e a1 a2 a3 a4
  have silent : ∀ {t : NT}, its = [.n t] → (NT.tanruUnit2, t) ∉ steps →
      (∀ j ds, unitScan f fuel (.nt i .tanruUnit2 [.nt j t ds]) st = .ok st) →
      ∃ st', unitScan f fuel (.nt i .tanruUnit2 cs) st = .ok st' ∧ Frame B b x st0 st' ∧ Le st st' ∧ ∀ e, Mark (.nt i .tanruUnit2 cs) e → e ∈ st'.2 := by
    intro t e hs heq
    obtain ⟨c, rfl, hc, _, _, _, hmk⟩ := node e
    obtain ⟨j, ds, _, rfl, _⟩ := parse_inv hc
    exact ⟨st, heq j ds, fr, le_refl _, fun e he => absurd (hmk e he).1 hs⟩
  cases its with
  | nil => cases hr
  | cons it r =>
    cases it with
    | n t =>
      cases r with
      | cons _ _ => cases hr
      | nil =>
        have ht : t ∈ unitNTs ++ [NT.keSelbri3Tu2, .numberMoiTu2] := by simpa [unitRule] using hr
        simp only [unitNTs, List.cons_append, List.nil_append, List.mem_cons, List.not_mem_nil, or_false] at ht
        rcases ht with rfl | rfl | rfl | rfl | rfl | rfl | rfl
        · exact simple scanSe_rules rfl (by decide) (by decide) (by simp [steps]) (by decide) (by decide) (fun _ _ => rfl)
        · exact simple jaiTu2_rules rfl (by decide) (by decide) (by simp [steps]) (by decide) (by decide) (fun _ _ => rfl)
        · exact simple naheTu2_rules rfl (by decide) (by decide) (by simp [steps]) (by decide) (by decide) (fun _ _ => rfl)
        · obtain ⟨c, rfl, hc, hdc, _, hins, hmk⟩ := node rfl
          have dn := down (by decide) rfl hc
          obtain ⟨j, its', ds, rfl, hr', hk'⟩ := on_use scanJai_rules hc
          obtain ⟨c0, ds', rfl, h2⟩ : ∃ c0 ds', ds = c0 :: ds' ∧ cnt its' .tanruUnit2 = 1 := by
            cases its' with
            | nil => cases hr'
            | cons it' r' =>
              cases it' with
              | t s =>
                obtain ⟨c0, ds', rfl, _⟩ := firstT hk'
                exact ⟨c0, ds', rfl, by simpa [cnt] using hr'⟩
              | _ => cases hr'
          have f1 : Frame B b x st0 (mark c0 st) := mark_frame fr (hm _ (dn _ .jai))
          obtain ⟨d, st', kd, g1, g2, g3, g4⟩ := inner_ok hf (t := .jaiTagTu2) (by decide) (by simp [steps]) (by decide) hk' h2 (by omega) hins f1
            (fun e he => hm e (dn e he))
          refine ⟨st', ?_, g2, le_trans (mark_le _ _) g3, ?_⟩
          · have : unitScan f fuel (.nt i .tanruUnit2 [.nt j .jaiTagTu2 (c0 :: ds')]) st =
                (do surely (f true) (← findNth (.nt j .jaiTagTu2 (c0 :: ds')) 1 .tanruUnit2) (mark c0 st)) := rfl
            rw [this, find_kids, kd]
            exact g1
          · intro e he
            have he2 := (hmk e he).2
            cases he2 with
            | down a1 a2 a3 a4 => exact g4 _ _ e a1 a2 a3 a4
            | jai => exact g3.2 _ (mark_mem _ _)
        · obtain ⟨c, rfl, hc, hdc, hdf, hins, hmk⟩ := node rfl
          have dn := down (by decide) rfl hc
          obtain ⟨j, its', ds, rfl, hr', hk'⟩ := on_use scanAbs_rules hc
          obtain ⟨c0, ds', rfl, p0, z0⟩ : ∃ c0 ds', ds = c0 :: ds' ∧ Parse .nuNaiSeq c0 ∧ kids ds' .nuNaiSeq = [] := by
            cases its' with
            | nil => cases hr'
            | cons it' r' =>
              cases it' with
              | n t =>
                have ht : t = .nuNaiSeq ∧ cnt r' .nuNaiSeq = 0 := by simpa [absRule] using hr'
                obtain ⟨rfl, h0⟩ := ht
                obtain ⟨c0, ds', rfl, p0, hk2⟩ := first hk'
                exact ⟨c0, ds', rfl, p0, kids_zero hk2 (by decide) h0⟩
              | _ => cases hr'
          have m0 : c0 ∈ c0 :: ds' := List.mem_cons_self ..
          have dn0 : ∀ e, Mark c0 e → B e := fun e he => hm e (dn e (.down (u := .nuNaiSeq) (by decide) m0 (by rw [parse_isNT p0]; rfl) he))
          obtain ⟨st', g1, g2, g3, g4⟩ := nuLoop_ok (fuel := fuel) (y := c0) (by have := mem_depth (t := .abstraction) (i := j) m0; omega) p0 fr dn0
          refine ⟨st', g1, g2, g3, ?_⟩
          intro e he
          obtain ⟨u, d', a1, a2, a3, a4⟩ := mark_down (by decide) (hmk e he).2
          have : u = .nuNaiSeq := by revert a1; simp [steps]
          subst this
          rcases List.mem_cons.1 a2 with rfl | a2'
          · exact g4 e a4
          · exact (none_mem z0 a2' a3).elim
        · exact silent rfl (by decide) (fun _ _ => rfl)
        · exact silent rfl (by decide) (fun _ _ => rfl)
    | e _ => cases hr
    | t s =>
      by_cases hs : s = .BAhE
      · subst hs; cases hr
      · refine wordy rfl (by nofun) (by nofun) (by simpa using hs) ?_
        revert hr; unfold unitRule; split <;> simp_all
    | brivla => exact wordy rfl (by nofun) (by nofun) (by nofun) hr
    | zei => exact wordy rfl (by nofun) (by nofun) (by nofun) hr
    | leaf => exact wordy rfl (by nofun) (by nofun) (by nofun) hr
    | never => exact wordy rfl (by nofun) (by nofun) (by nofun) hr

end

/-! ## Groups -/

theorem chain_nt {c : Node} {k : Nat} (h : Chain c k) : c.isNT .selbri3 = true := by
  cases h <;> simp [Node.isNT]

theorem doneLoop_ok : ∀ (fuel : Nat) {y : Node} {done : List Nat}, y.depth ≤ fuel → Parse .selbri3 y →
    ∃ done', doneLoop fuel y done = .ok done' ∧ ∀ k, k ∈ done' ↔ k ∈ done ∨ Chain y k := by
  intro fuel
  induction fuel with
  | zero =>
    intro y st hd hp
    obtain ⟨_, _, _, rfl, _⟩ := parse_inv hp
    rw [depth_nt] at hd; omega
  | succ fuel ih =>
    intro y done hd hp
    obtain ⟨i, its, cs, rfl, hr, hk⟩ := on_use scan3_rules hp
    simp only [Bool.and_eq_true, beq_iff_eq, decide_eq_true_eq] at hr
    rw [doneLoop]
    rcases kids_le hk (by decide) hr.2 with kt | ⟨d, kt, pt⟩
    · refine ⟨i :: done, by rw [find_kids, kt]; rfl, ?_⟩
      intro k
      rw [List.mem_cons]
      constructor
      · rintro (rfl | h)
        · exact .inr .self
        · exact .inl h
      · rintro (h | h)
        · exact .inr h
        · cases h with
          | self => exact .inl rfl
          | child hc hk' => exact (none_mem kt hc (chain_nt hk')).elim
    · obtain ⟨mt, nt⟩ := one_in kt
      obtain ⟨done', e, h⟩ := ih (y := d) (done := i :: done) (by have := mem_depth (t := .selbri3) (i := i) mt; omega) pt
      refine ⟨done', by rw [find_kids, kt]; exact e, ?_⟩
      intro k
      rw [h, List.mem_cons]
      constructor
      · rintro ((rfl | h) | h)
        · exact .inr .self
        · exact .inl h
        · exact .inr (.child mt h)
      · rintro (h | h)
        · exact .inl (.inr h)
        · cases h with
          | self => exact .inl (.inl rfl)
          | child hc hk' =>
            rw [one_mem kt hc (chain_nt hk')] at hk'
            exact .inr hk'

theorem ids_nil {cs : List Node} (h : tanruIdsAll cs = []) {c : Node} (hc : c ∈ cs) : tanruIds c = [] := by
  cases e : tanruIds c with
  | nil => rfl
  | cons k l =>
    have := ids_mem hc (k := k) (by rw [e]; exact List.mem_cons_self ..)
    rw [h] at this
    cases this

theorem scan_quiet : ∀ (n : Nat) (y : Node) (st : St), y.depth < n → tanruIds y = [] → scan n false y st = .ok st := by
  intro n
  induction n with
  | zero => intro y st h; omega
  | succ n ih =>
    intro y st hd hy
    cases y with
    | nt i t cs =>
      have ht : t ≠ .selbri3 := by
        rintro rfl; rw [tanruIds, if_pos rfl] at hy; cases hy
      rw [tanruIds, if_neg ht] at hy
      rw [scan]
      have h1 : groupScan (scan n) n (.nt i t cs) t st = .ok st := by
        rw [groupScan, if_neg (fun h => ht h.1)]; rfl
      simp only [Bool.false_eq_true, if_false, h1, bind, Except.bind]
      have all : ∀ (ds : List Node), (∀ d ∈ ds, d ∈ cs) → ds.foldlM (fun st c => scan n false c st) st = .ok st := by
        intro ds
        induction ds with
        | nil => intro _; rfl
        | cons d ds ihd =>
          intro h
          have hm := h d (List.mem_cons_self ..)
          rw [List.foldlM_cons, ih d st (by have := mem_depth (t := t) (i := i) hm; omega) (ids_nil hy hm)]
          exact ihd (fun e he => h e (List.mem_cons_of_mem _ he))
      exact all cs (fun _ h => h)
    | cmavo => rfl
    | brivla => rfl
    | zei => rfl
    | leaf => rfl

theorem base_ids {it : Item} {c : Node} (h : Base it c) : tanruIds c = [] := by cases h <;> rfl

theorem ids_append (a c : List Node) : tanruIdsAll (a ++ c) = tanruIdsAll a ++ tanruIdsAll c := by
  induction a with
  | nil => rfl
  | cons x a ih => rw [List.cons_append, tanruIdsAll, ih, tanruIdsAll, List.append_assoc]

theorem ids_all_nil {cs : List Node} (h : ∀ c ∈ cs, tanruIds c = []) : tanruIdsAll cs = [] := by
  induction cs with
  | nil => rfl
  | cons c cs ih =>
    rw [tanruIdsAll, h c (List.mem_cons_self ..), ih (fun d hd => h d (List.mem_cons_of_mem _ hd))]; rfl

theorem bahe_ids {bs : List Node} (hb : AllBahe bs) : tanruIdsAll bs = [] :=
  ids_all_nil fun c hc => by obtain ⟨k, v, rfl, _⟩ := hb c hc; rfl

theorem indic_ids {r : Node} (h : Indic r) : tanruIds r = [] := by
  cases h with
  | word _ _ => rfl
  | marked hb _ _ => rw [tanruIds, if_neg (by decide), ids_append, bahe_ids hb]; rfl

theorem word_ids {it : Item} {c : Node} (h : WordR it c) : tanruIds c = [] := by
  cases h with
  | alone hb => exact base_ids hb
  | marked hb hx hr =>
    rw [tanruIds, if_neg (by decide), ids_append, bahe_ids hb, tanruIdsAll, base_ids hx, ids_all_nil (fun c hc => indic_ids (hr c hc))]
    rfl

theorem kid_good {t : NT} {i : Nat} {cs : List Node} (h : Parse t (.nt i t cs)) {c : Node} (hc : c ∈ cs) : Good false c := by
  rcases parse_kid h hc with ⟨v, _, hv⟩ | ⟨it, _, _, hw⟩ | ⟨s, j, w, _, _, rfl⟩
  · exact .inl ⟨v, hv, by nofun⟩
  · exact .inr ⟨rfl, word_ids hw⟩
  · exact .inr ⟨rfl, rfl⟩

/-- The scan of all children. -/
theorem fold_ok {n : Nat} (hf : Correct (scan n) n) {B : Ev → Prop} {b : Bool} {st0 : St} {t : NT} {i : Nat} {cs : List Node}
    (hp : Parse t (.nt i t cs)) (hn : (tanruIds (.nt i t cs)).Nodup) (hd : (Node.nt i t cs).depth ≤ n) : ∀ (ds : List Node) (st : St), (∀ d ∈ ds, d ∈ cs) →
    Frame B b (.nt i t cs) st0 st → (t = .selbri3 → ∀ c ∈ cs, ∀ k, Chain c k → k ∈ st.1) →
    ∃ st', ds.foldlM (fun st c => scan n false c st) st = .ok st' ∧ Frame B b (.nt i t cs) st0 st' ∧ Le st st' ∧
      ∀ c ∈ ds, Done (decide (t = .selbri3)) c st' := by
  intro ds
  induction ds with
  | nil => intro st _ fr _; exact ⟨st, rfl, fr, le_refl _, by nofun⟩
  | cons d ds ih =>
    intro st h fr hc
    have hm := h d (List.mem_cons_self ..)
    obtain ⟨st1, e1, f1, l1, d1, _⟩ := call hf fr (ins_child hn hm) (last := false) (by have := mem_depth (t := t) (i := i) hm; omega) (kid_good hp hm)
      (fun ht k hk => hc (by simpa using ht) d hm k hk) (by nofun)
    obtain ⟨st2, e2, f2, l2, d2⟩ := ih st1 (fun e he => h e (List.mem_cons_of_mem _ he)) f1 (fun ht c hc' k hk => l1.1 k (hc ht c hc' k hk))
    refine ⟨st2, ?_, f2, le_trans l1 l2, ?_⟩
    · rw [List.foldlM_cons, e1]; exact e2
    · intro c hc'
      rcases List.mem_cons.1 hc' with rfl | hc''
      · exact done_le d1 l2
      · exact d2 c hc''

theorem last_ok {n : Nat} (hf : Correct (scan n) n) {B : Ev → Prop} {b : Bool} {st : St} {t : NT} (ht : t ∈ lastNTs) {y : Node}
    (hp : Parse t y) (hn : (tanruIds y).Nodup) (hd : y.depth ≤ n) (hi : Inv b y st) (hm : ∀ e, Mark y e → B e) :
    ∃ st', lastScan (scan n) n y t st = .ok st' ∧ Frame B b y st st' ∧ Le st st' ∧ ∀ e, Mark y e → e ∈ st'.2 := by
  have fr : Frame B b y st st := frame_refl hi
  have ins : Ins b y b y := ins_refl hn
  simp only [lastNTs, List.mem_cons, List.not_mem_nil, or_false] at ht
  rcases ht with rfl | rfl | rfl | rfl | rfl | rfl
  · exact loop4_ok hf n hd hd hp ins fr hm
  · refine loopDown_ok hf (t := .selbri5) (u := .selbri6) (by decide) (by decide) (by decide) (by simp [steps]) (by decide) (by decide) ?_ n hd hd hp ins fr hm
    intro y hp
    obtain ⟨i, its, cs, rfl, hr, hk⟩ := on_use selbri5_rules hp
    simp only [Bool.and_eq_true, beq_iff_eq, decide_eq_true_eq] at hr
    exact ⟨i, cs, rfl, .inr (kids_one hk (by decide) hr.1), kids_le hk (by decide) hr.2⟩
  · refine loopDown_ok hf (t := .selbri6) (u := .tanruUnit) (by decide) (by decide) (by decide) (by simp [steps]) (by decide) (by decide) ?_ n hd hd hp ins fr hm
    intro y hp
    obtain ⟨i, its, cs, rfl, hr, hk⟩ := on_use scan6_rules hp
    simp only [Bool.and_eq_true, decide_eq_true_eq] at hr
    refine ⟨i, cs, rfl, ?_, kids_le hk (by decide) hr.2⟩
    rcases kids_le hk (t := .tanruUnit) (by decide) hr.1 with h | h
    · exact .inl ⟨rfl, h⟩
    · exact .inr h
  · refine loopDown_ok hf (t := .tanruUnit) (u := .tanruUnit1) (by decide) (by decide) (by decide) (by simp [steps]) (by decide) (by decide) ?_ n hd hd hp ins fr hm
    intro y hp
    obtain ⟨i, its, cs, rfl, hr, hk⟩ := on_use scanUnit_rules hp
    simp only [Bool.and_eq_true, beq_iff_eq, decide_eq_true_eq] at hr
    exact ⟨i, cs, rfl, .inr (kids_one hk (by decide) hr.1), kids_le hk (by decide) hr.2⟩
  · obtain ⟨i, its, cs, rfl, hr, hk⟩ := on_use scanUnit1_rules hp
    simp only [beq_iff_eq] at hr
    obtain ⟨c, st', kc, g1, g2, g3, g4⟩ := inner_ok hf (t := .tanruUnit1) (by decide) (by simp [steps]) (by decide) hk hr hd ins fr hm
    refine ⟨st', ?_, g2, g3, ?_⟩
    · rw [lastScan, find_kids, kc]; exact g1
    · intro e he
      obtain ⟨u, d', a1, a2, a3, a4⟩ := mark_down (by decide) he
      exact g4 u d' e a1 a2 a3 a4
  · exact unit_ok hf hd hd hp ins fr hm

theorem group_ok {n : Nat} (hf : Correct (scan n) n) {B : Ev → Prop} {b : Bool} {st : St} {t : NT} {i : Nat} {cs : List Node}
    (hp : Parse t (.nt i t cs)) (hn : (tanruIds (.nt i t cs)).Nodup) (hd : (Node.nt i t cs).depth ≤ n) (hi : Inv b (.nt i t cs) st)
    (hc : b = true → ∀ k, Chain (.nt i t cs) k → k ∈ st.1) :
    ∃ st', groupScan (scan n) n (.nt i t cs) t st = .ok st' ∧ Frame B b (.nt i t cs) st st' ∧
      (t = .selbri3 → (∀ k, Chain (.nt i t cs) k → k ∈ st'.1)) ∧ (t = .selbri3 → b = false → Comp (.nt i t cs) st') := by
  rw [groupScan]
  by_cases h3 : t = .selbri3
  · subst h3
    by_cases hin : i ∈ st.1
    · rw [if_neg (fun h => h.2 hin)]
      refine ⟨st, rfl, frame_refl hi, fun _ => ?_, fun _ hb => ?_⟩
      · cases b with
        | true => exact hc rfl
        | false => exact (hi _ .self hin).1
      · subst hb; exact hi _ .self hin
    · have hb : b = false := by
        cases b with
        | false => rfl
        | true => exact absurd (hc rfl i .self) hin
      subst hb
      rw [if_pos ⟨rfl, hin⟩]
      obtain ⟨done', ed, hdone⟩ := doneLoop_ok n (done := st.1) hd hp
      obtain ⟨i', its, cs', e, hr, hk⟩ := on_use scan3_rules hp
      cases e
      simp only [Bool.and_eq_true, beq_iff_eq, decide_eq_true_eq] at hr
      obtain ⟨c4, k4, p4⟩ := kids_one hk (by decide) hr.1
      obtain ⟨m4, n4⟩ := one_in k4
      have i4 : Ins false (.nt i .selbri3 cs) true c4 := ins_child hn m4
      have fresh : ∀ g, Grp true c4 g → g.id ∈ done' → g.id ∈ st.1 := by
        intro g hg hk'
        rcases (hdone _).1 hk' with h | h
        · exact h
        · cases h with
          | self => exact absurd (ids_mem m4 (grp_ids hg)) (nodup_self hn)
          | child hcm hch =>
            have := same_child (nodup_all hn) m4 hcm (grp_ids hg) (chain_ids hch)
            subst this
            exact absurd rfl (grp_chain hg rfl i4.nodup _ hch)
      have le1 : Le st (done', st.2) := ⟨fun k hk' => (hdone k).2 (.inl hk'), fun _ h => h⟩
      obtain ⟨st', g1, g2, g3, g4⟩ := hf true true c4 (done', st.2) (by have := mem_depth (t := .selbri3) (i := i) m4; omega)
        (.inl ⟨_, p4, fun _ => by decide⟩) i4.nodup
        (fun _ k hk' => by
          have h1 := chain_nt hk'
          rw [parse_isNT p4] at h1
          exact absurd h1 (by decide))
        (fun g hg hk' => comp_le (hi g (i4.up g hg) (fresh g hg hk')) le1)
      have le2 : Le st st' := le_trans le1 g2.le
      have chain : ∀ k, Chain (.nt i .selbri3 cs) k → k ∈ st'.1 := fun k hk' => g2.le.1 k ((hdone k).2 (.inr hk'))
      have comp : Comp (.nt i .selbri3 cs) st' := by
        refine ⟨chain, ?_⟩
        rintro e ⟨_, _, c, e1, hcm, hcn, hmk⟩
        cases e1
        rw [one_mem k4 hcm hcn] at hmk
        exact g4 rfl e hmk
      refine ⟨st', ?_, ⟨le2, ?_, ?_, ?_⟩, fun _ => chain, fun _ _ => comp⟩
      · rw [find_kids, k4, ed]; exact g1
      · intro k hk'
        rcases g2.new k hk' with h | h
        · rcases (hdone k).1 h with h | h
          · exact .inl h
          · exact .inr (chain_ids h)
        · exact .inr (i4.sub k h)
      · intro e he
        rcases g2.sound e he with h | ⟨_, h⟩ | ⟨g, hg, h⟩
        · exact .inl h
        · exact .inr (.inr ⟨_, .self, i, cs, c4, rfl, m4, n4, h⟩)
        · exact .inr (.inr ⟨g, i4.up g hg, h⟩)
      · intro g hg hk'
        by_cases h4 : g.id ∈ tanruIds c4
        · exact (g3 g (i4.down g hg h4)).2
        · have h5 : g.id ∈ done' := (g2.new _ hk').resolve_right h4
          rcases (hdone _).1 h5 with h | h
          · exact comp_le (hi g hg h) le2
          · cases hg with
            | self => exact comp
            | @child _ _ _ _ c _ hcm hg =>
              exfalso
              cases h with
              | self => exact nodup_self hn (ids_mem hcm (grp_ids hg))
              | child hcm' hch =>
                have := same_child (nodup_all hn) hcm hcm' (grp_ids hg) (chain_ids hch)
                subst this
                exact grp_chain hg (by simp) (nodup_mem (nodup_all hn) hcm) _ hch rfl
  · rw [if_neg (fun h => h3 h.1)]
    exact ⟨st, rfl, frame_refl hi, fun h => absurd h h3, fun h => absurd h h3⟩

theorem scan_correct : ∀ n, Correct (scan n) n := by
  intro n
  induction n with
  | zero => intro last b y st h; omega
  | succ n ih =>
    intro last b y st hd hg hn hc hi
    rcases hg with ⟨t, hp, hl⟩ | ⟨rfl, hq⟩
    · obtain ⟨i, cs, _, rfl, _⟩ := parse_inv hp
      have hd' : (Node.nt i t cs).depth ≤ n := by omega
      have stage : ∃ st1, (if last = true then lastScan (scan n) n (.nt i t cs) t st else groupScan (scan n) n (.nt i t cs) t st) = .ok st1 ∧
          Frame (fun e => last = true ∧ Mark (.nt i t cs) e) b (.nt i t cs) st st1 ∧
          (t = .selbri3 → (∀ k, Chain (.nt i t cs) k → k ∈ st1.1)) ∧ (t = .selbri3 → b = false → Comp (.nt i t cs) st1) ∧
          (last = true → ∀ e, Mark (.nt i t cs) e → e ∈ st1.2) := by
        cases last with
        | true =>
          have ht := hl rfl
          obtain ⟨st1, g1, g2, _, g4⟩ := last_ok ih (B := fun e => true = true ∧ Mark (.nt i t cs) e) ht hp hn hd' hi (fun e he => ⟨rfl, he⟩)
          have h3 : t ≠ .selbri3 := by rintro rfl; revert ht; decide
          exact ⟨st1, g1, g2, fun h => absurd h h3, fun h => absurd h h3, fun _ => g4⟩
        | false =>
          obtain ⟨st1, g1, g2, g3, g4⟩ := group_ok ih (B := fun e => false = true ∧ Mark (.nt i t cs) e) hp hn hd' hi hc
          exact ⟨st1, g1, g2, g3, g4, by nofun⟩
      obtain ⟨st1, e1, f1, c1, k1, m1⟩ := stage
      obtain ⟨st2, e2, f2, l2, d2⟩ := fold_ok ih hp hn hd' cs st1 (fun _ h => h) f1 (by
        rintro rfl c hc' k hk
        exact c1 rfl k (.child hc' hk))
      refine ⟨st2, ?_, f2, ?_, fun h e he => l2.2 e (m1 h e he)⟩
      · rw [scan]
        cases last <;> (simp only [Bool.false_eq_true, if_false, if_true] at e1 ⊢; rw [e1]; exact e2)
      · intro g hg
        cases hg with
        | self => exact ⟨l2.1 _ (c1 rfl i .self), comp_le (k1 rfl rfl) l2⟩
        | child hcm hg => exact d2 _ hcm g hg
    · refine ⟨st, scan_quiet _ _ _ hd hq, frame_refl hi, ?_, by nofun⟩
      intro g hg
      have := grp_ids hg
      rw [hq] at this
      cases this

end Jbo.Convert
