import Verif.ConvertScanRun
import Verif.ConvertGlossThm
/-!
# The last parts of tanru on every parse tree

Property C78.
-/

namespace Jbo.Convert
open Jbo.Terms Jbo.Gram Spec
open Jbo.Terms.Spec (kids)

/-! ## Groups and their ancestors -/

def headS3 : List Node → Bool
  | .nt _ t _ :: _ => decide (t = .selbri3)
  | _ => false

theorem aug_ids {u : NT} {top : Node} (hp : Parse u top) {anc : List Node} {i : Nat} {cs : List Node} (h : Occ top anc (.nt i .augmented cs)) :
    tanruIds (.nt i .augmented cs) = [] := by
  have hst := occ_stand hp h
  generalize e : Node.nt i .augmented cs = y at hst
  cases hst with
  | top hq => subst e; obtain ⟨_, _, _, e, _⟩ := parse_inv hq; cases e; exact absurd rfl (parse_not_aug hq)
  | child _ _ _ _ hw => subst e; obtain ⟨_, _, _, e, _⟩ := parse_inv hw; cases e; exact absurd rfl (parse_not_aug hw)
  | word _ _ _ _ hw => exact word_ids hw
  | put => rfl
  | inner _ _ _ _ _ hb _ => exact base_ids hb
  | bahe => rfl
  | indic hq => exact indic_ids hq
  | indicWord => rfl

theorem grp_none {b : Bool} {x g : Node} (h : tanruIds x = []) (hg : Grp b x g) : False := by
  have := grp_ids hg
  rw [h] at this
  cases this

theorem grp_occ {u : NT} {top : Node} (hp : Parse u top) {b : Bool} {x g : Node} (hg : Grp b x g) :
    ∀ anc, Occ top anc x → headS3 anc = b → ∃ anc', Occ top anc' g ∧ headS3 anc' = false := by
  induction hg with
  | self => exact fun anc ho hh => ⟨anc, ho, hh⟩
  | @child b i t cs c g hc hg ih =>
    intro anc ho hh
    by_cases ha : t = .augmented
    · subst ha
      exact (grp_none (aug_ids hp ho) (.child (b := b) hc hg)).elim
    · exact ih _ (.child ho ha hc) rfl

theorem occ_grp {u : NT} {top : Node} (hp : Parse u top) {anc : List Node} {x : Node} (ho : Occ top anc x) :
    ∀ g, Grp (headS3 anc) x g → Grp false top g := by
  have aug : ∀ {anc i cs c}, Occ top anc (.nt i .augmented cs) → c ∈ cs → tanruIds c = [] := by
    intro anc i cs c h hc
    have := aug_ids hp h
    rw [tanruIds, if_neg (by decide)] at this
    exact ids_nil this hc
  induction ho with
  | top => exact fun g h => h
  | child _ _ hc ih => exact fun g h => ih g (.child hc h)
  | word ho _ _ _ => exact fun g h => (grp_none (aug ho (by simp)) h).elim
  | before ho _ hb _ => exact fun g h => (grp_none (aug ho (List.mem_append_left _ hb)) h).elim
  | after ho _ _ hr _ => exact fun g h => (grp_none (aug ho (List.mem_append_right _ (List.mem_cons_of_mem _ hr))) h).elim

/-! ## From a group to its words -/

theorem steps_parts : ∀ p ∈ steps, p.1 ∈ partNTs ∧ p.2 ∈ partNTs ∧ p.1 ≠ .selbri3 ∧ p.1 ≠ .augmented ∧ p.2 ≠ .augmented := by decide

theorem jaiTag_first : on .jaiTagTu2 (fun its => match its with
    | .t .JAI :: _ => true
    | _ => false) = true := by decide +kernel

theorem isNT_inv {c : Node} {u : NT} (h : c.isNT u = true) : ∃ j ds, c = .nt j u ds := by
  cases c with
  | nt j t ds =>
    have : t = u := by simpa [Node.isNT] using h
    subst this
    exact ⟨j, ds, rfl⟩
  | _ => simp [Node.isNT] at h

theorem mark_told {u : NT} {top : Node} (hp : Parse u top) {y : Node} {e : Ev} (h : Mark y e) : ∀ anc, Occ top anc y → Last CodeModifier (y :: anc) →
    ∃ anc' x, Occ top anc' x ∧ TertauTold CodeModifier ZeiAlone (fun c _ => c.id) anc' x e := by
  induction h with
  | @down i t cs c v e hs hc hv hm ih =>
    intro anc ho hl
    obtain ⟨h1, h2, h3, h4, h5⟩ := steps_parts _ hs
    obtain ⟨j, ds, rfl⟩ := isNT_inv hv
    refine ih _ (.child ho h4 hc) (.part h2 ?_ hl)
    intro hcm
    cases hcm
    exact h3 rfl
  | @word i c cs h =>
    intro anc ho hl
    refine ⟨_, c, .child ho (by decide) (List.mem_cons_self ..), .word ?_ (fun _ => ⟨_, _, _, rfl⟩) hl⟩
    obtain ⟨j, rfl | rfl⟩ := h
    · exact .inl (.inl ⟨j, rfl⟩)
    · exact .inr ⟨j, rfl⟩
  | @aug i a bs j rs cs hb =>
    intro anc ho hl
    exact ⟨_, .brivla j, .word (.child ho (by decide) (List.mem_cons_self ..)) hb rfl, .word (.inl (.inl ⟨j, rfl⟩)) (by rintro ⟨k, e⟩; cases e) hl⟩
  | @jai i c cs =>
    intro anc ho hl
    obtain ⟨hj, _⟩ := occ_nt hp ho (by decide)
    obtain ⟨i', its, ds, e, hr, hk⟩ := on_use jaiTag_first hj
    cases e
    have : ∃ k w, Terms.Spec.Word c k .JAI w := by
      cases its with
      | nil => cases hr
      | cons it r =>
        cases it with
        | t s =>
          obtain ⟨c0, ds', e, hw, _⟩ := firstT hk
          cases e
          have hs : s = .JAI := by
            cases s <;> first | rfl | cases hr
          subst hs
          obtain ⟨k, w, _, h⟩ := word_word hw (by decide)
          exact ⟨k, w, h⟩
        | _ => cases hr
    obtain ⟨k, w, hw⟩ := this
    exact ⟨_, _, ho, .jai hw hl⟩
  | @nu i cs c j w hc hw =>
    intro anc ho hl
    obtain ⟨hj, _⟩ := occ_nt hp ho (by decide)
    have hcl := kid_clean hj hc hw
    have ho' : Occ top (.nt i .nuNaiSeq cs :: anc) (.cmavo j .NU w) := by
      cases hcl with
      | alone _ => exact .child ho (by decide) hc
      | marked hb hs _ _ => exact .word (.child ho (by decide) hc) hb (by simp [Node.isSel])
    exact ⟨_, _, ho', .word (.inl (.inr ⟨j, w, rfl⟩)) (by rintro ⟨k, e⟩; cases e) hl⟩

/-! ## From a word to its group -/

theorem step_rules : rules.all (fun r => !(partNTs.contains r.lhs) || partNTs.all (fun v => !(r.rhs.contains (.n v)) || steps.contains (r.lhs, v))) = true := by
  decide +kernel

theorem group_rules : rules.all (fun r => !(r.lhs == .selbri3) || partNTs.all (fun v => !(r.rhs.contains (.n v)) || v == .selbri4)) = true := by
  decide +kernel

theorem named_step {t v : NT} (h : Named t (.n v)) (ht : t ∈ partNTs) (hv : v ∈ partNTs) : (t, v) ∈ steps := by
  obtain ⟨r, hr, rfl, hm⟩ := h
  have h1 := all_mem step_rules hr
  rw [List.contains_iff_mem.2 ht, Bool.not_true, Bool.false_or] at h1
  have h2 := List.all_eq_true.1 h1 v hv
  rw [List.contains_iff_mem.2 hm, Bool.not_true, Bool.false_or] at h2
  exact List.contains_iff_mem.1 h2

theorem named_group {v : NT} (h : Named .selbri3 (.n v)) (hv : v ∈ partNTs) : v = .selbri4 := by
  obtain ⟨r, hr, hl, hm⟩ := h
  have h1 := all_mem group_rules hr
  rw [hl, beq_self_eq_true, Bool.not_true, Bool.false_or] at h1
  have h2 := List.all_eq_true.1 h1 v hv
  rw [List.contains_iff_mem.2 hm, Bool.not_true, Bool.false_or] at h2
  exact beq_iff_eq.1 h2

theorem parts_not : ∀ t ∈ partNTs, t ≠ .augmented ∧ t ≠ .chunks ∧ t ≠ .selbri3 := by decide

theorem mark_up {top : Node} (hp : Parse .chunks top) {e : Ev} {l : List Node} (hl : Last CodeModifier l) : ∀ y rest, l = y :: rest → Occ top rest y → Mark y e →
    ∃ g, Grp false top g ∧ GM g e := by
  induction hl with
  | whole =>
    intro y rest el ho hm
    cases el
    cases hm with
    | down hs _ _ _ => exact absurd rfl (steps_parts _ hs).2.2.1
  | @part i t cs r ht hc hl ih =>
    intro y rest el ho hm
    cases el
    obtain ⟨ha, hch, _⟩ := parts_not t ht
    obtain ⟨_, j, v, ds, rest, rfl, ho', _, hmem, hnm⟩ := occ_parent hp ho ha hch
    have hnt : (Node.nt i t cs).isNT t = true := by simp [Node.isNT]
    by_cases hv : v = .selbri3
    · subst hv
      have := named_group hnm ht
      subst this
      refine ⟨_, occ_grp hp ho' _ ?_, j, ds, _, rfl, hmem, hnt, hm⟩
      have : headS3 rest = false := by
        cases rest with
        | nil => rfl
        | cons q rest' =>
          cases q with
          | nt k w es =>
            by_cases hw : w = .selbri3
            · subst hw; exact absurd .tanru hc
            · simp [headS3, hw]
          | _ => rfl
      rw [this]
      exact .self
    · have hvp : v ∈ partNTs := by
        cases hl with
        | whole => exact absurd rfl hv
        | part h _ _ => exact h
      exact ih _ _ rfl ho' (.down (named_step hnm hvp ht) hmem hnt hm)

/-! ## The parent of a word -/

def wordRule (r : Rule) : Bool :=
  !((NT.selbri3 :: partNTs).contains r.lhs) ||
    ((!(r.rhs.contains .brivla) || r.lhs == .tanruUnit2) && (!(r.rhs.contains .zei) || r.lhs == .tanruUnit2) &&
      (!(r.rhs.contains (.t .NU)) || r.lhs == .nuNaiSeq) && !(r.rhs.contains (.e .NU)))

theorem word_rules : rules.all wordRule = true := by decide +kernel

theorem tail_rules : on .tanruUnit2 (fun its => !(its.drop 1).contains .brivla && !(its.drop 1).contains .zei) = true := by decide +kernel

theorem last_head {M : List Node → Prop} {i : Nat} {t : NT} {cs r : List Node} (h : Last M (.nt i t cs :: r)) : t ∈ NT.selbri3 :: partNTs := by
  cases h with
  | whole => exact List.mem_cons_self ..
  | part h _ _ => exact List.mem_cons_of_mem _ h

theorem named_word {t : NT} (ht : t ∈ NT.selbri3 :: partNTs) {it : Item} (h : Named t it) :
    (it = .brivla ∨ it = .zei → t = .tanruUnit2) ∧ (it = .t .NU → t = .nuNaiSeq) ∧ it ≠ .e .NU := by
  obtain ⟨r, hr, rfl, hm⟩ := h
  have h1 := all_mem word_rules hr
  unfold wordRule at h1
  rw [List.contains_iff_mem.2 ht, Bool.not_true, Bool.false_or] at h1
  simp only [Bool.and_eq_true, Bool.or_eq_true, Bool.not_eq_true', List.contains_eq_mem, decide_eq_false_iff_not, beq_iff_eq] at h1
  obtain ⟨⟨⟨a, b⟩, c⟩, d⟩ := h1
  refine ⟨?_, ?_, ?_⟩
  · rintro (rfl | rfl)
    · exact a.resolve_left (fun h => h hm)
    · exact b.resolve_left (fun h => h hm)
  · rintro rfl; exact c.resolve_left (fun h => h hm)
  · rintro rfl; exact d hm

/-- A brivla or zei-lujvo in a unit is the first child. -/
theorem unit_first {i : Nat} {cs : List Node} (h : Parse .tanruUnit2 (.nt i .tanruUnit2 cs)) {c : Node} (hc : c ∈ cs) {it : Item}
    (hit : it = .brivla ∨ it = .zei) (hw : WordR it c) : ∃ ds, cs = c :: ds := by
  obtain ⟨i', its, cs', e, hr, hk⟩ := on_use tail_rules h
  cases e
  simp only [Bool.and_eq_true, Bool.not_eq_true', List.contains_eq_mem, decide_eq_false_iff_not] at hr
  have tail : ∀ {its' cs'}, Kids Parse its' cs' → Item.brivla ∉ its' → Item.zei ∉ its' → c ∉ cs' := by
    intro its' cs' hk' h1 h2 hm
    rcases kid_cases hk' hm with ⟨t, _, hp⟩ | ⟨it', hi', hw'⟩ | ⟨s, j, w, _, _, rfl⟩
    · have ha := parse_not_aug hp
      obtain ⟨_, _, _, rfl, _⟩ := parse_inv hp
      cases hw with
      | alone hb => cases hb
      | marked => exact ha rfl
    · have hne : it' ≠ .brivla ∧ it' ≠ .zei := ⟨fun e => h1 (e ▸ hi'), fun e => h2 (e ▸ hi')⟩
      cases hw with
      | alone hb =>
        rcases hit with rfl | rfl <;> cases hb <;> cases hw' with
        | alone hb' => cases hb'; first | exact hne.1 rfl | exact hne.2 rfl
      | @marked y a bs rs hb hx hrs =>
        generalize e : Node.nt a .augmented (bs ++ y :: rs) = z at hw'
        cases hw' with
        | alone hb' => subst e; cases hb'
        | @marked y' a' bs' rs' hb' hx' hrs' =>
          injection e with _ _ e
          have nb : y.isSel .BAhE = false := by rcases hit with rfl | rfl <;> cases hx <;> rfl
          by_cases nb' : it' = .t .BAhE
          · subst nb'
            cases hx' with
            | @cmavo ib _ wb hm' =>
              have hall : ∀ z ∈ bs' ++ .cmavo ib .BAhE wb :: rs', z ≠ y := by
                intro z hz ez
                subst ez
                rcases List.mem_append.1 hz with hz | hz
                · obtain ⟨_, _, rfl, _⟩ := hb' _ hz; simp [Node.isSel] at nb
                · rcases List.mem_cons.1 hz with rfl | hz
                  · simp [Node.isSel] at nb
                  · have := hrs' _ hz
                    rcases hit with rfl | rfl <;> cases hx <;> cases this
              exact hall y (e ▸ by simp) rfl
          · obtain ⟨_, rfl, _⟩ := split_unique hb hb' nb (base_not_bahe hx' nb') e
            rcases hit with rfl | rfl <;> cases hx <;> cases hx' <;> first | exact hne.1 rfl | exact hne.2 rfl
    · cases hw with
      | alone hb => rcases hit with rfl | rfl <;> cases hb
  cases hk with
  | nil => cases hc
  | n hp hk' =>
    rcases List.mem_cons.1 hc with rfl | hc'
    · exact ⟨_, rfl⟩
    · exact absurd hc' (tail hk' hr.1 hr.2)
  | word hw' hk' =>
    rcases List.mem_cons.1 hc with rfl | hc'
    · exact ⟨_, rfl⟩
    · exact absurd hc' (tail hk' hr.1 hr.2)
  | put hw' hk' =>
    rcases List.mem_cons.1 hc with rfl | hc'
    · exact ⟨_, rfl⟩
    · exact absurd hc' (tail hk' hr.1 hr.2)
  | out hk' => exact absurd hc (tail hk' hr.1 hr.2)

theorem last_nil {M : List Node → Prop} : ¬ Last M [] := by nofun

/-- Where a brivla or zei-lujvo in a part of a tanru stands. -/
theorem word_stand {top : Node} (hp : Parse .chunks top) {M : List Node → Prop} {anc : List Node} {x : Node} {it : Item} (hit : it = .brivla ∨ it = .zei)
    (hx : Base it x) (ho : Occ top anc x) (hl : Last M anc) :
    ∃ i cs rest, Occ top rest (.nt i .tanruUnit2 cs) ∧ anc = .nt i .tanruUnit2 cs :: rest ∧
      ((∃ ds, cs = x :: ds) ∨ ∃ j bs rs ds, AllBahe bs ∧ cs = .nt j .augmented (bs ++ x :: rs) :: ds) := by
  have same : ∀ {it'}, Base it' x → it' = it := by
    intro it' hb
    rcases hit with rfl | rfl <;> cases hx <;> cases hb <;> rfl
  have hst := occ_stand hp ho
  cases hst with
  | top hq => exact absurd hl last_nil
  | child _ _ _ _ hq =>
    obtain ⟨_, _, _, rfl, _⟩ := parse_inv hq
    rcases hit with rfl | rfl <;> cases hx
  | @word rest i u cs it' _ hpu _ hmem hnm hw =>
    cases hw with
    | marked => rcases hit with rfl | rfl <;> cases hx
    | alone hb =>
      obtain rfl := same hb
      have := (named_word (last_head hl) hnm).1 hit
      subst this
      obtain ⟨ds, rfl⟩ := unit_first hpu hmem hit (.alone hx)
      exact ⟨i, _, rest, (occ_anc ho [] _ _ rfl).1, rfl, .inl ⟨ds, rfl⟩⟩
  | put => rcases hit with rfl | rfl <;> cases hx
  | @inner rest i u cs it' j bs _ rs hpu hs hmem hb hnm hbx hne =>
    obtain rfl := same hbx
    have := (named_word (last_head hl) hnm).1 hit
    subst this
    have hwr : WordR it' (.nt j .augmented (bs ++ x :: rs)) := by
      rcases parse_kid hpu hmem with ⟨v, _, hv⟩ | ⟨it2, _, hn2, hw⟩ | ⟨s, j', w, _, _, e⟩
      · obtain ⟨_, _, _, e, _⟩ := parse_inv hv
        cases e
        exact absurd rfl (parse_not_aug hv)
      · generalize e : Node.nt j .augmented (bs ++ x :: rs) = z at hw
        cases hw with
        | alone hb' => subst e; cases hb'
        | @marked y' a' bs' rs' hb' hx' hrs' =>
          injection e with _ _ e
          obtain ⟨rfl, rfl, rfl⟩ := split_unique hb hb' (base_not_bahe hx hne) (base_not_bahe hx' hn2) e
          exact .marked hb hx hrs'
      · cases e
    obtain ⟨ds, rfl⟩ := unit_first hpu hmem hit hwr
    exact ⟨i, _, rest, (occ_anc ho [] _ _ rfl).1, rfl, .inr ⟨j, bs, rs, ds, hb, rfl⟩⟩
  | bahe => exact absurd hl last_nil
  | indic => exact absurd hl last_nil
  | indicWord => exact absurd hl last_nil

theorem nu_stand {top : Node} (hp : Parse .chunks top) {M : List Node → Prop} {anc : List Node} {k : Nat} {w : String}
    (ho : Occ top anc (.cmavo k .NU w)) (hl : Last M anc) :
    ∃ i cs rest c, Occ top rest (.nt i .nuNaiSeq cs) ∧ anc = .nt i .nuNaiSeq cs :: rest ∧ c ∈ cs ∧ Terms.Spec.Word c k .NU w := by
  have hst := occ_stand hp ho
  generalize e : Node.cmavo k .NU w = y at hst
  cases hst with
  | top hq => exact absurd hl last_nil
  | child _ _ _ _ hq =>
    subst e
    obtain ⟨_, _, _, e, _⟩ := parse_inv hq
    cases e
  | @word rest i u cs it' _ hpu _ hmem hnm hw =>
    subst e
    cases hw with
    | alone hb =>
      cases hb with
      | cmavo _ =>
        have := (named_word (last_head hl) hnm).2.1 rfl
        subst this
        exact ⟨i, _, rest, _, (occ_anc ho [] _ _ rfl).1, rfl, hmem, .alone⟩
  | put _ _ _ hnm _ =>
    cases e
    exact absurd rfl (named_word (last_head hl) hnm).2.2
  | @inner rest i u cs it' j bs _ rs hpu hs hmem hb hnm hbx hne =>
    subst e
    cases hbx with
    | cmavo _ =>
      have := (named_word (last_head hl) hnm).2.1 rfl
      subst this
      exact ⟨i, _, rest, _, (occ_anc ho [] _ _ rfl).1, rfl, hmem, .marked hb.any (by decide)⟩
  | bahe => exact absurd hl last_nil
  | indic => exact absurd hl last_nil
  | indicWord => exact absurd hl last_nil

theorem told_mark {top : Node} (hp : Parse .chunks top) {anc : List Node} {x : Node} {e : Ev} (ho : Occ top anc x)
    (h : TertauTold CodeModifier ZeiAlone (fun c _ => c.id) anc x e) : ∃ g, Grp false top g ∧ GM g e := by
  cases h with
  | word hx hz hl =>
    rcases hx with (⟨k, rfl⟩ | ⟨k, w, rfl⟩) | ⟨k, rfl⟩
    · obtain ⟨i, cs, rest, ho', rfl, ⟨ds, rfl⟩ | ⟨j, bs, rs, ds, hb, rfl⟩⟩ := word_stand hp (.inl rfl) .brivla ho hl
      · exact mark_up hp hl _ _ rfl ho' (.word ⟨k, .inl rfl⟩)
      · exact mark_up hp hl _ _ rfl ho' (.aug hb)
    · obtain ⟨i, cs, rest, c, ho', rfl, hc, hw⟩ := nu_stand hp ho hl
      exact mark_up hp hl _ _ rfl ho' (.nu hc hw)
    · obtain ⟨i, cs, r, rfl⟩ := hz ⟨k, rfl⟩
      exact mark_up hp hl _ _ rfl (occ_anc ho [] _ _ rfl).1 (.word ⟨k, .inr rfl⟩)
  | jai hw hl => exact mark_up hp hl _ _ rfl ho .jai

/-- **What the scan does, on all trees.**  It ends, and it marks exactly the words in last parts, with three exceptions: the part
before `bo` counts as last, a zei-lujvo with an indicator is not marked, and the mark of JAI with an indicator is hung on the node
around it. -/
theorem tertau_any (top : Node) (hp : Parse .chunks top) (hn : (tanruIds top).Nodup) (fuel : Nat) (hfu : top.depth < fuel) :
    ∃ st, scan fuel false top ([], []) = .ok st ∧
      ∀ e, e ∈ st.2 ↔ ∃ anc x, Occ top anc x ∧ TertauTold CodeModifier ZeiAlone (fun c _ => c.id) anc x e := by
  obtain ⟨st, h1, h2, h3, _⟩ := scan_correct fuel false false top ([], []) hfu (.inl ⟨_, hp, by nofun⟩) hn (by nofun) (by intro g _ h; cases h)
  refine ⟨st, h1, fun e => ⟨fun he => ?_, fun ⟨anc, x, ho, ht⟩ => ?_⟩⟩
  · rcases h2.sound e he with h | ⟨h, _⟩ | ⟨g, hg, i, cs, c, rfl, hc, hcn, hm⟩
    · cases h
    · cases h
    · obtain ⟨anc, ho, hh⟩ := grp_occ hp hg [] .top rfl
      refine mark_told hp hm _ (.child ho (by decide) hc) ?_
      obtain ⟨j, ds, rfl⟩ := isNT_inv hcn
      refine .part (by decide) ?_ .whole
      intro hcm
      cases hcm
      simp [headS3] at hh
  · obtain ⟨g, hg, hm⟩ := told_mark hp ho ht
    exact (h3 g hg).2.2 e hm

theorem last_iff {top : Node} (hb : NoBoTanru top) : ∀ {anc : List Node}, (∀ near y rest, anc = near ++ y :: rest → Occ top rest y) →
    (Last CodeModifier anc ↔ Last Modifier anc) := by
  intro anc hocc
  constructor
  · intro h
    induction h with
    | whole => exact .whole
    | part h1 h2 _ ih =>
      refine .part h1 ?_ (ih fun near y rest e => hocc (_ :: near) y rest (by rw [e]; rfl))
      intro hm
      cases hm with
      | tanru => exact h2 .tanru
      | bo => exact hb _ _ _ (hocc [] _ _ rfl) _ _ _ _ _ rfl
  · intro h
    induction h with
    | whole => exact .whole
    | part h1 h2 _ ih =>
      refine .part h1 ?_ (ih fun near y rest e => hocc (_ :: near) y rest (by rw [e]; rfl))
      intro hm
      cases hm with
      | tanru => exact h2 .tanru

/-- **The last parts of tanru.**  On every tree of the grammar whose SELBRI_3 have different numbers, in texts without `bo` in tanru and
without indicators or `ba'e` at zei-lujvo and JAI, the scan ends, and it marks exactly the brivla, zei-lujvo and abstractors in the last part
of the nearest tanru around them, and JAI with a tag there. -/
theorem tertau_partial (top : Node) (hp : Parse .chunks top) (hn : (tanruIds top).Nodup) (hb : NoBoTanru top) (hz : NoMarkedZei top) (hj : NoMarkedJai top)
    (fuel : Nat) (hfu : top.depth < fuel) :
    ∃ st, scan fuel false top ([], []) = .ok st ∧
      ∀ e, e ∈ st.2 ↔ ∃ anc x, Occ top anc x ∧ TertauTold Modifier (fun _ _ => True) (fun _ j => j) anc x e := by
  obtain ⟨st, h1, h2⟩ := tertau_any top hp hn fuel hfu
  refine ⟨st, h1, fun e => ?_⟩
  rw [h2]
  have jid : ∀ {anc i c cs j w}, Occ top anc (.nt i .jaiTagTu2 (c :: cs)) → Terms.Spec.Word c j .JAI w → c.id = j := by
    intro anc i c cs j w ho hw
    rw [hj _ _ _ _ _ _ _ ho (List.mem_cons_self ..) hw]; rfl
  constructor
  · rintro ⟨anc, x, ho, ht⟩
    refine ⟨anc, x, ho, ?_⟩
    cases ht with
    | word hx _ hl => exact .word hx trivial ((last_iff hb fun near y rest e => (occ_anc ho near y rest e).1).1 hl)
    | jai hw hl =>
      simp only [jid ho hw]
      refine .jai (on := fun _ j => j) hw ((last_iff hb fun near y rest e => ?_).1 hl)
      cases near with
      | nil => cases e; exact ho
      | cons z near => cases e; exact (occ_anc ho near y rest rfl).1
  · rintro ⟨anc, x, ho, ht⟩
    refine ⟨anc, x, ho, ?_⟩
    cases ht with
    | word hx _ hl =>
      have hl' := (last_iff hb fun near y rest e => (occ_anc ho near y rest e).1).2 hl
      refine .word hx ?_ hl'
      rintro ⟨k, rfl⟩
      obtain ⟨i, cs, rest, ho', rfl, ⟨ds, rfl⟩ | ⟨j, bs, rs, ds, hbh, rfl⟩⟩ := word_stand hp (.inr rfl) .zei ho hl'
      · exact ⟨_, _, _, rfl⟩
      · exact absurd (.child ho' (by decide) (List.mem_cons_self ..)) (hz _ _ _ _ _)
    | jai hw hl =>
      have := TertauTold.jai (M := CodeModifier) (Z := ZeiAlone) (on := fun c _ => c.id) hw ((last_iff hb fun near y rest e => by
        cases near with
        | nil => cases e; exact ho
        | cons z near => cases e; exact (occ_anc ho near y rest rfl).1).2 hl)
      simpa only [jid ho hw] using this

/-! ## Examples -/

def modB : List Node → Bool
  | .nt _ .selbri4 _ :: .nt _ .selbri3 _ :: .nt _ .selbri3 _ :: _ => true
  | .nt _ .tanruUnit _ :: .nt _ .selbri6 (_ :: _ :: _) :: _ => true
  | _ => false

theorem modB_iff {l : List Node} : modB l = true ↔ Modifier l := by
  constructor
  · intro h
    unfold modB at h
    split at h
    · exact .tanru
    · exact .bo
    · cases h
  · rintro (_ | _) <;> rfl

def lastB : List Node → Bool
  | [] => false
  | .nt i t cs :: r => t == .selbri3 || (partNTs.contains t && !modB (.nt i t cs :: r) && lastB r)
  | _ :: _ => false

theorem lastB_iff {l : List Node} : lastB l = true ↔ Last Modifier l := by
  induction l with
  | nil => exact ⟨nofun, nofun⟩
  | cons x r ih =>
    cases x with
    | nt i t cs =>
      rw [lastB]
      constructor
      · intro h
        rw [Bool.or_eq_true] at h
        rcases h with h | h
        · rw [beq_iff_eq] at h; subst h; exact .whole
        · simp only [Bool.and_eq_true, Bool.not_eq_true'] at h
          exact .part (by simpa using h.1.1) (fun hm => by rw [modB_iff.2 hm] at h; cases h.1.2) (ih.1 h.2)
      · intro h
        cases h with
        | whole => rfl
        | part h1 h2 h3 =>
          have : modB (.nt i t cs :: r) = false := by
            cases e : modB (.nt i t cs :: r) with
            | false => rfl
            | true => exact absurd (modB_iff.1 e) h2
          rw [this, ih.2 h3]
          simp [h1]
    | _ => exact ⟨nofun, nofun⟩

theorem noBoTanru_of {top : Node} (h : noBoB top = true) : NoBoTanru top := by
  intro anc i as ho j b c cs r e
  obtain ⟨d, hd⟩ := noBo_of h _ _ _ (occ_anc ho [] _ _ e).1
  cases hd

theorem noMarkedZei_of {top : Node} (h : bare top = true) : NoMarkedZei top := by
  intro anc j bs k rs ho
  have := occ_bare h ho
  simp [bare] at this

/-- *mi* and a tanru. -/
def miTanru (s3 : Node) : Node := textOf (up [.noCuSentence] (koha 10 "mi" ++
  up [.bridiTail, .bridiTail1, .bridiTail2, .bridiTail3] (up [.mainSelbri, .selbri, .selbri1, .selbri2] [s3])))

/-- A part of a tanru. -/
def partOf (u : List Node) : List Node := up [.selbri4, .selbri5, .selbri6, .tanruUnit, .tanruUnit1, .tanruUnit2] u

set_option maxRecDepth 10000 in
/-- *mi broda ke brode brodi ke'e*: *brodi* is told, and the two before it are not. -/
example : let top := miTanru (.nt 1 .selbri3 (.nt 2 .selbri3 (partOf [.brivla 64]) :: partOf [.nt 0 .keSelbri3Tu2
      [.cmavo 50 .KE "ke", .nt 3 .selbri3 (.nt 4 .selbri3 (partOf [.brivla 65]) :: partOf [.brivla 66])]]))
    Parse .chunks top ∧ (tanruIds top).Nodup ∧ NoBoTanru top ∧ NoMarkedZei top ∧ NoMarkedJai top ∧ top.depth < 60 ∧
      scan 60 false top ([], []) = .ok ([4, 3, 2, 1], [.tertau 66]) :=
  ⟨parse_of (by decide +kernel), by decide, noBoTanru_of (by decide), noMarkedZei_of (by decide), noMarkedJai_of (by decide), by decide, rfl⟩

set_option maxRecDepth 10000 in
/-- *mi broda je se brode*: both are told. -/
example : let top := miTanru (.nt 1 .selbri3 [.nt 0 .selbri4 (partOf [.brivla 64] ++ up [.jekOptKe] [.cmavo 67 .JA "je"] ++
      up [.selbri5, .selbri6, .tanruUnit, .tanruUnit1, .tanruUnit2] (seUnit "se" 68 [.brivla 65]))])
    Parse .chunks top ∧ (tanruIds top).Nodup ∧ NoBoTanru top ∧ NoMarkedZei top ∧ NoMarkedJai top ∧ top.depth < 60 ∧
      scan 60 false top ([], []) = .ok ([1], [.tertau 65, .tertau 64]) :=
  ⟨parse_of (by decide +kernel), by decide, noBoTanru_of (by decide), noMarkedZei_of (by decide), noMarkedJai_of (by decide), by decide, rfl⟩

set_option maxRecDepth 10000 in
/-- **A defect.**  In *mi broda bo brode* the modifier *broda*, which is not in the last part, is taken to be. -/
theorem bo_tertau :
    let top := miTanru (.nt 1 .selbri3 (up [.selbri4, .selbri5] [.nt 0 .selbri6 (up [.tanruUnit, .tanruUnit1, .tanruUnit2] [.brivla 64] ++
      .cmavo 66 .BO "bo" :: up [.selbri6, .tanruUnit, .tanruUnit1, .tanruUnit2] [.brivla 65])]))
    Parse .chunks top ∧ scan 60 false top ([], []) = .ok ([1], [.tertau 64, .tertau 65]) ∧
      ∃ anc, Occ top anc (.brivla 64) ∧ ¬ Last Modifier anc := by
  intro top
  refine ⟨parse_of (by decide +kernel), rfl, ?_⟩
  have hd : (down [] top [0, 0, 0, 0, 0, 0, 0, 0, 0, 0, 0, 1, 0, 0, 0, 0, 0, 0, 0, 0, 0, 0, 0, 0, 0, 0, 0]).map (fun p => (p.2, lastB p.1)) =
      some (.brivla 64, false) := rfl
  obtain ⟨⟨anc, x⟩, h1, h2⟩ := Option.map_eq_some_iff.1 hd
  simp only [Prod.mk.injEq] at h2
  obtain ⟨rfl, h2⟩ := h2
  exact ⟨anc, down_occ _ .top h1, fun h => by rw [lastB_iff.2 h] at h2; cases h2⟩

set_option maxRecDepth 10000 in
/-- **A defect.**  In *mi broda zei brode .ui* the compound is the whole tanru, but it is not taken to be its last part. -/
theorem marked_zei_lost :
    let top := miTanru (.nt 1 .selbri3 (partOf [.nt 23 .augmented [.zei 64, .cmavo 24 .UI "ui"]]))
    Parse .chunks top ∧ scan 60 false top ([], []) = .ok ([1], []) ∧
      ∃ anc x, Occ top anc x ∧ TertauTold Modifier (fun _ _ => True) (fun _ j => j) anc x (.tertau 64) := by
  intro top
  refine ⟨parse_of (by decide +kernel), rfl, ?_⟩
  have hd : (down [] top [0, 0, 0, 0, 0, 0, 0, 0, 0, 0, 0, 1, 0, 0, 0, 0, 0, 0, 0, 0, 0, 0, 0, 0, 0, 0, 0]).map (fun p => (p.2, lastB p.1)) =
      some (.nt 23 .augmented [.zei 64, .cmavo 24 .UI "ui"], true) := rfl
  obtain ⟨⟨anc, x⟩, h1, h2⟩ := Option.map_eq_some_iff.1 hd
  simp only [Prod.mk.injEq] at h2
  obtain ⟨rfl, h2⟩ := h2
  exact ⟨anc, .zei 64, .word (bs := []) (down_occ _ .top h1) nofun rfl, .word (.inr ⟨_, rfl⟩) trivial (lastB_iff.1 h2)⟩

end Jbo.Convert
