import Verif.ConvertScanSpec
import Verif.GramLook
/-!
# The scan for tanru: what a call does

The pass keeps a mark on each SELBRI_3 that it has dealt with.  Every call leaves the groups below its node complete: marked,
and all that belongs to them logged.
-/

namespace Jbo.Convert
open Jbo.Terms Jbo.Gram Spec
open Jbo.Terms.Spec (kids)

/-! ## Groups -/

theorem ids_mem {cs : List Node} {c : Node} (h : c ∈ cs) {k : Nat} (hk : k ∈ tanruIds c) : k ∈ tanruIdsAll cs := by
  induction cs with
  | nil => cases h
  | cons d ds ih =>
    rw [tanruIdsAll, List.mem_append]
    rcases List.mem_cons.1 h with rfl | h
    · exact .inl hk
    · exact .inr (ih h)

theorem ids_all_nt {i : Nat} {t : NT} {cs : List Node} {k : Nat} (hk : k ∈ tanruIdsAll cs) : k ∈ tanruIds (.nt i t cs) := by
  rw [tanruIds]; split
  · exact List.mem_cons_of_mem _ hk
  · exact hk

theorem nodup_all {i : Nat} {t : NT} {cs : List Node} (h : (tanruIds (.nt i t cs)).Nodup) : (tanruIdsAll cs).Nodup := by
  rw [tanruIds] at h; split at h
  · exact (List.nodup_cons.1 h).2
  · exact h

theorem nodup_self {i : Nat} {cs : List Node} (h : (tanruIds (.nt i .selbri3 cs)).Nodup) : i ∉ tanruIdsAll cs := by
  rw [tanruIds, if_pos rfl] at h
  exact (List.nodup_cons.1 h).1

theorem nodup_mem {cs : List Node} (h : (tanruIdsAll cs).Nodup) {c : Node} (hc : c ∈ cs) : (tanruIds c).Nodup := by
  induction cs with
  | nil => cases hc
  | cons d ds ih =>
    rw [tanruIdsAll, List.nodup_append] at h
    rcases List.mem_cons.1 hc with rfl | hc
    · exact h.1
    · exact ih h.2.1 hc

/-- A number stands below one child only. -/
theorem same_child {cs : List Node} (h : (tanruIdsAll cs).Nodup) {c d : Node} (hc : c ∈ cs) (hd : d ∈ cs) {k : Nat} (h1 : k ∈ tanruIds c)
    (h2 : k ∈ tanruIds d) : c = d := by
  induction cs with
  | nil => cases hc
  | cons e es ih =>
    rw [tanruIdsAll, List.nodup_append] at h
    obtain ⟨_, h4, h5⟩ := h
    rcases List.mem_cons.1 hc with rfl | hc' <;> rcases List.mem_cons.1 hd with rfl | hd'
    · rfl
    · exact absurd rfl (h5 k h1 k (ids_mem hd' h2))
    · exact absurd rfl (h5 k h2 k (ids_mem hc' h1))
    · exact ih h4 hc' hd'

/-- A whole tanru: a SELBRI_3 that is not the beginning of another.  The flag tells that the node is the child of one. -/
inductive Grp : Bool → Node → Node → Prop
  | self {i cs} : Grp false (.nt i .selbri3 cs) (.nt i .selbri3 cs)
  | child {b i t cs c g} : c ∈ cs → Grp (decide (t = .selbri3)) c g → Grp b (.nt i t cs) g

/-- The SELBRI_3 and its beginnings. -/
inductive Chain : Node → Nat → Prop
  | self {i cs} : Chain (.nt i .selbri3 cs) i
  | child {i cs c k} : c ∈ cs → Chain c k → Chain (.nt i .selbri3 cs) k

theorem grp_ids {b : Bool} {x g : Node} (h : Grp b x g) : g.id ∈ tanruIds x := by
  induction h with
  | self => rw [tanruIds, if_pos rfl]; exact List.mem_cons_self ..
  | child hc _ ih => exact ids_all_nt (ids_mem hc ih)

theorem chain_ids {x : Node} {k : Nat} (h : Chain x k) : k ∈ tanruIds x := by
  induction h with
  | self => rw [tanruIds, if_pos rfl]; exact List.mem_cons_self ..
  | child hc _ ih => exact ids_all_nt (ids_mem hc ih)

theorem grp_chain {b : Bool} {x g : Node} (h : Grp b x g) : b = true → (tanruIds x).Nodup → ∀ k, Chain x k → g.id ≠ k := by
  induction h with
  | self => nofun
  | @child b i t cs c g hc hg ih =>
    intro _ hn k hk
    cases hk with
    | self =>
      intro e
      exact nodup_self hn (e ▸ ids_mem hc (grp_ids hg))
    | @child _ _ d _ hd hk =>
      intro e
      have : c = d := same_child (nodup_all hn) hc hd (grp_ids hg) (e ▸ chain_ids hk)
      subst this
      exact ih (by simp) (nodup_mem (nodup_all hn) hc) k hk e

/-- A node below another, and their groups. -/
structure Ins (b : Bool) (x : Node) (b' : Bool) (y : Node) : Prop where
  nodup : (tanruIds y).Nodup
  sub : ∀ k ∈ tanruIds y, k ∈ tanruIds x
  up : ∀ g, Grp b' y g → Grp b x g
  down : ∀ g, Grp b x g → g.id ∈ tanruIds y → Grp b' y g

theorem ins_refl {b : Bool} {x : Node} (h : (tanruIds x).Nodup) : Ins b x b x := ⟨h, fun _ h => h, fun _ h => h, fun _ h _ => h⟩

theorem ins_child {b : Bool} {i : Nat} {t : NT} {cs : List Node} (h : (tanruIds (.nt i t cs)).Nodup) {c : Node} (hc : c ∈ cs) :
    Ins b (.nt i t cs) (decide (t = .selbri3)) c := by
  refine ⟨nodup_mem (nodup_all h) hc, fun k hk => ids_all_nt (ids_mem hc hk), fun g hg => .child hc hg, ?_⟩
  intro g hg hk
  cases hg with
  | self => exact absurd (ids_mem hc hk) (nodup_self h)
  | @child _ _ _ _ d _ hd hg =>
    have : d = c := same_child (nodup_all h) hd hc (grp_ids hg) hk
    exact this ▸ hg

theorem ins_trans {b1 b2 b3 : Bool} {x y z : Node} (h : Ins b1 x b2 y) (h' : Ins b2 y b3 z) : Ins b1 x b3 z :=
  ⟨h'.nodup, fun k hk => h.sub k (h'.sub k hk), fun g hg => h.up g (h'.up g hg),
    fun g hg hk => h'.down g (h.down g hg (h'.sub _ hk)) hk⟩

/-! ## What belongs to a group -/

def steps : List (NT × NT) := [(.selbri4, .selbri4), (.selbri4, .selbri5), (.selbri5, .selbri6), (.selbri5, .selbri5),
  (.selbri6, .tanruUnit), (.selbri6, .selbri6), (.tanruUnit, .tanruUnit1), (.tanruUnit, .tanruUnit), (.tanruUnit1, .tanruUnit2),
  (.tanruUnit2, .seTu2), (.tanruUnit2, .jaiTu2), (.tanruUnit2, .naheTu2), (.tanruUnit2, .jaiTagTu2), (.tanruUnit2, .abstraction),
  (.seTu2, .tanruUnit2), (.jaiTu2, .tanruUnit2), (.naheTu2, .tanruUnit2), (.jaiTagTu2, .tanruUnit2), (.abstraction, .nuNaiSeq),
  (.nuNaiSeq, .nuNaiSeq)]

/-- What a call with `is_tertau` logs for the node. -/
inductive Mark : Node → Ev → Prop
  | down {i t cs c u e} : (t, u) ∈ steps → c ∈ cs → c.isNT u = true → Mark c e → Mark (.nt i t cs) e
  | word {i c cs} : (∃ j, c = .brivla j ∨ c = .zei j) → Mark (.nt i .tanruUnit2 (c :: cs)) (.tertau c.id)
  | aug {i a bs j rs cs} : AllBahe bs → Mark (.nt i .tanruUnit2 (.nt a .augmented (bs ++ .brivla j :: rs) :: cs)) (.tertau j)
  | jai {i c cs} : Mark (.nt i .jaiTagTu2 (c :: cs)) (.tertau c.id)
  | nu {i cs c j w} : c ∈ cs → Terms.Spec.Word c j .NU w → Mark (.nt i .nuNaiSeq cs) (.tertau j)

/-- What a tanru logs. -/
def GM (g : Node) (e : Ev) : Prop := ∃ i cs c, g = .nt i .selbri3 cs ∧ c ∈ cs ∧ c.isNT .selbri4 = true ∧ Mark c e

/-! ## Calls -/

def Le (st st' : St) : Prop := (∀ k ∈ st.1, k ∈ st'.1) ∧ ∀ e ∈ st.2, e ∈ st'.2

theorem le_refl (st : St) : Le st st := ⟨fun _ h => h, fun _ h => h⟩

theorem le_trans {a b c : St} (h : Le a b) (h' : Le b c) : Le a c := ⟨fun k hk => h'.1 k (h.1 k hk), fun e he => h'.2 e (h.2 e he)⟩

/-- The group is complete. -/
def Comp (g : Node) (st : St) : Prop := (∀ k, Chain g k → k ∈ st.1) ∧ ∀ e, GM g e → e ∈ st.2

theorem comp_le {g : Node} {st st' : St} (h : Comp g st) (l : Le st st') : Comp g st' :=
  ⟨fun k hk => l.1 k (h.1 k hk), fun e he => l.2 e (h.2 e he)⟩

/-- A group that is marked is complete. -/
def Inv (b : Bool) (x : Node) (st : St) : Prop := ∀ g, Grp b x g → g.id ∈ st.1 → Comp g st

/-- All groups are complete. -/
def Done (b : Bool) (x : Node) (st : St) : Prop := ∀ g, Grp b x g → g.id ∈ st.1 ∧ Comp g st

theorem done_le {b : Bool} {x : Node} {st st' : St} (h : Done b x st) (l : Le st st') : Done b x st' :=
  fun g hg => ⟨l.1 _ (h g hg).1, comp_le (h g hg).2 l⟩

/-- What has happened below `x` since `st0`; `B` may be logged besides what belongs to groups. -/
structure Frame (B : Ev → Prop) (b : Bool) (x : Node) (st0 st : St) : Prop where
  le : Le st0 st
  new : ∀ k ∈ st.1, k ∈ st0.1 ∨ k ∈ tanruIds x
  sound : ∀ e ∈ st.2, e ∈ st0.2 ∨ B e ∨ ∃ g, Grp b x g ∧ GM g e
  inv : Inv b x st

theorem frame_refl {B : Ev → Prop} {b : Bool} {x : Node} {st : St} (h : Inv b x st) : Frame B b x st st :=
  ⟨le_refl _, fun _ h => .inl h, fun _ h => .inl h, h⟩

def lastNTs : List NT := [.selbri4, .selbri5, .selbri6, .tanruUnit, .tanruUnit1, .tanruUnit2]

/-- Nodes on which the scan is called. -/
def Good (last : Bool) (y : Node) : Prop := (∃ t, Parse t y ∧ (last = true → t ∈ lastNTs)) ∨ (last = false ∧ tanruIds y = [])

def Correct (f : Bool → Node → St → M St) (n : Nat) : Prop :=
  ∀ last b y st, y.depth < n → Good last y → (tanruIds y).Nodup → (b = true → ∀ k, Chain y k → k ∈ st.1) → Inv b y st →
    ∃ st', f last y st = .ok st' ∧ Frame (fun e => last = true ∧ Mark y e) b y st st' ∧ Done b y st' ∧
      (last = true → ∀ e, Mark y e → e ∈ st'.2)

theorem call {f : Bool → Node → St → M St} {n : Nat} (hf : Correct f n) {B : Ev → Prop} {b : Bool} {x : Node} {st0 st : St}
    (fr : Frame B b x st0 st) {last b' : Bool} {y : Node} (ins : Ins b x b' y) (hd : y.depth < n) (hg : Good last y)
    (hc : b' = true → ∀ k, Chain y k → k ∈ st.1) (hm : last = true → ∀ e, Mark y e → B e) :
    ∃ st', f last y st = .ok st' ∧ Frame B b x st0 st' ∧ Le st st' ∧ Done b' y st' ∧ (last = true → ∀ e, Mark y e → e ∈ st'.2) := by
  obtain ⟨st', h1, h2, h3, h4⟩ := hf last b' y st hd hg ins.nodup hc (fun g hg hk => fr.inv g (ins.up g hg) hk)
  refine ⟨st', h1, ⟨le_trans fr.le h2.le, ?_, ?_, ?_⟩, h2.le, h3, h4⟩
  · intro k hk
    rcases h2.new k hk with hk | hk
    · exact fr.new k hk
    · exact .inr (ins.sub k hk)
  · intro e he
    rcases h2.sound e he with he | ⟨hl, he⟩ | ⟨g, hg, he⟩
    · exact fr.sound e he
    · exact .inr (.inl (hm hl e he))
    · exact .inr (.inr ⟨g, ins.up g hg, he⟩)
  · intro g hg hk
    by_cases hi : g.id ∈ tanruIds y
    · exact (h3 g (ins.down g hg hi)).2
    · exact comp_le (fr.inv g hg ((h2.new _ hk).resolve_right hi)) h2.le

theorem mark_le (y : Node) (st : St) : Le st (mark y st) := ⟨fun _ h => h, fun _ h => List.mem_append_left _ h⟩

theorem mark_mem (y : Node) (st : St) : Ev.tertau y.id ∈ (mark y st).2 := List.mem_append_right _ (List.mem_singleton.2 rfl)

theorem mark_frame {B : Ev → Prop} {b : Bool} {x : Node} {st0 st : St} (fr : Frame B b x st0 st) {y : Node} (h : B (.tertau y.id)) :
    Frame B b x st0 (mark y st) := by
  refine ⟨le_trans fr.le (mark_le y st), fr.new, ?_, fun g hg hk => comp_le (fr.inv g hg hk) (mark_le y st)⟩
  intro e he
  rcases List.mem_append.1 he with he | he
  · exact fr.sound e he
  · exact .inr (.inl (by rw [List.mem_singleton.1 he]; exact h))

/-! ## Children -/

theorem find_kids (i : Nat) (t : NT) (cs : List Node) (u : NT) : findNth (.nt i t cs) 1 u = .ok (kids cs u)[0]? := rfl

theorem kids_mem {cs : List Node} {u : NT} {c : Node} : c ∈ kids cs u ↔ c ∈ cs ∧ c.isNT u = true := List.mem_filter

theorem one_mem {cs : List Node} {u : NT} {c d : Node} (h : kids cs u = [c]) (hd : d ∈ cs) (hu : d.isNT u = true) : d = c := by
  have := kids_mem.2 ⟨hd, hu⟩
  rw [h] at this
  exact List.mem_singleton.1 this

theorem one_in {cs : List Node} {u : NT} {c : Node} (h : kids cs u = [c]) : c ∈ cs ∧ c.isNT u = true :=
  kids_mem.1 (by rw [h]; exact List.mem_singleton.2 rfl)

theorem none_mem {cs : List Node} {u : NT} {d : Node} (h : kids cs u = []) (hd : d ∈ cs) (hu : d.isNT u = true) : False := by
  have := kids_mem.2 ⟨hd, hu⟩
  rw [h] at this
  cases this

theorem mark_down {i : Nat} {t : NT} {cs : List Node} {e : Ev} (ht : t ∉ [NT.tanruUnit2, .jaiTagTu2, .nuNaiSeq]) (h : Mark (.nt i t cs) e) :
    ∃ u c, (t, u) ∈ steps ∧ c ∈ cs ∧ c.isNT u = true ∧ Mark c e := by
  cases h with
  | down h1 h2 h3 h4 => exact ⟨_, _, h1, h2, h3, h4⟩
  | word _ => simp at ht
  | aug _ => simp at ht
  | jai => simp at ht
  | nu _ _ => simp at ht

theorem scan4_rules : on .selbri4 (fun its => its == [.n .selbri5] ||
    (decide (2 ≤ sure its) && cnt its .selbri4 == 1 && decide (cnt its .selbri5 ≤ 1) && decide (cnt its .keSelbri3 ≤ 1))) = true := by
  decide +kernel
theorem scan6_rules : on .selbri6 (fun its => decide (cnt its .tanruUnit ≤ 1) && decide (cnt its .selbri6 ≤ 1)) = true := by decide +kernel
theorem scanUnit_rules : on .tanruUnit (fun its => cnt its .tanruUnit1 == 1 && decide (cnt its .tanruUnit ≤ 1)) = true := by decide +kernel
theorem scanUnit1_rules : on .tanruUnit1 (fun its => cnt its .tanruUnit2 == 1) = true := by decide +kernel
theorem scan3_rules : on .selbri3 (fun its => cnt its .selbri4 == 1 && decide (cnt its .selbri3 ≤ 1)) = true := by decide +kernel

/-! ## The loops -/

section
variable {f : Bool → Node → St → M St} {n : Nat} (hf : Correct f n) {B : Ev → Prop} {b : Bool} {x : Node} {st0 : St}
include hf

theorem loop4_ok : ∀ (fuel : Nat) {b' : Bool} {y : Node} {st : St}, y.depth ≤ fuel → y.depth ≤ n → Parse .selbri4 y → Ins b x b' y →
    Frame B b x st0 st → (∀ e, Mark y e → B e) →
    ∃ st', loop4 f fuel y st = .ok st' ∧ Frame B b x st0 st' ∧ Le st st' ∧ ∀ e, Mark y e → e ∈ st'.2 := by
  intro fuel
  induction fuel with
  | zero =>
    intro b' y st hd _ hp
    obtain ⟨_, _, _, rfl, _⟩ := parse_inv hp
    rw [depth_nt] at hd; omega
  | succ fuel ih =>
    intro b' y st hd hn hp ins fr hm
    obtain ⟨i, its, cs, rfl, hr, hk⟩ := on_use scan4_rules hp
    have kid : ∀ c ∈ cs, Ins b x false c := fun c hc => ins_trans ins (ins_child (t := .selbri4) ins.nodup hc)
    have dep : ∀ c ∈ cs, c.depth < n := fun c hc => by
      have := mem_depth (t := .selbri4) (i := i) hc; omega
    rw [loop4]
    simp only [Bool.or_eq_true, beq_iff_eq, Bool.and_eq_true, decide_eq_true_eq] at hr
    rcases hr with rfl | ⟨⟨⟨h2, h4⟩, h5⟩, h3⟩
    · obtain ⟨c, rfl, hc⟩ := only hk
      have h0 : nch (.nt i .selbri4 [c]) = .ok 1 := rfl
      have hcn : c.isNT .selbri5 = true := by rw [parse_isNT hc]; rfl
      have hk5 : kids [c] .selbri5 = [c] := by simp [kids, hcn]
      have hcm : c ∈ [c] := List.mem_singleton.2 rfl
      obtain ⟨st', g1, g2, g3, _, g5⟩ := call hf fr (kid c hcm) (dep c hcm) (last := true) (.inl ⟨_, hc, fun _ => by decide⟩) (by nofun)
        (fun _ e he => hm e (.down (u := .selbri5) (by decide) hcm hcn he))
      refine ⟨st', ?_, g2, g3, ?_⟩
      · simp only [h0, find_kids, hk5, bind, Except.bind]
        exact g1
      · intro e he
        obtain ⟨u, d, hs, hdm, hu, he'⟩ := mark_down (by decide) he
        obtain rfl := List.mem_singleton.1 hdm
        exact g5 rfl e he'
    · obtain ⟨c4, k4, p4⟩ := kids_one hk (by decide) h4
      have l1 : 1 < cs.length := many hk h2
      have h0 : nch (.nt i .selbri4 cs) = .ok cs.length := rfl
      obtain ⟨m4, n4⟩ := one_in k4
      have s5 : ∃ st1, perhaps (f true) (kids cs .selbri5)[0]? st = .ok st1 ∧ Frame B b x st0 st1 ∧ Le st st1 ∧
          ∀ c ∈ cs, c.isNT .selbri5 = true → ∀ e, Mark c e → e ∈ st1.2 := by
        rcases kids_le hk (by decide) h5 with k5 | ⟨c, k5, p5⟩
        · exact ⟨st, by rw [k5]; rfl, fr, le_refl _, fun c hc hu => (none_mem k5 hc hu).elim⟩
        · obtain ⟨m5, n5⟩ := one_in k5
          obtain ⟨st', g1, g2, g3, _, g5⟩ := call hf fr (kid c m5) (dep c m5) (last := true) (.inl ⟨_, p5, fun _ => by decide⟩) (by nofun)
            (fun _ e he => hm e (.down (u := .selbri5) (by decide) m5 n5 he))
          refine ⟨st', by rw [k5]; exact g1, g2, g3, ?_⟩
          intro d hd hu
          rw [one_mem k5 hd hu]
          exact g5 rfl
      obtain ⟨st1, e1, f1, l1', c1⟩ := s5
      have s3 : ∃ st2, perhaps (keScan f) (kids cs .keSelbri3)[0]? st1 = .ok st2 ∧ Frame B b x st0 st2 ∧ Le st1 st2 := by
        rcases kids_le hk (by decide) h3 with k3 | ⟨c, k3, p3⟩
        · exact ⟨st1, by rw [k3]; rfl, f1, le_refl _⟩
        · obtain ⟨m3, n3⟩ := one_in k3
          obtain ⟨j, its', ds, rfl, hr', hk'⟩ := on_use keSelbri3_rules p3
          simp only [beq_iff_eq] at hr'
          obtain ⟨d, kd, pd⟩ := kids_one hk' (by decide) hr'
          obtain ⟨md, nd⟩ := one_in kd
          have idd := kid _ m3
          obtain ⟨st', g1, g2, g3, _, _⟩ := call hf f1 (ins_trans idd (ins_child (t := .keSelbri3) idd.nodup md))
            (by have := dep _ m3; have := mem_depth (t := .keSelbri3) (i := j) md; omega) (last := false) (.inl ⟨_, pd, by nofun⟩)
            (by nofun) (by nofun)
          refine ⟨st', ?_, g2, g3⟩
          rw [k3]
          change keScan f _ st1 = _
          rw [keScan, find_kids, kd]
          exact g1
      obtain ⟨st2, e2, f2, l2⟩ := s3
      have i4 := ih (b' := false) (y := c4) (st := st2) (by have := mem_depth (t := .selbri4) (i := i) m4; omega) (by have := dep c4 m4; omega)
        p4 (kid c4 m4) f2 (fun e he => hm e (.down (u := .selbri4) (by decide) m4 n4 he))
      obtain ⟨st3, e3, f3, l3, c3⟩ := i4
      refine ⟨st3, ?_, f3, le_trans l1' (le_trans l2 l3), ?_⟩
      · simp only [h0, find_kids, bind, Except.bind, e1, e2, k4]
        rw [if_pos l1]
        exact e3
      · intro e he
        obtain ⟨u, d, hs, hdm, hu, he'⟩ := mark_down (by decide) he
        have : u = .selbri4 ∨ u = .selbri5 := by
          revert hs; simp [steps]
        rcases this with rfl | rfl
        · rw [one_mem k4 hdm hu] at he'
          exact c3 e he'
        · exact (le_trans l2 l3).2 e (c1 d hdm hu e he')

theorem loopDown_ok {t u : NT} (ht3 : t ≠ .selbri3) (htu : t ∉ [NT.tanruUnit2, .jaiTagTu2, .nuNaiSeq]) (hlu : u ∈ lastNTs)
    (hst : ∀ v, (t, v) ∈ steps → v = t ∨ v = u) (hs1 : (t, t) ∈ steps) (hs2 : (t, u) ∈ steps)
    (hr : ∀ y, Parse t y → ∃ i cs, y = .nt i t cs ∧ ((t = .selbri6 ∧ kids cs u = []) ∨ ∃ c, kids cs u = [c] ∧ Parse u c) ∧
      (kids cs t = [] ∨ ∃ c, kids cs t = [c] ∧ Parse t c)) :
    ∀ (fuel : Nat) {b' : Bool} {y : Node} {st : St}, y.depth ≤ fuel → y.depth ≤ n → Parse t y → Ins b x b' y →
    Frame B b x st0 st → (∀ e, Mark y e → B e) →
    ∃ st', loopDown f t u fuel y st = .ok st' ∧ Frame B b x st0 st' ∧ Le st st' ∧ ∀ e, Mark y e → e ∈ st'.2 := by
  intro fuel
  induction fuel with
  | zero =>
    intro b' y st hd _ hp
    obtain ⟨_, _, _, rfl, _⟩ := parse_inv hp
    rw [depth_nt] at hd; omega
  | succ fuel ih =>
    intro b' y st hd hn hp ins fr hm
    obtain ⟨i, cs, rfl, hu, htt⟩ := hr y hp
    have kid : ∀ c ∈ cs, Ins b x false c := fun c hc => by
      have := ins_trans ins (ins_child ins.nodup hc)
      simpa [ht3] using this
    have dep : ∀ c ∈ cs, c.depth < n := fun c hc => by
      have := mem_depth (t := t) (i := i) hc; omega
    rw [loopDown]
    have su : ∃ st1, (if t = .selbri6 then perhaps else surely) (f true) (kids cs u)[0]? st = .ok st1 ∧ Frame B b x st0 st1 ∧ Le st st1 ∧
        ∀ c ∈ cs, c.isNT u = true → ∀ e, Mark c e → e ∈ st1.2 := by
      rcases hu with ⟨h6, ku⟩ | ⟨c, ku, pu⟩
      · refine ⟨st, ?_, fr, le_refl _, fun c hc hu => (none_mem ku hc hu).elim⟩
        rw [ku, if_pos h6]; rfl
      · obtain ⟨mu, nu⟩ := one_in ku
        obtain ⟨st', g1, g2, g3, _, g5⟩ := call hf fr (kid c mu) (dep c mu) (last := true) (.inl ⟨_, pu, fun _ => hlu⟩) (by nofun)
          (fun _ e he => hm e (.down (u := u) hs2 mu nu he))
        refine ⟨st', ?_, g2, g3, ?_⟩
        · rw [ku]
          split <;> exact g1
        · intro d hd hu
          rw [one_mem ku hd hu]
          exact g5 rfl
    obtain ⟨st1, e1, f1, l1, c1⟩ := su
    rcases htt with kt | ⟨c, kt, pt⟩
    · refine ⟨st1, ?_, f1, l1, ?_⟩
      · simp only [find_kids, bind, Except.bind, e1, kt]
        rfl
      · intro e he
        obtain ⟨v, d, hs, hdm, hv, he'⟩ := mark_down htu he
        rcases hst v hs with rfl | rfl
        · exact (none_mem kt hdm hv).elim
        · exact c1 d hdm hv e he'
    · obtain ⟨mt, nt⟩ := one_in kt
      obtain ⟨st2, e2, f2, l2, c2⟩ := ih (b' := false) (y := c) (st := st1) (by have := mem_depth (t := t) (i := i) mt; omega)
        (by have := dep c mt; omega) pt (kid c mt) f1 (fun e he => hm e (.down (u := t) hs1 mt nt he))
      refine ⟨st2, ?_, f2, le_trans l1 l2, ?_⟩
      · simp only [find_kids, bind, Except.bind, e1, kt]
        exact e2
      · intro e he
        obtain ⟨v, d, hs, hdm, hv, he'⟩ := mark_down htu he
        rcases hst v hs with rfl | rfl
        · rw [one_mem kt hdm hv] at he'
          exact c2 e he'
        · exact l2.2 e (c1 d hdm hv e he')

end

end Jbo.Convert
