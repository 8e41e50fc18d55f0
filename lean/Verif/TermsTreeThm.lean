import Verif.TermsTree
/-!
# The walk through selbri and bridi gives each word the terms of the specification
-/

namespace Jbo.Terms
open Spec

theorem lcAppend_ok {lc : List LC} {e : LC} (h : lc.length < 20) : lcAppend lc e = .ok (lc ++ [e]) := by
  rw [lcAppend, if_pos (by unfold maxTerms; exact h)]

/-- All linked sumti fit into a vector. -/
def Spec.Sb.Fits : Sb → Prop
  | .leaf _ => True
  | .links es a => es.length ≤ maxTerms ∧ a.Fits
  | .se _ _ a => a.Fits
  | .jai a => a.Fits
  | .jaiTag _ _ a => a.Fits
  | .joined a b => a.Fits ∧ b.Fits
  | .co a b => a.Fits ∧ b.Fits
  | .mute => True

theorem length_ne_one {cs : List Node} (h : 1 < cs.length) : ¬ cs.length = 1 := by omega

theorem selbri4_single {j : Nat} {ds : List Node} {a : Sb} (h : SbR (.nt j .selbri4 ds) a) (hl : ¬ ds.length > 1) :
    (∃ s5 xs, kids ds .selbri5 = s5 :: xs) ∧ kids ds .selbri4 = [] := by
  cases h with
  | selbri hc _ => cases hc
  | selbriCo hc _ _ _ _ => cases hc
  | conn k5 k4 _ => exact ⟨⟨_, _, k5⟩, k4⟩
  | connMore h _ _ _ _ => exact absurd h hl
  | connKe h _ _ _ _ _ _ => exact absurd h hl

theorem selbri_jobs {x : Node} {a : Sb} (h : SbR x a) {pre post : List Entry} {lc : List LC} (hfit : a.Fits)
    (hl : lc.length + a.chain ≤ 20) (E : Job → List Ev) (hE : ∀ j ∈ jobs a pre post lc, leafRun j = .ok (E j)) :
    ∃ evs, evs.filter keep = (jobs a pre post lc).flatMap E ∧ ∀ fuel, x.depth ≤ fuel → procOf x fuel pre post lc = .ok evs := by
  induction h generalizing pre post lc with
  | @selbri s j cs a hc _ ih =>
    obtain ⟨evs, e1, e2⟩ := ih hfit hl hE
    refine ⟨evs, e1, fun fuel hf => ?_⟩
    obtain ⟨i, ds, rfl⟩ := core_type hc
    have d1 := core_depth hc
    cases fuel with
    | zero => rw [depth_nt] at hf; omega
    | succ fuel =>
      obtain ⟨k, hk⟩ := core_find hc fuel hf
      have d2 := depth_le (List.mem_singleton.2 rfl : Node.nt j .selbri3 cs ∈ [Node.nt j .selbri3 cs])
      have := e2 fuel (by omega)
      simp only [procOf, selbriArgs, typeCheck_nt, ok_bind, hk, childRef_zero, nch_nt] at this ⊢
      rw [if_neg (by simp)]
      exact this
  | @selbriCo s j cs ds k es a b hc hd hlast _ _ iha ihb =>
    obtain ⟨f1, f2⟩ := hfit
    simp only [Sb.chain] at hl
    obtain ⟨e1, a1, a2⟩ := iha (pre := pre) (post := []) (lc := lc) f1 (by omega)
      (fun j hj => hE j (by simp only [jobs]; exact List.mem_append.2 (.inl hj)))
    obtain ⟨e2, b1, b2⟩ := ihb (pre := []) (post := post) (lc := lc) f2 (by omega)
      (fun j hj => hE j (by simp only [jobs]; exact List.mem_append.2 (.inr hj)))
    refine ⟨e1 ++ e2, by simp only [jobs, List.filter_append, List.flatMap_append, a1, b1], fun fuel hf => ?_⟩
    obtain ⟨i, xs, rfl⟩ := core_type hc
    have d1 := core_depth hc
    cases fuel with
    | zero => rw [depth_nt] at hf; omega
    | succ fuel =>
      obtain ⟨k', hk⟩ := core_find hc fuel hf
      have d2 := depth_le (List.mem_cons_self .. : Node.nt j .selbri3 cs ∈ Node.nt j .selbri3 cs :: ds)
      obtain ⟨d3, j', r, hr⟩ := last_find hlast k' fuel (by omega)
      have t1 := a2 fuel (by omega)
      have t2 := b2 fuel (by omega)
      have hlen : 1 < (Node.nt j .selbri3 cs :: ds).length := by
        cases ds with
        | nil => exact absurd rfl hd
        | cons _ _ => simp
      simp only [procOf, selbriArgs, typeCheck_nt, ok_bind, hk, childRef_zero, nch_nt] at t1 t2 ⊢
      rw [if_pos hlen, t1, ok_bind, hr]
      simp only [ok_bind, childRef_zero, t2]
      rfl
  | @tanru i cs s4 xs a hk h4 ih =>
    obtain ⟨evs, e1, e2⟩ := ih hfit hl hE
    refine ⟨evs, e1, fun fuel hf => ?_⟩
    obtain ⟨_, j, ds, rfl⟩ := kids_mem hk
    have d := kids_depth hk
    rw [depth_nt] at hf
    cases fuel with
    | zero => omega
    | succ fuel =>
      simp only [procOf, selbri3Args, typeCheck_nt, ok_bind, findNth_some hk, deref, nch_nt]
      by_cases hlen : ds.length > 1
      · rw [if_pos hlen]; exact e2 fuel (by omega)
      · rw [if_neg hlen]
        obtain ⟨k5, k4⟩ := selbri4_single h4 hlen
        obtain ⟨s5, xs5, k5⟩ := k5
        have := e2 (fuel + 1) (by omega)
        simp only [procOf, selbri4Loop, findNth_some k5, findNth_none k4, ok_bind] at this
        simp only [findNth_some k5, ok_bind]
        cases hs : selbri5Args fuel s5 pre post lc with
        | error c => rw [hs] at this; cases this
        | ok v => rw [hs] at this; exact this
  | @conn i cs s5 xs a k5 k4 _ ih =>
    obtain ⟨evs, e1, e2⟩ := ih hfit hl hE
    refine ⟨evs, e1, fun fuel hf => ?_⟩
    obtain ⟨_, j, ds, rfl⟩ := kids_mem k5
    have d := kids_depth k5
    rw [depth_nt] at hf
    cases fuel with
    | zero => omega
    | succ fuel =>
      have := e2 fuel (by omega)
      simp only [procOf, selbri4Loop, findNth_some k5, findNth_none k4, ok_bind] at this ⊢
      rw [this]; rfl
  | @connMore i cs s5 xs s4 ys a b hlen k5 k4 _ _ iha ihb =>
    obtain ⟨f1, f2⟩ := hfit
    simp only [Sb.chain] at hl
    obtain ⟨e1, a1, a2⟩ := iha (pre := pre) (post := post) (lc := lc) f1 (by omega)
      (fun j hj => hE j (by simp only [jobs]; exact List.mem_append.2 (.inl hj)))
    obtain ⟨e2, b1, b2⟩ := ihb (pre := pre) (post := post) (lc := lc) f2 (by omega)
      (fun j hj => hE j (by simp only [jobs]; exact List.mem_append.2 (.inr hj)))
    refine ⟨e1 ++ e2, by simp only [jobs, List.filter_append, List.flatMap_append, a1, b1], fun fuel hf => ?_⟩
    obtain ⟨_, j, ds, rfl⟩ := kids_mem k5
    obtain ⟨_, j', ds', rfl⟩ := kids_mem k4
    have d := kids_depth k5
    have d' := kids_depth k4
    rw [depth_nt] at hf
    cases fuel with
    | zero => omega
    | succ fuel =>
      have t1 := a2 fuel (by omega)
      have t2 := b2 fuel (by omega)
      simp only [procOf] at t1 t2
      simp only [procOf, selbri4Loop, findNth_some k5, findNth_some k4, ok_bind, t1, t2]
      rfl
  | @connKe i cs j t ds xs s3 zs s4 ys a b hlen k5 kk k3 k4 _ _ iha ihb =>
    obtain ⟨f1, f2⟩ := hfit
    simp only [Sb.chain] at hl
    obtain ⟨e1, a1, a2⟩ := iha (pre := pre) (post := post) (lc := lc) f1 (by omega)
      (fun j hj => hE j (by simp only [jobs]; exact List.mem_append.2 (.inl hj)))
    obtain ⟨e2, b1, b2⟩ := ihb (pre := pre) (post := post) (lc := lc) f2 (by omega)
      (fun j hj => hE j (by simp only [jobs]; exact List.mem_append.2 (.inr hj)))
    refine ⟨e1 ++ e2, by simp only [jobs, List.filter_append, List.flatMap_append, a1, b1], fun fuel hf => ?_⟩
    obtain ⟨_, j3, ds3, rfl⟩ := kids_mem k3
    obtain ⟨_, j', ds', rfl⟩ := kids_mem k4
    have d := kids_depth kk
    have d3 := kids_depth k3
    have d' := kids_depth k4
    rw [depth_nt] at hf d
    cases fuel with
    | zero => omega
    | succ fuel =>
      have t1 := a2 fuel (by omega)
      have t2 := b2 fuel (by omega)
      simp only [procOf] at t1 t2
      simp only [procOf, selbri4Loop, findNth_none k5, findNth_some kk, findNth_some k3, findNth_some k4, asserted, ok_bind, t1, t2]
      rfl
  | @bo i cs s6 xs a k6 k5 _ ih =>
    obtain ⟨evs, e1, e2⟩ := ih hfit hl hE
    refine ⟨evs, e1, fun fuel hf => ?_⟩
    obtain ⟨_, j, ds, rfl⟩ := kids_mem k6
    have d := kids_depth k6
    rw [depth_nt] at hf
    cases fuel with
    | zero => omega
    | succ fuel =>
      have := e2 fuel (by omega)
      simp only [procOf] at this
      simp only [procOf, selbri5Args, findNth_some k6, findNth_none k5, deref, ok_bind, this]
      rfl
  | @boMore i cs s6 xs s5 ys a b k6 k5 _ _ iha ihb =>
    obtain ⟨f1, f2⟩ := hfit
    simp only [Sb.chain] at hl
    obtain ⟨e1, a1, a2⟩ := iha (pre := pre) (post := post) (lc := lc) f1 (by omega)
      (fun j hj => hE j (by simp only [jobs]; exact List.mem_append.2 (.inl hj)))
    obtain ⟨e2, b1, b2⟩ := ihb (pre := pre) (post := post) (lc := lc) f2 (by omega)
      (fun j hj => hE j (by simp only [jobs]; exact List.mem_append.2 (.inr hj)))
    refine ⟨e1 ++ e2, by simp only [jobs, List.filter_append, List.flatMap_append, a1, b1], fun fuel hf => ?_⟩
    obtain ⟨_, j, ds, rfl⟩ := kids_mem k6
    obtain ⟨_, j', ds', rfl⟩ := kids_mem k5
    have d := kids_depth k6
    have d' := kids_depth k5
    rw [depth_nt] at hf
    cases fuel with
    | zero => omega
    | succ fuel =>
      have t1 := a2 fuel (by omega)
      have t2 := b2 fuel (by omega)
      simp only [procOf] at t1 t2
      simp only [procOf, selbri5Args, findNth_some k6, findNth_some k5, deref, ok_bind, t1, t2]
      rfl
  | @unit i j k cs a _ ih =>
    obtain ⟨evs, e1, e2⟩ := ih hfit hl hE
    refine ⟨evs, e1, fun fuel hf => ?_⟩
    simp only [depth_nt, depthList, Nat.max_zero] at hf e2
    cases fuel with
    | zero => omega
    | succ fuel =>
      have := e2 fuel (by omega)
      simp only [procOf] at this
      simp only [procOf, selbri6Args, typeCheck_nt, nch_nt, ok_bind, childRef_zero]
      rw [if_pos (by rfl), if_neg (by simp)]
      exact this
  | @cei i j cs hlen =>
    refine ⟨[], rfl, fun fuel hf => ?_⟩
    rw [depth_nt] at hf
    cases fuel with
    | zero => omega
    | succ fuel =>
      simp only [procOf, selbri6Args, typeCheck_nt, nch_nt, ok_bind, childRef_zero]
      rw [if_pos (by rfl), if_pos hlen]
      rfl
  | @unitBo i cs tu ts s6 xs a hlen kt k6 _ ih =>
    obtain ⟨evs, e1, e2⟩ := ih hfit hl hE
    refine ⟨evs, e1, fun fuel hf => ?_⟩
    obtain ⟨_, j, ds, rfl⟩ := kids_mem k6
    have d := kids_depth k6
    rw [depth_nt] at hf
    cases fuel with
    | zero => omega
    | succ fuel =>
      have := e2 fuel (by omega)
      simp only [procOf] at this
      simp only [procOf, selbri6Args, typeCheck_nt, nch_nt, ok_bind]
      rw [if_neg (length_ne_one hlen)]
      simp only [findNth_some kt, findNth_some k6, deref, ok_bind]
      exact this
  | @guhek i cs s ss s6 xs a b hlen kt ks k6 _ _ iha ihb =>
    obtain ⟨f1, f2⟩ := hfit
    simp only [Sb.chain] at hl
    obtain ⟨e1, a1, a2⟩ := iha (pre := pre) (post := post) (lc := lc) f1 (by omega)
      (fun j hj => hE j (by simp only [jobs]; exact List.mem_append.2 (.inl hj)))
    obtain ⟨e2, b1, b2⟩ := ihb (pre := pre) (post := post) (lc := lc) f2 (by omega)
      (fun j hj => hE j (by simp only [jobs]; exact List.mem_append.2 (.inr hj)))
    refine ⟨e1 ++ e2, by simp only [jobs, List.filter_append, List.flatMap_append, a1, b1], fun fuel hf => ?_⟩
    obtain ⟨_, j, ds, rfl⟩ := kids_mem ks
    obtain ⟨_, j', ds', rfl⟩ := kids_mem k6
    have d := kids_depth ks
    have d' := kids_depth k6
    rw [depth_nt] at hf
    cases fuel with
    | zero => omega
    | succ fuel =>
      have t1 := a2 fuel (by omega)
      have t2 := b2 fuel (by omega)
      simp only [procOf] at t1 t2
      simp only [procOf, selbri6Args, typeCheck_nt, nch_nt, ok_bind]
      rw [if_neg (length_ne_one hlen)]
      simp only [findNth_none kt, findNth_some ks, findNth_some k6, deref, ok_bind, t1, t2]
      rfl
  | @plain i j cs a _ ih =>
    obtain ⟨evs, e1, e2⟩ := ih hfit hl hE
    refine ⟨evs ++ [.done i], by rw [List.filter_append, e1]; simp [keep], fun fuel hf => ?_⟩
    simp only [depth_nt, depthList, Nat.max_zero] at hf e2
    cases fuel with
    | zero => omega
    | succ fuel =>
      have := e2 fuel (by omega)
      simp only [procOf] at this
      simp only [procOf, tu1Args, linksOf, typeCheck_nt, Node.children, ok_bind, List.length_singleton, childRef_zero]
      rw [if_neg (by omega)]
      simp only [pure, Except.pure, bind, Except.bind, this]
      rfl
  | @linked i j k cs ls r es a _ hla ih =>
    simp only [Sb.chain] at hl
    obtain ⟨evs, e1, e2⟩ := ih (pre := pre) (post := post) (lc := lc ++ [LC.links es]) hfit.2 (by simp only [List.length_append, List.length_singleton]; omega) hE
    refine ⟨evs ++ [.done i], by rw [List.filter_append, e1]; simp [keep, jobs], fun fuel hf => ?_⟩
    rw [depth_nt] at hf
    have d1 := depth_le (List.mem_cons_self .. : Node.nt j .tanruUnit2 cs ∈ Node.nt j .tanruUnit2 cs :: .nt k .linkargs ls :: r)
    have d2 := depth_le (List.mem_cons_of_mem _ (List.mem_cons_self ..) : Node.nt k .linkargs ls ∈ Node.nt j .tanruUnit2 cs :: .nt k .linkargs ls :: r)
    cases fuel with
    | zero => omega
    | succ fuel =>
      have := e2 fuel (by omega)
      simp only [procOf] at this
      simp only [procOf, tu1Args, linksOf, typeCheck_nt, Node.children, ok_bind, childRef_zero, childRef_one, List.length_cons]
      rw [if_pos (by omega), links_build hla [] (by simpa using hfit.1) fuel (by omega)]
      simp only [List.nil_append, pure, Except.pure, bind, Except.bind, lcAppend_ok (show lc.length < 20 by omega), this]
      rfl
  | @word i cs l h =>
    obtain ⟨evs, e1, e2⟩ := leaf_run (i := i) h (hE _ (by simp only [jobs]; exact List.mem_singleton.2 rfl))
    refine ⟨evs, by rw [e1]; simp [jobs], fun fuel hf => ?_⟩
    rw [depth_nt] at hf
    cases fuel with
    | zero => omega
    | succ fuel => exact e2 fuel
  | @ke i j cs r s3 xs a k3 _ ih =>
    obtain ⟨evs, e1, e2⟩ := ih hfit hl hE
    refine ⟨evs, e1, fun fuel hf => ?_⟩
    obtain ⟨_, j', ds, rfl⟩ := kids_mem k3
    have d := kids_depth k3
    rw [depth_nt] at hf
    have d1 := depth_le (List.mem_cons_self .. : Node.nt j .keSelbri3Tu2 cs ∈ Node.nt j .keSelbri3Tu2 cs :: r)
    rw [depth_nt] at d1
    cases fuel with
    | zero => omega
    | succ fuel =>
      have := e2 fuel (by omega)
      simp only [procOf] at this
      simp only [procOf, tu2Args, typeCheck_nt, ok_bind, childRef_zero]
      rw [maybeStrip, if_neg (by simp [Node.isNT])]
      simp only [ok_bind, findNth_some k3, asserted]
      exact this
  | @se i j c k w p cs r u us a hw hp ku _ ih =>
    simp only [Sb.chain] at hl
    obtain ⟨evs, e1, e2⟩ := ih (pre := pre) (post := post) (lc := lc ++ [LC.se p c.id]) hfit (by simp only [List.length_append, List.length_singleton]; omega) hE
    refine ⟨evs, e1, fun fuel hf => ?_⟩
    obtain ⟨_, j', ds, rfl⟩ := kids_mem ku
    have d := kids_depth ku
    rw [depth_nt] at hf
    have d1 := depth_le (List.mem_cons_self .. : Node.nt j .seTu2 (c :: cs) ∈ Node.nt j .seTu2 (c :: cs) :: r)
    rw [depth_nt] at d1
    cases fuel with
    | zero => omega
    | succ fuel =>
      have := e2 fuel (by omega)
      simp only [procOf] at this
      simp only [procOf, tu2Args, typeCheck_nt, ok_bind, childRef_zero]
      rw [maybeStrip, if_neg (by simp [Node.isNT])]
      simp only [ok_bind, childRef_zero, findNth_some ku, asserted, recoverSe_ok hw hp, lcAppend_ok (show lc.length < 20 by omega)]
      exact this
  | @jai i j cs r u us a ku _ ih =>
    simp only [Sb.chain] at hl
    obtain ⟨evs, e1, e2⟩ := ih (pre := pre) (post := post) (lc := lc ++ [LC.jai]) hfit (by simp only [List.length_append, List.length_singleton]; omega) hE
    refine ⟨evs, e1, fun fuel hf => ?_⟩
    obtain ⟨_, j', ds, rfl⟩ := kids_mem ku
    have d := kids_depth ku
    rw [depth_nt] at hf
    have d1 := depth_le (List.mem_cons_self .. : Node.nt j .jaiTu2 cs ∈ Node.nt j .jaiTu2 cs :: r)
    rw [depth_nt] at d1
    cases fuel with
    | zero => omega
    | succ fuel =>
      have := e2 fuel (by omega)
      simp only [procOf] at this
      simp only [procOf, tu2Args, typeCheck_nt, ok_bind, childRef_zero]
      rw [maybeStrip, if_neg (by simp [Node.isNT])]
      simp only [ok_bind, findNth_some ku, asserted, lcAppend_ok (show lc.length < 20 by omega)]
      exact this
  | @jaiTag i j cs r t ts u us a kt ku _ ih =>
    simp only [Sb.chain] at hl
    obtain ⟨evs, e1, e2⟩ := ih (pre := pre) (post := post) (lc := lc ++ [LC.jaiTag t.id u.id]) hfit (by simp only [List.length_append, List.length_singleton]; omega) hE
    refine ⟨.brac u.id :: evs, by rw [List.filter_cons, if_neg (by simp [keep]), e1]; rfl, fun fuel hf => ?_⟩
    obtain ⟨_, j', ds, rfl⟩ := kids_mem ku
    have d := kids_depth ku
    rw [depth_nt] at hf
    have d1 := depth_le (List.mem_cons_self .. : Node.nt j .jaiTagTu2 cs ∈ Node.nt j .jaiTagTu2 cs :: r)
    rw [depth_nt] at d1
    cases fuel with
    | zero => omega
    | succ fuel =>
      have := e2 fuel (by omega)
      simp only [procOf] at this
      simp only [procOf, tu2Args, typeCheck_nt, ok_bind, childRef_zero]
      rw [maybeStrip, if_neg (by simp [Node.isNT])]
      simp only [ok_bind, findNth_some kt, findNth_some ku, asserted, lcAppend_ok (show lc.length < 20 by omega), this]
      rfl
  | @nahe i j cs r u us a ku _ ih =>
    obtain ⟨evs, e1, e2⟩ := ih hfit hl hE
    refine ⟨evs, e1, fun fuel hf => ?_⟩
    obtain ⟨_, j', ds, rfl⟩ := kids_mem ku
    have d := kids_depth ku
    rw [depth_nt] at hf
    have d1 := depth_le (List.mem_cons_self .. : Node.nt j .naheTu2 cs ∈ Node.nt j .naheTu2 cs :: r)
    rw [depth_nt] at d1
    cases fuel with
    | zero => omega
    | succ fuel =>
      have := e2 fuel (by omega)
      simp only [procOf] at this
      simp only [procOf, tu2Args, typeCheck_nt, ok_bind, childRef_zero]
      rw [maybeStrip, if_neg (by simp [Node.isNT])]
      simp only [ok_bind, findNth_some ku, asserted]
      exact this
  | @nus i j k m cs ds es r =>
    refine ⟨[], rfl, fun fuel hf => ?_⟩
    rw [depth_nt] at hf
    cases fuel with
    | zero => omega
    | succ fuel =>
      simp only [procOf, tu2Args, typeCheck_nt, ok_bind, childRef_zero]
      rw [maybeStrip, if_neg (by simp [Node.isNT])]
      simp only [ok_bind, childRef_zero, typeCheck_nt]
      rw [maybeStrip, if_neg (by simp [Node.isNT])]
      rfl

end Jbo.Terms
