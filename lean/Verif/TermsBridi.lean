import Verif.TermsTreeThm
/-!
# The terms of a sentence reach the selbri that the specification names
-/

namespace Jbo.Terms
open Spec

/-- Every `gi'e … ke` has terms after it. -/
def Spec.Br.Tailed : Br → Prop
  | .main _ _ => True
  | .both a b _ => a.Tailed ∧ b.Tailed
  | .ke a b t => t ≠ none ∧ a.Tailed ∧ b.Tailed
  | .under _ a => a.Tailed

/-- Vectors within the limit. -/
def Spec.Share.Fits (s : Share) : Prop := s.pre.length ≤ maxTerms ∧ s.post.length ≤ maxTerms

/-- The function of the code for a node. -/
def brProc (x : Node) (fuel : Nat) (pre : List Entry) (post : Option (List Entry)) : M (List Ev) :=
  match x with
  | .nt _ .subsentence _ => subsentenceArgs fuel x pre post
  | .nt _ .bridiTail _ => bridiTailArgs fuel x pre post
  | .nt _ .bridiTail1 _ => bridiTail1Args fuel x pre post
  | .nt _ .bridiTail2 _ => bridiTail2Args fuel x pre post
  | .nt _ .bridiTail3 _ => bridiTail3Args fuel x pre post
  | _ => .error .assertion

theorem give_len (a : Br) (pre post : List Entry) :
    ∃ s ∈ give a pre post, pre.length ≤ s.pre.length ∧ post.length ≤ s.post.length := by
  induction a generalizing pre post with
  | main ms t => exact ⟨_, List.mem_singleton.2 rfl, Nat.le_refl _, by simp only [List.length_append]; omega⟩
  | both a b t iha _ =>
    obtain ⟨s, h1, h2, h3⟩ := iha pre (t.getD [] ++ post)
    rw [List.length_append] at h3
    exact ⟨s, List.mem_append.2 (.inl h1), h2, by omega⟩
  | ke a b t iha _ =>
    obtain ⟨s, h1, h2, h3⟩ := iha pre (t.getD [] ++ post)
    rw [List.length_append] at h3
    exact ⟨s, List.mem_append.2 (.inl h1), h2, by omega⟩
  | under h a iha =>
    obtain ⟨s, h1, h2, h3⟩ := iha (pre ++ h) post
    rw [List.length_append] at h2
    exact ⟨s, h1, by omega, h3⟩

theorem tail_ok {cs : List Node} {t : Option (List Entry)} (h : TailR cs t) (hl : (t.getD []).length ≤ maxTerms) (i : Nat) (ty : NT)
    (fuel : Nat) (hf : depthList cs ≤ fuel) : tailOf fuel (.nt i ty cs) = .ok t := by
  cases h with
  | none h => simp only [tailOf, findNth_none h, ok_bind]; rfl
  | vau h1 h2 => simp only [tailOf, findNth_some h1, findNth_none h2, ok_bind]; rfl
  | terms h1 h2 h3 =>
    have d1 := kids_depth h1
    have d2 := kids_depth h2
    rw [depth_nt] at d1
    simp only [Option.getD_some] at hl
    simp only [tailOf, findNth_some h1, findNth_some h2, ok_bind, terms_vector h3 hl fuel (by omega)]
    rfl

theorem postAfter_ok {t : Option (List Entry)} {post : List Entry} (h : (t.getD [] ++ post).length ≤ maxTerms) :
    postAfter t (some post) = .ok (some (t.getD [] ++ post)) := by
  cases t with
  | none => rfl
  | some t =>
    rw [List.length_append] at h
    simp only [postAfter, tvCatenate, Option.getD_some] at *
    rw [if_pos h]; rfl

theorem sen_find {ss s : Node} (h : SenR ss s) (hs : 1 ≤ s.depth) (fuel : Nat) (hf : ss.depth ≤ fuel + 1) :
    innerSentence fuel ss = .ok s ∧ s.depth + 1 ≤ ss.depth := by
  induction h generalizing fuel with
  | @here i s =>
    have := depth_le (List.mem_singleton.2 rfl : s ∈ [s])
    rw [depth_nt] at hf ⊢
    cases fuel with
    | zero => omega
    | succ fuel => exact ⟨rfl, by omega⟩
  | @prenex i p x s h ih =>
    have := depth_le (List.mem_cons_of_mem _ (List.mem_singleton.2 rfl) : x ∈ [p, x])
    rw [depth_nt] at hf ⊢
    cases fuel with
    | zero =>
      have := ih hs 0 (by omega)
      omega
    | succ fuel =>
      obtain ⟨h1, h2⟩ := ih hs fuel (by omega)
      refine ⟨?_, by omega⟩
      simp only [innerSentence, nch_nt, ok_bind, List.length_cons, List.length_nil, if_true, childRef_one]
      exact h1

theorem sen_type {ss s : Node} (h : SenR ss s) : ∃ i cs, ss = .nt i .subsentence cs := by
  cases h <;> exact ⟨_, _, rfl⟩

theorem body_find {s : Node} {cs : List Node} (h : BodyR s cs) :
    ∃ i j t ds, s = .nt i .sentence ds ∧ sentenceBody s = .ok (.nt j t cs) ∧ depthList cs + 1 ≤ s.depth := by
  cases h with
  | noCu => exact ⟨_, _, _, _, rfl, rfl, by simp [Node.depth, depthList]⟩
  | observative => exact ⟨_, _, _, _, rfl, rfl, by simp [Node.depth, depthList]⟩
  | cu hl =>
    rename_i i
    refine ⟨i, i, .sentence, cs, rfl, ?_, by simp [Node.depth]⟩
    cases cs with
    | nil => simp at hl
    | cons c cs =>
      cases cs with
      | nil => simp at hl
      | cons d cs => cases c <;> first | rfl | (rename_i t _; cases t <;> rfl)

theorem gek_find {g : Node} {ks : List Node} (h : GekR g ks) (fuel : Nat) (hf : g.depth ≤ fuel) :
    ∃ i, innerGek fuel g = .ok (.nt i .gekSentence ks) ∧ depthList ks + 1 ≤ g.depth := by
  induction h generalizing fuel with
  | @here i j ks cs =>
    rw [depth_nt] at hf
    cases fuel with
    | zero => omega
    | succ fuel => exact ⟨i, rfl, by rw [depth_nt]; exact Nat.le_refl _⟩
  | @inner i c cs g gs ks hc hk _ ih =>
    have d := kids_depth hk
    rw [depth_nt] at hf ⊢
    cases fuel with
    | zero => omega
    | succ fuel =>
      obtain ⟨i', h1, h2⟩ := ih fuel (by omega)
      refine ⟨i', ?_, by omega⟩
      simp only [innerGek, childRef_zero, ok_bind, hc, findNth_some hk, deref]
      exact h1

theorem gek_type {g : Node} {ks : List Node} (h : GekR g ks) : ∃ i cs, g = .nt i .gekSentence cs := by
  cases h <;> exact ⟨_, _, rfl⟩

/-- **Every term reaches its selbri.**  Missing: `gi'e … ke` without terms after it, see `ke_uninit`. -/
theorem bridi_shares_partial {x : Node} {a : Br} (h : BrR x a) (ht : a.Tailed) {pre post : List Entry}
    (hfit : ∀ s ∈ give a pre post, s.Fits) (R : Share → List Ev)
    (hR : ∀ s ∈ give a pre post, ∀ fuel, s.ms.depth ≤ fuel → mainSelbriArgs fuel s.ms s.pre (some s.post) = .ok (R s)) :
    ∀ fuel, x.depth ≤ fuel → brProc x fuel pre (some post) = .ok ((give a pre post).flatMap R) := by
  induction h generalizing pre post with
  | @sub ss s cs h bt bts a h1 h2 h3 h4 _ ih =>
    intro fuel hf
    obtain ⟨i, ds, rfl⟩ := sen_type h1
    obtain ⟨i', j, t, es, rfl, b1, b2⟩ := body_find h2
    obtain ⟨_, j', es', rfl⟩ := kids_mem h4
    have d4 := kids_depth h4
    rw [depth_nt] at b2 hf
    cases fuel with
    | zero => omega
    | succ fuel =>
      obtain ⟨c1, c2⟩ := sen_find h1 (by rw [depth_nt]; omega) fuel (by rw [depth_nt]; omega)
      rw [depth_nt, depth_nt] at c2
      have := ih ht (pre := pre ++ h) (post := post) hfit hR fuel (by omega)
      simp only [brProc] at this
      simp only [brProc, subsentenceArgs, typeCheck_nt, ok_bind, c1, b1]
      cases h3 with
      | none k =>
        simp only [findNth_none k, findNth_some h4, asserted, ok_bind]
        rw [List.append_nil] at this
        simp only [give, List.append_nil]
        exact this
      | terms k kt =>
        have d5 := kids_depth k
        obtain ⟨s, hs, hs1, _⟩ := give_len a (pre ++ h) post
        have hf1 := (hfit s hs).1
        rw [List.length_append] at hs1
        simp only [findNth_some k, findNth_some h4, asserted, ok_bind, terms_vector kt (by omega) fuel (by omega)]
        rw [tvCatenate, if_pos (by omega), ok_bind]
        exact this
  | @tail i j cs a _ ih =>
    intro fuel hf
    have d := depth_le (List.mem_singleton.2 rfl : Node.nt j .bridiTail1 cs ∈ [Node.nt j .bridiTail1 cs])
    rw [depth_nt (i := i)] at hf
    cases fuel with
    | zero => omega
    | succ fuel => exact ih ht hfit hR fuel (by omega)
  | @tailKe i cs x xs y ys t a b hl k1 k2 kt _ _ iha ihb =>
    intro fuel hf
    obtain ⟨ht0, ht1, ht2⟩ := ht
    obtain ⟨_, j, ds, rfl⟩ := kids_mem k1
    obtain ⟨_, j', ds', rfl⟩ := kids_mem k2
    have d1 := kids_depth k1
    have d2 := kids_depth k2
    rw [depth_nt (i := i)] at hf
    obtain ⟨s, hs, _, hs2⟩ := give_len a pre (t.getD [] ++ post)
    have hf1 := (hfit s (List.mem_append.2 (.inl hs))).2
    cases fuel with
    | zero => omega
    | succ fuel =>
      have e1 := iha ht1 (pre := pre) (post := t.getD [] ++ post) (fun s hs => hfit s (List.mem_append.2 (.inl hs)))
        (fun s hs => hR s (List.mem_append.2 (.inl hs))) fuel (by omega)
      have e2 := ihb ht2 (pre := pre) (post := t.getD [] ++ post) (fun s hs => hfit s (List.mem_append.2 (.inr hs)))
        (fun s hs => hR s (List.mem_append.2 (.inr hs))) fuel (by omega)
      simp only [brProc] at e1 e2
      have hlen : (t.getD []).length ≤ maxTerms := by rw [List.length_append] at hs2; omega
      have hta := tail_ok kt hlen i .bridiTail fuel (by omega)
      have hpo := postAfter_ok (t := t) (post := post) (by omega)
      cases t with
      | none => exact absurd rfl ht0
      | some t =>
        cases cs with
        | nil => simp at hl
        | cons c cs =>
          cases cs with
          | nil => simp at hl
          | cons c' cs =>
            simp only [brProc, bridiTailArgs, Node.children, ok_bind, findNth_some k1, findNth_some k2, asserted, hta, hpo, e1, e2, give,
              List.flatMap_append]
            rfl
  | @tail1 i j cs a _ ih =>
    intro fuel hf
    have d := depth_le (List.mem_singleton.2 rfl : Node.nt j .bridiTail2 cs ∈ [Node.nt j .bridiTail2 cs])
    rw [depth_nt (i := i)] at hf
    cases fuel with
    | zero => omega
    | succ fuel => exact ih ht hfit hR fuel (by omega)
  | @tail1and i cs x xs y ys t a b hl k1 k2 kt _ _ iha ihb =>
    intro fuel hf
    obtain ⟨ht1, ht2⟩ := ht
    obtain ⟨_, j, ds, rfl⟩ := kids_mem k1
    obtain ⟨_, j', ds', rfl⟩ := kids_mem k2
    have d1 := kids_depth k1
    have d2 := kids_depth k2
    rw [depth_nt (i := i)] at hf
    obtain ⟨s, hs, _, hs2⟩ := give_len a pre (t.getD [] ++ post)
    have hf1 := (hfit s (List.mem_append.2 (.inl hs))).2
    cases fuel with
    | zero => omega
    | succ fuel =>
      have e1 := iha ht1 (pre := pre) (post := t.getD [] ++ post) (fun s hs => hfit s (List.mem_append.2 (.inl hs)))
        (fun s hs => hR s (List.mem_append.2 (.inl hs))) fuel (by omega)
      have e2 := ihb ht2 (pre := pre) (post := t.getD [] ++ post) (fun s hs => hfit s (List.mem_append.2 (.inr hs)))
        (fun s hs => hR s (List.mem_append.2 (.inr hs))) fuel (by omega)
      simp only [brProc] at e1 e2
      have hlen : (t.getD []).length ≤ maxTerms := by rw [List.length_append] at hs2; omega
      have hta := tail_ok kt hlen i .bridiTail1 fuel (by omega)
      have hpo := postAfter_ok (t := t) (post := post) (by omega)
      cases cs with
      | nil => simp at hl
      | cons c cs =>
        cases cs with
        | nil => simp at hl
        | cons c' cs =>
          simp only [brProc, bridiTail1Args, Node.children, ok_bind, findNth_some k1, findNth_some k2, asserted, hta, hpo, e1, e2, give,
            List.flatMap_append]
          rfl
  | @tail2 i j cs a _ ih =>
    intro fuel hf
    have d := depth_le (List.mem_singleton.2 rfl : Node.nt j .bridiTail3 cs ∈ [Node.nt j .bridiTail3 cs])
    rw [depth_nt (i := i)] at hf
    cases fuel with
    | zero => omega
    | succ fuel => exact ih ht hfit hR fuel (by omega)
  | @tail2and i cs x y ys t a b hl k1 kt _ _ iha ihb =>
    intro fuel hf
    obtain ⟨ht1, ht2⟩ := ht
    have my : y ∈ kids cs .bridiTail2 := by rw [k1]; exact List.mem_cons_of_mem _ (List.mem_cons_self ..)
    have d2 := depth_le (List.mem_filter.1 my).1
    have ty : ∃ j ds, y = .nt j .bridiTail2 ds := by
      have := (List.mem_filter.1 my).2
      cases y with
      | nt j t' ds => simp only [Node.isNT, beq_iff_eq] at this; exact ⟨j, ds, by rw [this]⟩
      | brivla _ => cases this
      | zei _ => cases this
      | cmavo _ _ _ => cases this
      | leaf _ => cases this
    obtain ⟨_, j, ds, rfl⟩ := kids_mem k1
    obtain ⟨j', ds', rfl⟩ := ty
    have d1 := kids_depth k1
    rw [depth_nt (i := i)] at hf
    obtain ⟨s, hs, _, hs2⟩ := give_len a pre (t.getD [] ++ post)
    have hf1 := (hfit s (List.mem_append.2 (.inl hs))).2
    cases fuel with
    | zero => omega
    | succ fuel =>
      have e1 := iha ht1 (pre := pre) (post := t.getD [] ++ post) (fun s hs => hfit s (List.mem_append.2 (.inl hs)))
        (fun s hs => hR s (List.mem_append.2 (.inl hs))) fuel (by omega)
      have e2 := ihb ht2 (pre := pre) (post := t.getD [] ++ post) (fun s hs => hfit s (List.mem_append.2 (.inr hs)))
        (fun s hs => hR s (List.mem_append.2 (.inr hs))) fuel (by omega)
      simp only [brProc] at e1 e2
      have hlen : (t.getD []).length ≤ maxTerms := by rw [List.length_append] at hs2; omega
      have hta := tail_ok kt hlen i .bridiTail2 fuel (by omega)
      have hpo := postAfter_ok (t := t) (post := post) (by omega)
      cases cs with
      | nil => simp at hl
      | cons c cs =>
        cases cs with
        | nil => simp at hl
        | cons c' cs =>
          simp only [brProc, bridiTail2Args, Node.children, ok_bind, findNth_some k1, findNth_two k1, asserted, hta, hpo, e1, e2, give,
            List.flatMap_append]
          rfl
  | @main i j ks cs t kt =>
    intro fuel hf
    have d := depth_le (List.mem_cons_self .. : Node.nt j .mainSelbri ks ∈ Node.nt j .mainSelbri ks :: cs)
    rw [depth_nt (i := i)] at hf
    have hf1 := (hfit _ (List.mem_singleton.2 rfl)).2
    simp only at hf1
    cases fuel with
    | zero => omega
    | succ fuel =>
      have e := hR _ (List.mem_singleton.2 rfl) fuel (by simp only; omega)
      have hlen : (t.getD []).length ≤ maxTerms := by rw [List.length_append] at hf1; omega
      have hta := tail_ok kt hlen i .bridiTail3 fuel (by omega)
      have hpo := postAfter_ok (t := t) (post := post) (by omega)
      simp only [brProc, bridiTail3Args, typeCheck_nt, ok_bind, childRef_zero]
      rw [if_pos (by rfl)]
      simp only [hta, hpo, ok_bind, e, give, List.flatMap_cons, List.flatMap_nil, List.append_nil]
  | @gek i g cs ks x y ys t a b hg k1 kt _ _ iha ihb =>
    intro fuel hf
    obtain ⟨ht1, ht2⟩ := ht
    have my : y ∈ kids ks .subsentence := by rw [k1]; exact List.mem_cons_of_mem _ (List.mem_cons_self ..)
    have d2 := depth_le (List.mem_filter.1 my).1
    have ty : ∃ j ds, y = .nt j .subsentence ds := by
      have := (List.mem_filter.1 my).2
      cases y with
      | nt j t' ds => simp only [Node.isNT, beq_iff_eq] at this; exact ⟨j, ds, by rw [this]⟩
      | brivla _ => cases this
      | zei _ => cases this
      | cmavo _ _ _ => cases this
      | leaf _ => cases this
    obtain ⟨_, j, ds, rfl⟩ := kids_mem k1
    obtain ⟨j', ds', rfl⟩ := ty
    have d1 := kids_depth k1
    have dg := depth_le (List.mem_cons_self .. : g ∈ g :: cs)
    rw [depth_nt (i := i)] at hf
    obtain ⟨s, hs, _, hs2⟩ := give_len a pre (t.getD [] ++ post)
    have hf1 := (hfit s (List.mem_append.2 (.inl hs))).2
    cases fuel with
    | zero => omega
    | succ fuel =>
      obtain ⟨i', g1, g2⟩ := gek_find hg fuel (by omega)
      obtain ⟨i'', gs, rfl⟩ := gek_type hg
      have e1 := iha ht1 (pre := pre) (post := t.getD [] ++ post) (fun s hs => hfit s (List.mem_append.2 (.inl hs)))
        (fun s hs => hR s (List.mem_append.2 (.inl hs))) fuel (by omega)
      have e2 := ihb ht2 (pre := pre) (post := t.getD [] ++ post) (fun s hs => hfit s (List.mem_append.2 (.inr hs)))
        (fun s hs => hR s (List.mem_append.2 (.inr hs))) fuel (by omega)
      simp only [brProc] at e1 e2
      have hlen : (t.getD []).length ≤ maxTerms := by rw [List.length_append] at hs2; omega
      have hta := tail_ok kt hlen i' .gekSentence fuel (by omega)
      have hpo := postAfter_ok (t := t) (post := post) (by omega)
      simp only [brProc, bridiTail3Args, typeCheck_nt, ok_bind, childRef_zero]
      rw [if_neg (by simp [Node.isNT])]
      simp only [g1, ok_bind, findNth_some k1, findNth_two k1, asserted, hta, hpo, e1, e2, give, List.flatMap_append]
      rfl

end Jbo.Terms
