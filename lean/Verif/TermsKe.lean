import Verif.TermsThm
/-!
# Two bridi tails joined with `gi'e … ke` and no terms after them

The first part is given a vector that was never assigned.
-/

namespace Jbo.Terms
open Spec

theorem err_bind {α β : Type} (e : Crash) (f : α → M β) : ((Except.error e : M α) >>= f) = .error e := rfl

/-- With a vector that was never assigned every bridi reads it. -/
theorem bridi_uninit {x : Node} {a : Br} (h : BrR x a) {pre post : List Entry} (hfit : ∀ s ∈ give a pre post, s.Fits) :
    ∀ fuel, x.depth ≤ fuel → brProc x fuel pre none = .error .uninit := by
  induction h generalizing pre post with
  | @sub ss s cs h bt bts a h1 h2 h3 h4 _ ih =>
    intro fuel hf
    obtain ⟨i, ds, rfl⟩ := sen_type h1
    obtain ⟨i', j, t, es, rfl, b1, b2⟩ := body_find h2
    obtain ⟨_, j', es', rfl⟩ := kids_mem h4
    have d4 := kids_depth h4
    rw [depth_nt] at b2 hf
    cases fuel with
    | zero => omega
    | succ fuel =>
      obtain ⟨c1, c2⟩ := sen_find h1 (by rw [depth_nt]; omega) fuel (by rw [depth_nt]; omega)
      rw [depth_nt, depth_nt] at c2
      have := ih (pre := pre ++ h) (post := post) hfit fuel (by omega)
      simp only [brProc] at this
      simp only [brProc, subsentenceArgs, typeCheck_nt, ok_bind, c1, b1]
      cases h3 with
      | none k =>
        simp only [findNth_none k, findNth_some h4, asserted, ok_bind]
        rw [List.append_nil] at this
        exact this
      | terms k kt =>
        have d5 := kids_depth k
        obtain ⟨s, hs, hs1, _⟩ := give_len a (pre ++ h) post
        have hf1 := (hfit s hs).1
        rw [List.length_append] at hs1
        simp only [findNth_some k, findNth_some h4, asserted, ok_bind, terms_vector kt (by omega) fuel (by omega)]
        rw [tvCatenate, if_pos (by omega), ok_bind]
        exact this
  | @tail i j cs a _ ih =>
    intro fuel hf
    have d := depth_le (List.mem_singleton.2 rfl : Node.nt j .bridiTail1 cs ∈ [Node.nt j .bridiTail1 cs])
    rw [depth_nt (i := i)] at hf
    cases fuel with
    | zero => omega
    | succ fuel => exact ih hfit fuel (by omega)
  | @tailKe i cs x xs y ys t a b hl k1 k2 kt _ _ iha ihb =>
    intro fuel hf
    obtain ⟨_, j, ds, rfl⟩ := kids_mem k1
    obtain ⟨_, j', ds', rfl⟩ := kids_mem k2
    have d1 := kids_depth k1
    rw [depth_nt (i := i)] at hf
    obtain ⟨s, hs, _, hs2⟩ := give_len a pre (t.getD [] ++ post)
    have hf1 := (hfit s (List.mem_append.2 (.inl hs))).2
    cases fuel with
    | zero => omega
    | succ fuel =>
      have e1 := iha (pre := pre) (post := t.getD [] ++ post) (fun s hs => hfit s (List.mem_append.2 (.inl hs))) fuel (by omega)
      simp only [brProc] at e1
      have hlen : (t.getD []).length ≤ maxTerms := by rw [List.length_append] at hs2; omega
      have hta := tail_ok kt hlen i .bridiTail fuel (by omega)
      cases cs with
      | nil => simp at hl
      | cons c cs =>
        cases cs with
        | nil => simp at hl
        | cons c' cs =>
          cases t with
          | none => simp only [brProc, bridiTailArgs, Node.children, ok_bind, findNth_some k1, findNth_some k2, asserted, hta, e1, err_bind]
          | some t =>
            simp only [brProc, bridiTailArgs, Node.children, ok_bind, findNth_some k1, findNth_some k2, asserted, hta, postAfter, err_bind]
  | @tail1 i j cs a _ ih =>
    intro fuel hf
    have d := depth_le (List.mem_singleton.2 rfl : Node.nt j .bridiTail2 cs ∈ [Node.nt j .bridiTail2 cs])
    rw [depth_nt (i := i)] at hf
    cases fuel with
    | zero => omega
    | succ fuel => exact ih hfit fuel (by omega)
  | @tail1and i cs x xs y ys t a b hl k1 k2 kt _ _ iha ihb =>
    intro fuel hf
    obtain ⟨_, j, ds, rfl⟩ := kids_mem k1
    have d1 := kids_depth k1
    rw [depth_nt (i := i)] at hf
    obtain ⟨s, hs, _, hs2⟩ := give_len a pre (t.getD [] ++ post)
    have hf1 := (hfit s (List.mem_append.2 (.inl hs))).2
    cases fuel with
    | zero => omega
    | succ fuel =>
      have e1 := iha (pre := pre) (post := t.getD [] ++ post) (fun s hs => hfit s (List.mem_append.2 (.inl hs))) fuel (by omega)
      simp only [brProc] at e1
      have hlen : (t.getD []).length ≤ maxTerms := by rw [List.length_append] at hs2; omega
      have hta := tail_ok kt hlen i .bridiTail1 fuel (by omega)
      cases cs with
      | nil => simp at hl
      | cons c cs =>
        cases cs with
        | nil => simp at hl
        | cons c' cs =>
          cases t with
          | none => simp only [brProc, bridiTail1Args, Node.children, ok_bind, findNth_some k1, findNth_some k2, asserted, hta, postAfter, e1, err_bind]
          | some t =>
            simp only [brProc, bridiTail1Args, Node.children, ok_bind, findNth_some k1, findNth_some k2, asserted, hta, postAfter, err_bind]
  | @tail2 i j cs a _ ih =>
    intro fuel hf
    have d := depth_le (List.mem_singleton.2 rfl : Node.nt j .bridiTail3 cs ∈ [Node.nt j .bridiTail3 cs])
    rw [depth_nt (i := i)] at hf
    cases fuel with
    | zero => omega
    | succ fuel => exact ih hfit fuel (by omega)
  | @tail2and i cs x y ys t a b hl k1 kt _ _ iha ihb =>
    intro fuel hf
    obtain ⟨_, j, ds, rfl⟩ := kids_mem k1
    have d1 := kids_depth k1
    rw [depth_nt (i := i)] at hf
    obtain ⟨s, hs, _, hs2⟩ := give_len a pre (t.getD [] ++ post)
    have hf1 := (hfit s (List.mem_append.2 (.inl hs))).2
    cases fuel with
    | zero => omega
    | succ fuel =>
      have e1 := iha (pre := pre) (post := t.getD [] ++ post) (fun s hs => hfit s (List.mem_append.2 (.inl hs))) fuel (by omega)
      simp only [brProc] at e1
      have hlen : (t.getD []).length ≤ maxTerms := by rw [List.length_append] at hs2; omega
      have hta := tail_ok kt hlen i .bridiTail2 fuel (by omega)
      cases cs with
      | nil => simp at hl
      | cons c cs =>
        cases cs with
        | nil => simp at hl
        | cons c' cs =>
          cases t with
          | none => simp only [brProc, bridiTail2Args, Node.children, ok_bind, findNth_some k1, findNth_two k1, asserted, hta, postAfter, e1, err_bind]
          | some t =>
            simp only [brProc, bridiTail2Args, Node.children, ok_bind, findNth_some k1, findNth_two k1, asserted, hta, postAfter, err_bind]
  | @main i j ks cs t kt =>
    intro fuel hf
    have d := depth_le (List.mem_cons_self .. : Node.nt j .mainSelbri ks ∈ Node.nt j .mainSelbri ks :: cs)
    rw [depth_nt (i := i)] at hf
    have hf1 := (hfit _ (List.mem_singleton.2 rfl)).2
    simp only at hf1
    cases fuel with
    | zero => omega
    | succ fuel =>
      have hlen : (t.getD []).length ≤ maxTerms := by rw [List.length_append] at hf1; omega
      have hta := tail_ok kt hlen i .bridiTail3 fuel (by omega)
      simp only [brProc, bridiTail3Args, typeCheck_nt, ok_bind, childRef_zero]
      rw [if_pos (by rfl)]
      cases t with
      | none => simp only [hta, postAfter, ok_bind, mainSelbriArgs, typeCheck_nt]
      | some t => simp only [hta, postAfter, ok_bind, err_bind]
  | @gek i g cs ks x y ys t a b hg k1 kt _ _ iha ihb =>
    intro fuel hf
    obtain ⟨_, j, ds, rfl⟩ := kids_mem k1
    have d1 := kids_depth k1
    have dg := depth_le (List.mem_cons_self .. : g ∈ g :: cs)
    rw [depth_nt (i := i)] at hf
    obtain ⟨s, hs, _, hs2⟩ := give_len a pre (t.getD [] ++ post)
    have hf1 := (hfit s (List.mem_append.2 (.inl hs))).2
    cases fuel with
    | zero => omega
    | succ fuel =>
      obtain ⟨i', g1, g2⟩ := gek_find hg fuel (by omega)
      obtain ⟨i'', gs, rfl⟩ := gek_type hg
      have e1 := iha (pre := pre) (post := t.getD [] ++ post) (fun s hs => hfit s (List.mem_append.2 (.inl hs))) fuel (by omega)
      simp only [brProc] at e1
      have hlen : (t.getD []).length ≤ maxTerms := by rw [List.length_append] at hs2; omega
      have hta := tail_ok kt hlen i' .gekSentence fuel (by omega)
      simp only [brProc, bridiTail3Args, typeCheck_nt, ok_bind, childRef_zero]
      rw [if_neg (by simp [Node.isNT])]
      cases t with
      | none => simp only [g1, ok_bind, findNth_some k1, findNth_two k1, asserted, hta, postAfter, e1, err_bind]
      | some t => simp only [g1, ok_bind, findNth_some k1, findNth_two k1, asserted, hta, postAfter, err_bind]

/-- **Two tails joined with `gi'e … ke` and no terms after them are never labelled**: whatever they are, the
program goes into the first with a vector that it has not assigned. -/
theorem ke_uninit {i : Nat} {cs : List Node} {a b : Br} (h : BrR (.nt i .bridiTail cs) (.ke a b none)) {pre post : List Entry}
    (hfit : ∀ s ∈ give a pre post, s.Fits) :
    ∀ fuel, (Node.nt i .bridiTail cs).depth ≤ fuel → bridiTailArgs fuel (.nt i .bridiTail cs) pre (some post) = .error .uninit := by
  generalize hb : Br.ke a b none = br at h
  cases h with
  | sub h1 => obtain ⟨_, _, e⟩ := sen_type h1; cases e
  | @tail _ j cs a' h1 =>
    subst hb
    exfalso
    generalize hn : Node.nt j .bridiTail1 cs = n at h1
    generalize hb : Br.ke a b none = br at h1
    induction h1 generalizing j cs with
    | sub h1 => obtain ⟨_, _, e⟩ := sen_type h1; rw [e] at hn; cases hn
    | tail _ _ => cases hn
    | tailKe => cases hn
    | @tail1 _ j2 ds a2 h2 =>
      subst hb
      generalize hm : Node.nt j2 .bridiTail2 ds = m at h2
      generalize hb : Br.ke a b none = br at h2
      cases h2 with
      | sub h1 => obtain ⟨_, _, e⟩ := sen_type h1; rw [e] at hm; cases hm
      | tail _ => cases hm
      | tailKe => cases hm
      | tail1 => cases hm
      | tail1and => cases hb
      | @tail2 _ j3 ds3 a3 h3 =>
        subst hb
        generalize hm : Node.nt j3 .bridiTail3 ds3 = m at h3
        generalize hb : Br.ke a b none = br at h3
        cases h3 with
        | sub h1 => obtain ⟨_, _, e⟩ := sen_type h1; rw [e] at hm; cases hm
        | tail _ => cases hm
        | tailKe => cases hm
        | tail1 => cases hm
        | tail1and => cases hb
        | tail2 => cases hm
        | tail2and => cases hb
        | main => cases hb
        | gek => cases hb
      | tail2and => cases hb
      | main => cases hb
      | gek => cases hb
    | tail1and => cases hb
    | tail2 => cases hn
    | tail2and => cases hb
    | main => cases hb
    | gek => cases hb
  | @tailKe _ _ x xs y ys t a b hl k1 k2 kt ha _ =>
    cases hb
    intro fuel hf
    obtain ⟨_, j, ds, rfl⟩ := kids_mem k1
    have d1 := kids_depth k1
    rw [depth_nt (i := i)] at hf
    cases fuel with
    | zero => omega
    | succ fuel =>
      have e1 := bridi_uninit ha hfit fuel (by omega)
      simp only [brProc] at e1
      have hta := tail_ok kt (by simp) i .bridiTail fuel (by omega)
      cases cs with
      | nil => simp at hl
      | cons c cs =>
        cases cs with
        | nil => simp at hl
        | cons c' cs =>
          simp only [bridiTailArgs, Node.children, ok_bind, findNth_some k1, findNth_some k2, asserted, hta, e1, err_bind]

end Jbo.Terms
