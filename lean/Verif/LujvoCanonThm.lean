import Verif.LujvoMakeThm
/-!
# Splitting lujvo (C25)
-/

namespace Jbo.Lujvo

open Jbo Spec

variable {a b c d e : Char} {t w : Word} {n : Nat} {o : Opts}

/-! ## Words glued from components -/

/-- `t` is glued from the components `rs`: short ones and a hyphen `y` after components that end in
a consonant; four-letter components that end in a consonant always have the `y`. -/
inductive GluedTail : List Word → Word → Prop
  | last {r} : LastOk r → GluedTail [r] r
  | plain {s r rs t} : (s = .cvc ∨ s = .cvv ∨ s = .cvhv ∨ s = .ccv) → Rafsi s r → GluedTail rs t →
      GluedTail (r :: rs) (r ++ t)
  | y {s r rs t} : (s = .cvc ∨ s = .cvcc ∨ s = .ccvc) → Rafsi s r → GluedTail rs t →
      GluedTail (r :: rs) (r ++ 'y' :: t)

/-- A whole word of two or more components: in addition there may be an `r` or `n` hyphen after a
CVV or CV'V at the start. When no hyphen is used there, a CCV has to be the only other component. -/
inductive Glued : List Word → Word → Prop
  | plain {s r rs t} : (s = .cvc ∨ s = .ccv) → Rafsi s r → GluedTail rs t → Glued (r :: rs) (r ++ t)
  | y {s r rs t} : (s = .cvc ∨ s = .cvcc ∨ s = .ccvc) → Rafsi s r → GluedTail rs t →
      Glued (r :: rs) (r ++ 'y' :: t)
  | hyphen {s r rs t} : (s = .cvv ∨ s = .cvhv) → Rafsi s r → GluedTail rs t →
      Glued (r :: rs) (r ++ rnHyphen t :: t)
  | ccv {s r q} : (s = .cvv ∨ s = .cvhv) → Rafsi s r → Rafsi .ccv q → Glued [r, q] (r ++ q)

/-- The word a component stands for. -/
def source (r : Word) : Word := if r.length = 5 then r else lookupComponent r

theorem GluedTail.head {rs : List Word} (h : GluedTail rs t) : Head t := by
  have app : ∀ {r u : Word}, Head r → Head (r ++ u) := by
    rintro r u ⟨x, y, z, v, rfl, h⟩
    exact ⟨x, y, z, v ++ u, by simp, h⟩
  cases h with
  | last h => exact head_of_last h
  | plain hs hr _ =>
    apply app; apply head_of_mid
    rcases hs with rfl | rfl | rfl | rfl
    · exact .inr (.inr (.inl hr))
    · exact .inr (.inr (.inr (.inl hr)))
    · exact .inr (.inr (.inr (.inr (.inl hr))))
    · exact .inr (.inr (.inr (.inr (.inr hr))))
  | y hs hr _ =>
    apply app; apply head_of_mid
    rcases hs with rfl | rfl | rfl
    · exact .inr (.inr (.inl hr))
    · exact .inl hr
    · exact .inr (.inl hr)

/-! ## One step of the splitter -/

theorem Head.cons (h : Head t) : ∃ x y z u, t = x :: y :: z :: u ∧ x ≠ 'y' ∧ x ≠ '\'' ∧ y ≠ 'y' ∧
    z ≠ 'y' ∧ C x ∧ (cC y = true → x ≠ 'r' ∧ x ≠ 'n') ∧ (x = 'n' → y ≠ 'r') := by
  obtain ⟨x, y, z, u, rfl, hx, hy, hz⟩ := h
  refine ⟨x, y, z, u, rfl, hx.ne_y, hx.ne_apos, ?_, hz, hx, ?_, ?_⟩
  · rcases hy with ⟨h, _⟩ | h
    · exact h.ne_y
    · exact h.ne_y
  · intro hc
    rcases hy with ⟨_, h⟩ | h
    · exact initial_ne_rn h
    · rw [h.cC] at hc; simp at hc
  · rintro rfl
    rcases hy with ⟨_, h⟩ | h
    · exact ((initial_ne_rn h).2 rfl).elim
    · rintro rfl; exact absurd h (by decide)

theorem split_y3 (h : Head t) :
    splitLujvo (a :: b :: c :: 'y' :: t) = (splitLujvo t).map (fun r => lookupComponent [a, b, c] :: r) := by
  obtain ⟨x, y, z, u, rfl, _⟩ := h.cons
  rw [splitLujvo.eq_def]
  have h2 : ¬ (a :: b :: c :: 'y' :: x :: y :: z :: u).length ≤ 2 := by simp
  have h4 : ¬ (a :: b :: c :: 'y' :: x :: y :: z :: u).length ≤ 4 := by simp
  have h5 : ¬ (a :: b :: c :: 'y' :: x :: y :: z :: u).length = 5 := by simp
  simp only [h2, h4, h5, dite_false]
  simp [chr]

theorem split_y4 (h : Head t) (hd : d ≠ 'y') :
    splitLujvo (a :: b :: c :: d :: 'y' :: t) =
      (splitLujvo t).map (fun r => lookupComponent [a, b, c, d] :: r) := by
  obtain ⟨x, y, z, u, rfl, _⟩ := h.cons
  rw [splitLujvo.eq_def]
  have h2 : ¬ (a :: b :: c :: d :: 'y' :: x :: y :: z :: u).length ≤ 2 := by simp
  have h4 : ¬ (a :: b :: c :: d :: 'y' :: x :: y :: z :: u).length ≤ 4 := by simp
  have h5 : ¬ (a :: b :: c :: d :: 'y' :: x :: y :: z :: u).length = 5 := by simp
  simp only [h2, h4, h5, dite_false]
  simp [chr, hd]

theorem split_ccv (h : Head t) (ha : C a) (hb : C b) (hc : V c) :
    splitLujvo (a :: b :: c :: t) = (splitLujvo t).map (fun r => lookupComponent [a, b, c] :: r) := by
  obtain ⟨x, y, z, u, rfl, hx, hx', hy, hz, _⟩ := h.cons
  rw [splitLujvo.eq_def]
  have h2 : ¬ (a :: b :: c :: x :: y :: z :: u).length ≤ 2 := by simp
  have h4 : ¬ (a :: b :: c :: x :: y :: z :: u).length ≤ 4 := by simp
  have h5 : ¬ (a :: b :: c :: x :: y :: z :: u).length = 5 := by simp
  simp only [h2, h4, h5, dite_false]
  simp [chr, hx, hx', hy, hz, ha.cC, hb.cC, hc.cV]

theorem split_cvc (h : Head t) (ha : C a) (hb : V b) (hc : C c) :
    splitLujvo (a :: b :: c :: t) = (splitLujvo t).map (fun r => lookupComponent [a, b, c] :: r) := by
  obtain ⟨x, y, z, u, rfl, hx, hx', hy, hz, _⟩ := h.cons
  rw [splitLujvo.eq_def]
  have h2 : ¬ (a :: b :: c :: x :: y :: z :: u).length ≤ 2 := by simp
  have h4 : ¬ (a :: b :: c :: x :: y :: z :: u).length ≤ 4 := by simp
  have h5 : ¬ (a :: b :: c :: x :: y :: z :: u).length = 5 := by simp
  simp only [h2, h4, h5, dite_false]
  simp [chr, hx, hx', hy, hz, ha.cC, hb.cV, hb.cC, hc.cC]

theorem split_cvv (h : Head t) (ha : C a) (hb : V b) (hc : V c) :
    splitLujvo (a :: b :: c :: t) = (splitLujvo t).map (fun r => lookupComponent [a, b, c] :: r) := by
  obtain ⟨x, y, z, u, rfl, hx, hx', hy, hz, _, hr, hn⟩ := h.cons
  rw [splitLujvo.eq_def]
  have h2 : ¬ (a :: b :: c :: x :: y :: z :: u).length ≤ 2 := by simp
  have h4 : ¬ (a :: b :: c :: x :: y :: z :: u).length ≤ 4 := by simp
  have h5 : ¬ (a :: b :: c :: x :: y :: z :: u).length = 5 := by simp
  simp only [h2, h4, h5, dite_false]
  have k : ¬ ((x = 'r' ∧ cC y = true) ∨ (x = 'n' ∧ y = 'r')) := by
    rintro (⟨h1, h2⟩ | ⟨h1, h2⟩)
    · exact (hr h2).1 h1
    · exact hn h1 h2
  simp [chr, hx, hx', hy, hz, ha.cC, hb.cV, hb.cC, hc.cC, hc.cV, hc.ne_apos, k]

theorem split_cvv_hyphen (h : Head t) (ha : C a) (hb : V b) (hc : V c) :
    splitLujvo (a :: b :: c :: rnHyphen t :: t) =
      (splitLujvo t).map (fun r => lookupComponent [a, b, c] :: r) := by
  obtain ⟨x, y, z, u, rfl, hx, hx', hy, hz, hxC, _⟩ := h.cons
  rw [splitLujvo.eq_def]
  have h2 : ¬ (a :: b :: c :: rnHyphen (x :: y :: z :: u) :: x :: y :: z :: u).length ≤ 2 := by simp
  have h4 : ¬ (a :: b :: c :: rnHyphen (x :: y :: z :: u) :: x :: y :: z :: u).length ≤ 4 := by simp
  have h5 : ¬ (a :: b :: c :: rnHyphen (x :: y :: z :: u) :: x :: y :: z :: u).length = 5 := by simp
  simp only [h2, h4, h5, dite_false]
  by_cases hxr : x = 'r'
  · subst hxr
    simp [chr, rnHyphen, hx, hx', hy, hz, ha.cC, hb.cV, hb.cC, hc.cC, hc.cV, hc.ne_apos]
  · simp [chr, rnHyphen, hxr, hx, hx', hy, hz, ha.cC, hb.cV, hb.cC, hc.cC, hc.cV, hc.ne_apos, hxC.cC]

theorem split_cvhv (h : Head t) (ha : C a) (hb : V b) (hc : V c) :
    splitLujvo (a :: b :: '\'' :: c :: t) =
      (splitLujvo t).map (fun r => lookupComponent [a, b, '\'', c] :: r) := by
  obtain ⟨x, y, z, u, rfl, hx, hx', hy, hz, _, hr, hn⟩ := h.cons
  rw [splitLujvo.eq_def]
  have h2 : ¬ (a :: b :: '\'' :: c :: x :: y :: z :: u).length ≤ 2 := by simp
  have h4 : ¬ (a :: b :: '\'' :: c :: x :: y :: z :: u).length ≤ 4 := by simp
  have h5 : ¬ (a :: b :: '\'' :: c :: x :: y :: z :: u).length = 5 := by simp
  simp only [h2, h4, h5, dite_false]
  have k : ¬ ((x = 'r' ∧ cC y = true) ∨ (x = 'n' ∧ y = 'r')) := by
    rintro (⟨h1, h2⟩ | ⟨h1, h2⟩)
    · exact (hr h2).1 h1
    · exact hn h1 h2
  have ap : cC '\'' = false ∧ cV '\'' = false := by decide
  simp [chr, hx, hx', hy, hz, ha.cC, hb.cV, hb.cC, hc.cC, hc.cV, hc.ne_apos, hc.ne_y, k, ap]

theorem split_cvhv_hyphen (h : Head t) (ha : C a) (hb : V b) (hc : V c) :
    splitLujvo (a :: b :: '\'' :: c :: rnHyphen t :: t) =
      (splitLujvo t).map (fun r => lookupComponent [a, b, '\'', c] :: r) := by
  obtain ⟨x, y, z, u, rfl, hx, hx', hy, hz, hxC, _⟩ := h.cons
  rw [splitLujvo.eq_def]
  have h2 : ¬ (a :: b :: '\'' :: c :: rnHyphen (x :: y :: z :: u) :: x :: y :: z :: u).length ≤ 2 := by simp
  have h4 : ¬ (a :: b :: '\'' :: c :: rnHyphen (x :: y :: z :: u) :: x :: y :: z :: u).length ≤ 4 := by simp
  have h5 : ¬ (a :: b :: '\'' :: c :: rnHyphen (x :: y :: z :: u) :: x :: y :: z :: u).length = 5 := by simp
  simp only [h2, h4, h5, dite_false]
  have ap : cC '\'' = false ∧ cV '\'' = false := by decide
  by_cases hxr : x = 'r'
  · subst hxr
    simp [chr, rnHyphen, hx, hx', hy, hz, ha.cC, hb.cV, hb.cC, hc.cC, hc.cV, hc.ne_apos, hc.ne_y, ap]
  · simp [chr, rnHyphen, hxr, hx, hx', hy, hz, ha.cC, hb.cV, hb.cC, hc.cC, hc.cV, hc.ne_apos, hc.ne_y,
      hxC.cC, ap]

/-! ## The whole word -/

theorem split_last {r : Word} (h : LastOk r) : splitLujvo r = some [source r] := by
  rw [splitLujvo.eq_def]
  rcases h with h | h | h | h | h
  · obtain ⟨a, b, c, d, e, rfl, _⟩ := shape_cvccv h; simp [source]
  · obtain ⟨a, b, c, d, e, rfl, _⟩ := shape_ccvcv h; simp [source]
  · obtain ⟨a, b, c, rfl, _⟩ := shape_cvv h; simp [source]
  · obtain ⟨a, b, c, rfl, _⟩ := shape_cvhv h; simp [source]
  · obtain ⟨a, b, c, rfl, _⟩ := shape_ccv h; simp [source]

theorem split_tail {rs : List Word} (h : GluedTail rs t) : splitLujvo t = some (rs.map source) := by
  induction h with
  | last h => simpa using split_last h
  | @plain s r rs t hs hr ht ih =>
    have hh := ht.head
    rcases hs with rfl | rfl | rfl | rfl
    · obtain ⟨a, b, c, rfl, ha, hb, hc⟩ := shape_cvc hr
      simp [split_cvc hh ha hb hc, ih, source]
    · obtain ⟨a, b, c, rfl, ha, hb, hc⟩ := shape_cvv hr
      simp [split_cvv hh ha hb hc, ih, source]
    · obtain ⟨a, b, c, rfl, ha, hb, hc⟩ := shape_cvhv hr
      simp [split_cvhv hh ha hb hc, ih, source]
    · obtain ⟨a, b, c, rfl, ha, hb, hc, _⟩ := shape_ccv hr
      simp [split_ccv hh ha hb hc, ih, source]
  | @y s r rs t hs hr ht ih =>
    have hh := ht.head
    rcases hs with rfl | rfl | rfl
    · obtain ⟨a, b, c, rfl, ha, hb, hc⟩ := shape_cvc hr
      simp [split_y3 hh, ih, source]
    · obtain ⟨a, b, c, d, rfl, ha, hb, hc, hd, _⟩ := shape_cvcc hr
      simp [split_y4 hh hd.ne_y, ih, source]
    · obtain ⟨a, b, c, d, rfl, ha, hb, hc, hd, _⟩ := shape_ccvc hr
      simp [split_y4 hh hd.ne_y, ih, source]

theorem Glued.tail {rs : List Word} (h : Glued rs w) : GluedTail rs w ∨
    ∃ s r rs' t, (s = .cvv ∨ s = .cvhv) ∧ Rafsi s r ∧ GluedTail rs' t ∧ rs = r :: rs' ∧
      w = r ++ rnHyphen t :: t := by
  cases h with
  | plain hs hr ht =>
    refine .inl (.plain ?_ hr ht)
    rcases hs with rfl | rfl <;> simp
  | y hs hr ht => exact .inl (.y hs hr ht)
  | hyphen hs hr ht => exact .inr ⟨_, _, _, _, hs, hr, ht, rfl, rfl⟩
  | ccv hs hr hq =>
    refine .inl (.plain ?_ hr (.last (.inr (.inr (.inr (.inr hq))))))
    rcases hs with rfl | rfl <;> simp

/-- C25: splitting a glued word gives back the words its components stand for, none lost. -/
theorem split_glued {rs : List Word} (h : Glued rs w) : splitLujvo w = some (rs.map source) := by
  rcases h.tail with h | ⟨s, r, rs', t, hs, hr, ht, rfl, rfl⟩
  · exact split_tail h
  · have hh := ht.head
    have ih := split_tail ht
    rcases hs with rfl | rfl
    · obtain ⟨a, b, c, rfl, ha, hb, hc⟩ := shape_cvv hr
      simp [split_cvv_hyphen hh ha hb hc, ih, source]
    · obtain ⟨a, b, c, rfl, ha, hb, hc⟩ := shape_cvhv hr
      simp [split_cvhv_hyphen hh ha hb hc, ih, source]

theorem hasCompound_append : ∀ {u v : Word}, hasCompound v = true → hasCompound (u ++ v) = true
  | [], v, h => h
  | a :: u, v, h => by
    simp only [List.cons_append, hasCompound, hasCompound_append h, Bool.or_true]

theorem rnHyphen_C (t : Word) : C (rnHyphen t) := by
  unfold rnHyphen; split <;> decide

theorem compound_cc (ha : C a) (hb : C b) : hasCompound (a :: b :: t) = true := by
  simp [hasCompound, chr, ha.cC, hb.cC]

theorem compound_cyc (ha : C a) (hb : C b) : hasCompound (a :: 'y' :: b :: t) = true := by
  simp [hasCompound, chr, ha.cC, hb.cC]

/-- Every glued word has a consonant cluster as `canon_lujvo` looks for it. -/
theorem glued_compound {rs : List Word} (h : Glued rs w) : hasCompound w = true := by
  cases h with
  | plain hs hr ht =>
    obtain ⟨x, y, z, u, rfl, hx, _⟩ := ht.head
    rcases hs with rfl | rfl
    · obtain ⟨a, b, c, rfl, ha, hb, hc⟩ := shape_cvc hr
      exact hasCompound_append (u := [a, b]) (compound_cc hc hx)
    · obtain ⟨a, b, c, rfl, ha, hb, hc, _⟩ := shape_ccv hr
      exact compound_cc ha hb
  | y hs hr ht =>
    obtain ⟨x, y, z, u, rfl, hx, _⟩ := ht.head
    rcases hs with rfl | rfl | rfl
    · obtain ⟨a, b, c, rfl, ha, hb, hc⟩ := shape_cvc hr
      exact hasCompound_append (u := [a, b]) (compound_cyc hc hx)
    · obtain ⟨a, b, c, d, rfl, ha, hb, hc, hd, _⟩ := shape_cvcc hr
      exact hasCompound_append (u := [a, b]) (compound_cc hc hd)
    · obtain ⟨a, b, c, d, rfl, ha, hb, hc, hd, _⟩ := shape_ccvc hr
      exact compound_cc ha hb
  | hyphen hs hr ht =>
    obtain ⟨x, y, z, u, rfl, hx, _⟩ := ht.head
    exact hasCompound_append (compound_cc (rnHyphen_C _) hx)
  | ccv hs hr hq =>
    obtain ⟨a, b, c, rfl, ha, hb, hc, _⟩ := shape_ccv hq
    exact hasCompound_append (compound_cc ha hb)

theorem lower_no_plus (h : Lower w) : w.contains '+' = false := by
  refine Bool.eq_false_iff.2 (fun hb => ?_)
  have := h '+' (by simpa using hb)
  exact absurd this (by decide)

/-- C25: `canon_lujvo` of a glued word joins the sources with `+`. -/
theorem canon_glued {rs : List Word} (h : Glued rs w) (hl : Lower w) :
    canonLujvo w = some (joinPlus (rs.map source)) := by
  have h1 := glued_compound h
  have h2 : 2 ≤ w.length := by
    match w, h1 with
    | [], h1 => simp [hasCompound] at h1
    | [x], h1 =>
      have := (split_glued h)
      rw [splitLujvo.eq_def] at this
      simp at this
    | x :: y :: w, _ => simp
  simp only [canonLujvo, lower_no_plus hl, h1, h2, split_glued h, Bool.false_eq_true, if_false,
    ge_iff_le, decide_true, Bool.and_self, if_true, Option.map_some]

/-- A word with a `+` is already in canonical form and returned as it is. -/
theorem canon_id (h : '+' ∈ w) : canonLujvo w = some w := by
  simp [canonLujvo, h]

theorem joinPlus_plus : ∀ {ws : List Word}, 2 ≤ ws.length → '+' ∈ joinPlus ws
  | [], h => by simp at h
  | [_], h => by simp at h
  | a :: b :: ws, _ => by simp [joinPlus]

theorem splitPlus_length : ∀ {ws : List Word}, ws ≠ [] → (∀ w ∈ ws, '+' ∉ w) →
    (joinPlus ws).count '+' + 1 = ws.length
  | [], h, _ => (h rfl).elim
  | [a], _, h => by
    have := h a (by simp)
    simp [joinPlus, List.count_eq_zero.2 this]
  | a :: b :: ws, _, h => by
    have ha := h a (by simp)
    have ih := splitPlus_length (ws := b :: ws) (by simp) (fun w hw => h w (List.mem_cons_of_mem _ hw))
    simp only [joinPlus, List.count_append, List.count_cons_self, List.count_eq_zero.2 ha,
      List.length_cons] at ih ⊢
    omega

/-- Applying `canon_lujvo` twice is the same as once. -/
theorem canon_idem {rs : List Word} (h : Glued rs w) (hl : Lower w) :
    ∃ x, canonLujvo w = some x ∧ canonLujvo x = some x := by
  refine ⟨_, canon_glued h hl, canon_id (joinPlus_plus ?_)⟩
  have len : ∀ {rs : List Word} {t : Word}, GluedTail rs t → 1 ≤ rs.length := by
    intro rs t h; cases h <;> simp
  cases h with
  | plain _ _ ht => have := len ht; simp; omega
  | y _ _ ht => have := len ht; simp; omega
  | hyphen _ _ ht => have := len ht; simp; omega
  | ccv => simp

/-! ## The maker and the splitter are inverse to each other -/

theorem rest_glued {rs : List Word} (h : Parts rs) : GluedTail rs (rest rs) := by
  induction h with
  | @last r h => rw [rest_single]; exact .last h
  | @cons r rs hr hrs ih =>
    match rs, hrs, ih with
    | b :: rs, hrs, ih =>
    have hb := hrs.head
    rw [rest_cons]
    rcases hr with h | h | h | h | h | h
    · obtain ⟨a, b', c, d, rfl, ha, hb', hc, hd, _⟩ := shape_cvcc h
      rw [yGlue_4 hc.ne_apos]
      simpa using GluedTail.y (.inr (.inl rfl)) h ih
    · obtain ⟨a, b', c, d, rfl, ha, hb', hc, hd, _⟩ := shape_ccvc h
      rw [yGlue_4 hc.ne_apos]
      simpa using GluedTail.y (.inr (.inr rfl)) h ih
    · obtain ⟨a, b', c, rfl, ha, hb', hc⟩ := shape_cvc h
      rw [yGlue_cvc hc hb]
      split
      · simpa using GluedTail.plain (.inl rfl) h ih
      · simpa using GluedTail.y (.inl rfl) h ih
    · rw [yGlue_none (.inl rfl) h hb]
      simpa using GluedTail.plain (.inr (.inl rfl)) h ih
    · rw [yGlue_none (.inr rfl) h hb]
      simpa using GluedTail.plain (.inr (.inr (.inl rfl))) h ih
    · obtain ⟨a, b', c, rfl, ha, hb', hc, _⟩ := shape_ccv h
      rw [yGlue_3v hc hb]
      simpa using GluedTail.plain (.inr (.inr (.inr rfl))) h ih

theorem glues_glued {r b : Word} {rs : List Word} (h : Parts (r :: b :: rs)) :
    ∃ gs, glues (r :: b :: rs) = .ok gs ∧ Glued (r :: b :: rs) (glueWord (r :: b :: rs) gs) := by
  obtain ⟨g, h1, _, _, hcv, h4, hcvc, hccv⟩ := glues_cases h
  refine ⟨_, h1, ?_⟩
  cases h with
  | cons hr hrs =>
  have ht := rest_glued hrs
  have e : glueWord (r :: b :: rs) (g :: glueFrom none (b :: rs)) = r ++ g.toList ++ rest (b :: rs) := by
    simp [glueWord, rest]
  rw [e]
  obtain ⟨u, hu⟩ := rest_prefix b rs
  have cv : ∀ s, (s = .cvv ∨ s = .cvhv) → Rafsi s r → Glued (r :: b :: rs) (r ++ g.toList ++ rest (b :: rs)) := by
    intro s hs hrr
    rcases hcv s hs hrr with rfl | ⟨rfl, rfl, hb⟩
    · have := Glued.hyphen hs hrr ht
      rw [hu, ← rn_eq hrs.head u, ← hu] at this
      simpa using this
    · simpa [rest_single] using Glued.ccv hs hrr hb
  rcases hr with h | h | h | h | h | h
  · rw [h4 (.inl h)]; simpa using Glued.y (.inr (.inl rfl)) h ht
  · rw [h4 (.inr h)]; simpa using Glued.y (.inr (.inr rfl)) h ht
  · rcases hcvc h with rfl | rfl
    · simpa using Glued.plain (.inl rfl) h ht
    · simpa using Glued.y (.inl rfl) h ht
  · exact cv _ (.inl rfl) h
  · exact cv _ (.inr rfl) h
  · rw [hccv h]; simpa using Glued.plain (.inr rfl) h ht

theorem source_allowed {last : Bool} {short : List Word} (he : (w, short) ∈ wordTable) {r : Word}
    (hr : Allowed o last w short r) (hb : r ≠ ['b', 'r', 'o', 'd']) : source r = w := by
  have sh : r ∈ short → source r = w := by
    intro h
    obtain ⟨h1, h2⟩ := short_ok he h
    have : r.length ≠ 5 := by
      rcases h2 with h | h | h | h
      · obtain ⟨a, b, c, rfl, _⟩ := shape_cvc h; simp
      · obtain ⟨a, b, c, rfl, _⟩ := shape_cvhv h; simp
      · obtain ⟨a, b, c, rfl, _⟩ := shape_ccv h; simp
      · obtain ⟨a, b, c, rfl, _⟩ := shape_cvv h; simp
    simp [source, this, h1]
  cases last with
  | true =>
    rcases hr with ⟨h, _⟩ | ⟨rfl, h, _⟩
    · exact sh h
    · simp [source, h]
  | false =>
    rcases hr with h | ⟨h, ⟨c, rfl⟩, _⟩
    · exact sh h
    · have h5 : (r ++ [c]).length = 5 := by simp [h]
      have := (long_ok he h5).2
      rw [List.take_append_of_le_length (by omega), List.take_of_length_le (by omega),
        List.dropLast_concat] at this
      simp [source, h, this hb]

theorem sources_allowed : ∀ {es : List (Word × List Word)} {rs : List Word},
    (∀ e ∈ es, e ∈ wordTable) → AllowedAll o es rs → ['b', 'r', 'o', 'd'] ∉ rs →
    rs.map source = es.map (·.1)
  | [], [], _, _, _ => rfl
  | (w, short) :: es, r :: rs, hm, h, hb => by
    simp only [List.mem_cons, not_or] at hb
    simp only [List.map_cons, source_allowed (hm _ (by simp)) h.1 (Ne.symm hb.1),
      sources_allowed (fun e he => hm e (List.mem_cons_of_mem _ he)) h.2 hb.2]

theorem cc_lower {st : Bool} (h : CcLujvo st w) : Lower w := by
  have hy : 'y' ∈ letters := by decide
  cases h with
  | single h => exact shape_lower h.1
  | ccv h ht => exact lower_append (shape_lower h.1) (tail_lower ht)
  | ccvcy h ht => exact lower_append (shape_lower h.1) (lower_cons hy (tail_lower ht))

theorem valid_lower {st : Bool} (h : Valid st w) : Lower w := by
  have hy : 'y' ∈ letters := by decide
  cases h with
  | cc h => exact cc_lower h
  | cvccy h ht => exact lower_append (shape_lower h.1) (lower_cons hy (tail_lower ht))
  | cvcJoin ha hb hc ht _ _ =>
    exact lower_cons (C.mem ha) (lower_cons (V.mem hb) (lower_cons (C.mem hc) (tail_lower ht)))
  | cvcy ha hb hc ht _ =>
    exact lower_cons (C.mem ha) (lower_cons (V.mem hb) (lower_cons (C.mem hc) (lower_cons hy (tail_lower ht))))
  | cvHyphen _ h ht =>
    exact lower_append (shape_lower h.1) (lower_cons (C.mem (rnHyphen_C _)) (tail_lower ht))
  | cvCcv _ h h' => exact lower_append (shape_lower h.1) (shape_lower h'.1)

/-- C25: what `jvocuhadju` makes from a list of known words, `canon_lujvo` takes apart into exactly
these words, unless the ambiguous `brod` was used. -/
theorem canon_of_maker {ws : List Word} {es : List (Word × List Word)} (he : entriesOf ws = some es)
    (h2 : 2 ≤ ws.length) (h50 : ws.length < 50) (hne : ∃ rs, AllowedAll o es rs) :
    ∃ fs lim, makelujvo o ws = .ok (fs, lim) ∧ ∀ f ∈ fs, f.brod = false →
      canonLujvo f.word = some (joinPlus (ws.map (·.map normChar))) := by
  obtain ⟨fs, lim, h, _, _, h3, _⟩ := makelujvo_spec he h2 h50 hne
  refine ⟨fs, lim, h, ?_⟩
  obtain ⟨hm, hmap⟩ := entries_mem he
  have hlen : es.length = ws.length := by
    have := congrArg List.length hmap
    simpa using this
  have hes : es ≠ [] := by rintro rfl; simp at hlen; omega
  intro f hf hbr
  obtain ⟨rs, hrs, hmk⟩ := h3 f hf
  have hp := parts_of_allowed hm hes hrs
  have hl2 : 2 ≤ rs.length := by rw [allowed_length hrs]; omega
  obtain ⟨f', e, hv, _, _, hb⟩ := makeOne_spec hp hl2
  rw [hmk] at e
  simp only [Except.ok.injEq] at e
  subst e
  rw [← hmap, ← sources_allowed hm hrs (fun h => by rw [hb.2 h] at hbr; simp at hbr)]
  match rs, hp, hl2, hmk with
  | r :: b :: rs, hp, _, hmk =>
    obtain ⟨gs, hg, hgl⟩ := glues_glued hp
    have : f.word = glueWord (r :: b :: rs) gs := by
      simp only [makeOne, hg, bind, Except.bind] at hmk
      split at hmk
      · simp at hmk
      · simp only [pure, Except.pure, Except.ok.injEq] at hmk
        rw [← hmk]
    rw [this]
    exact canon_glued hgl (this ▸ valid_lower hv)

/-- The forbidden use: with `-b` a component `brod` is read back as `brodu`, whichever word of the
`brod` series was meant. -/
theorem brod_read_back : ∃ fs lim, makelujvo ⟨true, true⟩ ["broda".toList, "bangu".toList] = .ok (fs, lim) ∧
    ⟨"brodybangu".toList, 10047, true⟩ ∈ fs ∧
    canonLujvo "brodybangu".toList = some "brodu+bangu".toList := by
  refine ⟨[⟨"rodbau".toList, 5867, false⟩, ⟨"brodybau".toList, 7977, true⟩,
    ⟨"rodbangu".toList, 7937, false⟩, ⟨"brodybangu".toList, 10047, true⟩], false, ?_, ?_, ?_⟩ <;>
  decide +kernel

/-! ## Concrete cases -/

example : Glued ["lob".toList, "bau".toList] "lobybau".toList :=
  .y (s := .cvc) (.inl rfl) (by decide) (.last (.inr (.inr (.inl (by decide)))))

example : canonLujvo "lobybau".toList = some "lojbo+bangu".toList := by decide +kernel

example : Glued ["sai".toList, "zba".toList, "cpu".toList] "sairzbacpu".toList :=
  .hyphen (s := .cvv) (r := "sai".toList) (t := "zbacpu".toList) (.inl rfl) (by decide)
    (.plain (s := .ccv) (by decide) (by decide) (.last (by unfold LastOk; decide)))

example : Lower "lobybau".toList := by unfold Lower; decide

end Jbo.Lujvo
