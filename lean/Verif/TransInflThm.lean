import Verif.Trans
import Verif.TransSpec

/-!
# The endings of English words

Property C52.
-/

namespace Jbo.Trans

open Jbo Jbo.TransSpec

theorem isSpace_iff (c : Char) : isSpace c = true ↔ Space c := by
  simp [isSpace, Space, or_assoc]

theorem okAfter_iff (x : Word) : okAfterStar x.head? = true ↔ Follows x := by
  cases x with
  | nil => simp [okAfterStar, Follows]
  | cons c r => simp [okAfterStar, Follows, isSpace_iff]

theorem splitStar_none {x : Word} (h : '*' ∉ x) : splitStar x = none := by
  have : x.dropWhile (· != '*') = [] := by
    induction x with
    | nil => rfl
    | cons c x ih =>
      have hc : c ≠ '*' := fun e => h (by simp [e])
      simp [List.dropWhile_cons, hc]
      simpa using ih (fun e => h (by simp [e]))
  unfold splitStar
  rw [this]

theorem splitStar_some {s r : Word} (h : '*' ∉ s) (hr : Follows r) : splitStar (s ++ '*' :: r) = some (s, r) := by
  have : (s ++ '*' :: r).takeWhile (· != '*') = s ∧ (s ++ '*' :: r).dropWhile (· != '*') = '*' :: r := by
    induction s with
    | nil => simp
    | cons c s ih =>
      have hc : c ≠ '*' := fun e => h (by simp [e])
      have := ih (fun e => h (by simp [e]))
      simp [List.takeWhile_cons, List.dropWhile_cons, hc, this]
  unfold splitStar
  rw [this.1, this.2]
  dsimp only
  rw [if_pos ((okAfter_iff r).2 hr)]

/-- A recursion like those of the three functions. -/
structure Infl (f plain : Word → Word) (link : Word → Word) : Prop where
  none : ∀ x, splitStar x = Option.none → f x = plain x
  some : ∀ x h r, splitStar x = Option.some (h, r) → f x = f h ++ link r ++ (if r.contains '*' then f r else r)

theorem infl_spec {f plain link : Word → Word} {R L} (hf : Infl f plain link) (hR : ∀ x, R x (plain x)) (hL : ∀ x, L x (link x)) :
    ∀ ss last, Marked ss last → Inflected R L ss last (f (starred ss last)) := by
  intro ss
  induction ss with
  | nil =>
    intro last h
    rw [show starred [] last = last from rfl, hf.none last (splitStar_none h)]
    exact .plain (hR last)
  | cons s ss ih =>
    intro last h
    obtain ⟨h1, h2, h3⟩ := h
    rw [show starred (s :: ss) last = s ++ '*' :: starred ss last from rfl,
      hf.some _ _ _ (splitStar_some h1 h2), hf.none s (splitStar_none h1)]
    cases ss with
    | nil =>
      rw [show starred [] last = last from rfl, if_neg (by simpa [Marked] using h3)]
      exact .one (hR s) (hL last)
    | cons s' ss =>
      rw [if_pos (by simp [starred])]
      exact .more (hR s) (hL _) (ih last h3)

theorem makePlural_infl : Infl makePlural pluralPlain (fun _ => []) := by
  constructor
  · intro x h
    rw [makePlural.eq_def]
    split
    · rename_i e; rw [h] at e; cases e
    · rfl
  · intro x a r h
    rw [makePlural.eq_def]
    split
    · rename_i e
      rw [h] at e
      cases e
      simp
    · rename_i e; rw [h] at e; cases e

theorem appendEr_infl : Infl appendEr erPlain (fun r => if startsPrep r then [] else " of".toList) := by
  constructor
  · intro x h
    rw [appendEr.eq_def]
    split
    · rename_i e; rw [h] at e; cases e
    · rfl
  · intro x a r h
    rw [appendEr.eq_def]
    split
    · rename_i e
      rw [h] at e
      cases e
      rfl
    · rename_i e; rw [h] at e; cases e

theorem appendIng_infl : Infl appendIng ingPlain (fun _ => []) := by
  constructor
  · intro x h
    rw [appendIng.eq_def]
    split
    · rename_i e; rw [h] at e; cases e
    · rfl
  · intro x a r h
    rw [appendIng.eq_def]
    split
    · rename_i e
      rw [h] at e
      cases e
      simp
    · rename_i e; rw [h] at e; cases e

theorem lastIs_iff (x : Word) (c : Char) : lastIs x c = true ↔ ∃ y, x = y ++ [c] := by
  unfold lastIs
  rw [beq_iff_eq, List.getLast?_eq_some_iff]

theorem beforeLast_snoc (y : Word) (c d : Char) : beforeLast (y ++ [c, d]) = some c := by
  unfold beforeLast
  rw [show y ++ [c, d] = (y ++ [c]) ++ [d] by simp, List.dropLast_concat, List.getLast?_concat]

theorem beforeLast_some {x : Word} {c d : Char} (h : ∃ y, x = y ++ [d]) (h' : beforeLast x = some c) : ∃ y, x = y ++ [c, d] := by
  obtain ⟨y, rfl⟩ := h
  unfold beforeLast at h'
  rw [List.dropLast_concat, List.getLast?_eq_some_iff] at h'
  obtain ⟨z, rfl⟩ := h'
  exact ⟨z, by simp⟩

theorem ends_one (x : Word) (c : Char) {e : String} (he : e.toList = [c]) : Ends x e ↔ lastIs x c = true := by
  rw [lastIs_iff, Ends, he]

theorem snoc2_inj {y z : Word} {a b c d : Char} (h : y ++ [a, b] = z ++ [c, d]) : a = c ∧ b = d := by
  have := List.append_inj' h rfl
  simpa using this.2

/-- The ending of the plural. -/
theorem pluralPlain_spec (x : Word) : Plural x (pluralPlain x) := by
  have hs := ends_one x 's' (e := "s") rfl
  have hz := ends_one x 'z' (e := "z") rfl
  have hx := ends_one x 'x' (e := "x") rfl
  have hch : Ends x "ch" ↔ (lastIs x 'h' && beforeLast x == some 'c') = true := by
    constructor
    · rintro ⟨y, rfl⟩
      have e : "ch".toList = ['c', 'h'] := rfl
      rw [e, beforeLast_snoc, Bool.and_eq_true]
      exact ⟨(lastIs_iff _ _).2 ⟨y ++ ['c'], by simp⟩, by simp⟩
    · intro h
      rw [Bool.and_eq_true, lastIs_iff, beq_iff_eq] at h
      exact beforeLast_some h.1 h.2
  unfold pluralPlain
  by_cases h1 : (lastIs x 's' || lastIs x 'z' || lastIs x 'x') = true
  · rw [if_pos h1]
    simp only [Bool.or_eq_true, ← hs, ← hz, ← hx] at h1
    exact .es (by rcases h1 with (h | h) | h <;> simp [h])
  · rw [if_neg h1]
    simp only [Bool.or_eq_true, ← hs, ← hz, ← hx] at h1
    by_cases h2 : (lastIs x 'h' && beforeLast x == some 'c') = true
    · rw [if_pos h2]
      exact .es (Or.inr (Or.inr (Or.inr (hch.2 h2))))
    · rw [if_neg h2]
      have hno : ¬ (Ends x "s" ∨ Ends x "z" ∨ Ends x "x" ∨ Ends x "ch") := by
        rw [hch]
        rintro (h | h | h | h)
        · exact h1 (Or.inl (Or.inl h))
        · exact h1 (Or.inl (Or.inr h))
        · exact h1 (Or.inr h)
        · exact h2 h
      cases hb : beforeLast x with
      | none =>
        rw [if_neg (by simp)]
        refine .s hno ?_
        intro y c hy
        rw [hy, beforeLast_snoc] at hb
        cases hb
      | some d =>
        dsimp only
        by_cases h3 : (lastIs x 'y' && "bcdfghjklmnpqrstvwxz".toList.contains d) = true
        · rw [if_pos h3]
          rw [Bool.and_eq_true, lastIs_iff] at h3
          obtain ⟨y, hy⟩ := beforeLast_some h3.1 hb
          exact .ies hy (List.contains_iff_mem.1 h3.2)
        · rw [if_neg h3]
          refine .s hno ?_
          intro y c hy hc
          apply h3
          rw [Bool.and_eq_true, lastIs_iff]
          refine ⟨⟨y ++ [c], by simp [hy]⟩, ?_⟩
          rw [hy, beforeLast_snoc] at hb
          cases hb
          exact List.contains_iff_mem.2 hc

theorem erPlain_spec (x : Word) : Agent x (erPlain x) := by
  have he := ends_one x 'e' (e := "e") rfl
  unfold erPlain
  split
  · rename_i h; exact .r (he.2 h)
  · rename_i h; exact .er (fun h' => h (he.1 h'))

theorem ingPlain_spec (x : Word) : Participle x (ingPlain x) := by
  unfold ingPlain
  cases hb : beforeLast x with
  | none =>
    rw [if_neg (by simp)]
    refine .keep ?_
    intro y c hy
    rw [hy, beforeLast_snoc] at hb
    cases hb
  | some d =>
    dsimp only
    by_cases h : (lastIs x 'e' && !"aeiou".toList.contains d) = true
    · rw [if_pos h]
      rw [Bool.and_eq_true, lastIs_iff] at h
      obtain ⟨y, rfl⟩ := beforeLast_some h.1 hb
      have : (y ++ [d, 'e']).dropLast ++ "-ing".toList = y ++ d :: "-ing".toList := by
        rw [show y ++ [d, 'e'] = (y ++ [d]) ++ ['e'] by simp, List.dropLast_concat]
        simp
      rw [this]
      refine .drop rfl ?_
      intro hd
      have := h.2
      rw [List.contains_iff_mem.2 hd] at this
      cases this
    · rw [if_neg h]
      refine .keep ?_
      intro y c hy
      apply Classical.byContradiction
      intro hc
      apply h
      rw [Bool.and_eq_true, lastIs_iff]
      refine ⟨⟨y ++ [c], by simp [hy]⟩, ?_⟩
      rw [hy, beforeLast_snoc] at hb
      cases hb
      have : "aeiou".toList.contains d = false := by
        cases hq : "aeiou".toList.contains d with
        | false => rfl
        | true => exact absurd (List.contains_iff_mem.1 hq) hc
      rw [this]
      rfl

theorem dropWhile_space (x : Word) : ∃ a, x = a ++ x.dropWhile isSpace ∧ (∀ c ∈ a, Space c) ∧
    ∀ c r, x.dropWhile isSpace = c :: r → ¬ Space c := by
  induction x with
  | nil => exact ⟨[], by simp⟩
  | cons c x ih =>
    rw [List.dropWhile_cons]
    by_cases hc : isSpace c = true
    · rw [if_pos hc]
      obtain ⟨a, h1, h2, h3⟩ := ih
      refine ⟨c :: a, by rw [List.cons_append, ← h1], ?_, h3⟩
      intro d hd
      rcases List.mem_cons.1 hd with rfl | hd
      · exact (isSpace_iff d).1 hc
      · exact h2 d hd
    · rw [if_neg hc]
      refine ⟨[], rfl, by simp, ?_⟩
      intro d r h
      cases h
      exact fun h => hc ((isSpace_iff _).2 h)

theorem space_unique {a b a' b' : Word} (e : a ++ b = a' ++ b') (h1 : ∀ c ∈ a, Space c) (h2 : ∀ c r, b = c :: r → ¬ Space c)
    (k1 : ∀ c ∈ a', Space c) (k2 : ∀ c r, b' = c :: r → ¬ Space c) : b = b' := by
  induction a generalizing a' with
  | nil =>
    cases a' with
    | nil => exact e
    | cons x a' => exact absurd (k1 x (by simp)) (h2 x _ e)
  | cons y a ih =>
    cases a' with
    | nil => exact absurd (h1 y (by simp)) (k2 y _ e.symm)
    | cons x a' =>
      simp only [List.cons_append, List.cons.injEq] at e
      exact ih e.2 (fun c hc => h1 c (by simp [hc])) (fun c hc => k1 c (by simp [hc]))

theorem startsPrep_iff (x : Word) : startsPrep x = true ↔ Prep x := by
  obtain ⟨a, h1, h2, h3⟩ := dropWhile_space x
  have key : startsPrep x = true ↔ ∃ p ∈ ["in", "at", "with", "through"], ∃ r, x.dropWhile isSpace = p.toList ++ r := by
    simp only [startsPrep, hasPrefix, Bool.or_eq_true, List.isPrefixOf_iff_prefix]
    simp only [List.IsPrefix, List.mem_cons, List.not_mem_nil, or_false, exists_eq_or_imp, exists_eq_left, or_assoc, eq_comm]
  rw [key]
  constructor
  · intro h
    exact ⟨a, _, h1, h2, h3, h⟩
  · rintro ⟨a', b', e, k2, k3, h⟩
    rw [space_unique (h1.symm.trans e) h2 h3 k2 k3]
    exact h

/-- C52: the plural of a gloss, with or without stars. -/
theorem makePlural_spec {ss : List Word} {last : Word} (h : Marked ss last) :
    Inflected Plural NoLink ss last (makePlural (starred ss last)) :=
  infl_spec (L := NoLink) makePlural_infl pluralPlain_spec (fun _ => rfl) ss last h

/-- C52: the agent. -/
theorem appendEr_spec {ss : List Word} {last : Word} (h : Marked ss last) :
    Inflected Agent OfLink ss last (appendEr (starred ss last)) := by
  refine infl_spec appendEr_infl erPlain_spec ?_ ss last h
  intro x
  by_cases hx : startsPrep x = true
  · simp only [hx, if_true]
    exact Or.inl ⟨(startsPrep_iff x).1 hx, rfl⟩
  · simp only [hx]
    exact Or.inr ⟨fun h => hx ((startsPrep_iff x).2 h), rfl⟩

/-- C52: the participle. -/
theorem appendIng_spec {ss : List Word} {last : Word} (h : Marked ss last) :
    Inflected Participle NoLink ss last (appendIng (starred ss last)) :=
  infl_spec (L := NoLink) appendIng_infl ingPlain_spec (fun _ => rfl) ss last h

/-- C52: the stars are gone. -/
theorem inflected_no_star {R L : Word → Word → Prop} (hR : ∀ {x t}, R x t → '*' ∉ x → '*' ∉ t) (hL : ∀ {x k}, L x k → '*' ∉ k)
    {ss last out} (h : Inflected R L ss last out) (hm : Marked ss last) : '*' ∉ out := by
  induction h with
  | plain h => exact hR h hm
  | one h1 h2 =>
    intro hx
    simp only [List.mem_append] at hx
    rcases hx with (hx | hx) | hx
    · exact hR h1 hm.1 hx
    · exact hL h2 hx
    · exact hm.2.2 hx
  | more h1 h2 _ ih =>
    intro hx
    simp only [List.mem_append] at hx
    rcases hx with (hx | hx) | hx
    · exact hR h1 hm.1 hx
    · exact hL h2 hx
    · exact ih hm.2.2 hx

theorem makePlural_no_star {ss : List Word} {last : Word} (h : Marked ss last) : '*' ∉ makePlural (starred ss last) := by
  refine inflected_no_star ?_ ?_ (makePlural_spec h) h
  · intro x t ht hx
    cases ht <;> simp [hx]
  · rintro x k rfl
    simp

theorem appendEr_no_star {ss : List Word} {last : Word} (h : Marked ss last) : '*' ∉ appendEr (starred ss last) := by
  refine inflected_no_star ?_ ?_ (appendEr_spec h) h
  · intro x t ht hx
    cases ht <;> simp [hx]
  · rintro x k (⟨_, rfl⟩ | ⟨_, rfl⟩) <;> simp

theorem appendIng_no_star {ss : List Word} {last : Word} (h : Marked ss last) : '*' ∉ appendIng (starred ss last) := by
  refine inflected_no_star ?_ ?_ (appendIng_spec h) h
  · intro x t ht hx
    cases ht with
    | drop e _ =>
      subst e
      simp at hx ⊢
      exact hx
    | keep _ => simp [hx]
  · rintro x k rfl
    simp

/-- `basic_trans` removes the stars before white space, and only these. -/
theorem basicTrans_spec : ∀ {ss : List Word} {last : Word}, Marked ss last →
    (∀ s ∈ (ss.drop 1) ++ (if ss = [] then [] else [last]), ∃ c r, s = c :: r ∧ Space c) →
    basicTrans (starred ss last) = ss.flatten ++ last
  | [], last, h, _ => by
    show basicTrans last = last
    have key : ∀ x : Word, '*' ∉ x → basicTrans x = x := by
      intro x
      induction x with
      | nil => intro _; rfl
      | cons c x ih =>
        intro hx
        have hc : c ≠ '*' := fun e => hx (by simp [e])
        cases x with
        | nil => rfl
        | cons d x =>
          rw [basicTrans, if_pos (by simp [hc]), ih (fun e => hx (by simp [e]))]
    exact key last h
  | s :: ss, last, h, hsp => by
    have hrest : basicTrans (starred ss last) = ss.flatten ++ last := by
      refine basicTrans_spec h.2.2 ?_
      intro t ht
      refine hsp t ?_
      cases ss with
      | nil => simp at ht
      | cons a ss =>
        simp at ht ⊢
        rcases ht with ht | ht
        · exact Or.inr (Or.inl ht)
        · exact Or.inr (Or.inr ht)
    have hfirst : ∃ c r, starred ss last = c :: r ∧ Space c := by
      cases ss with
      | nil => exact hsp last (by simp)
      | cons a ss =>
        obtain ⟨c, r, rfl, hc⟩ := hsp a (by simp)
        exact ⟨c, _, rfl, hc⟩
    obtain ⟨c, r, hcr, hc⟩ := hfirst
    have hstar : basicTrans ('*' :: starred ss last) = ss.flatten ++ last := by
      rw [hcr, basicTrans, if_neg (by simp [(isSpace_iff c).2 hc]), ← hcr, hrest]
    show basicTrans (s ++ '*' :: starred ss last) = s ++ ss.flatten ++ last
    rw [List.append_assoc, ← hstar]
    have hs := h.1
    clear hstar hsp h hrest
    induction s with
    | nil => rfl
    | cons x s ih =>
      have hx : x ≠ '*' := fun e => hs (by simp [e])
      have ih := ih (fun e => hs (by simp [e]))
      cases s with
      | nil =>
        show basicTrans (x :: '*' :: starred ss last) = x :: basicTrans ('*' :: starred ss last)
        rw [basicTrans, if_pos (by simp [hx])]
      | cons y s =>
        show basicTrans (x :: y :: (s ++ '*' :: starred ss last)) = x :: (y :: s ++ basicTrans ('*' :: starred ss last))
        rw [basicTrans, if_pos (by simp [hx]), ← ih]
        rfl

/-- C52: a star at the end or before a slash stays in the qualifier, although it is a proper mark. -/
theorem qualifier_keeps_star : Marked ["man".toList] [] ∧ glossIn .discrete .qual "man*".toList [] = "man*-ish".toList ∧
    Marked ["man".toList] "/men".toList ∧ glossIn .discrete .qual "man*/men".toList [] = "man*/men-ish".toList := by
  refine ⟨?_, by decide +kernel, ?_, by decide +kernel⟩
  · simp [Marked, Follows, starred]
  · simp [Marked, Follows, starred]

/-- C52: the class `S` keeps every star except as a noun. -/
theorem substance_keeps_star : glossIn .substance .qual "water* of life".toList [] = "water* of life-ish".toList ∧
    glossIn .substance .noun "water* of life".toList [] = "water of life".toList := by decide +kernel

/-- `run* on` and its forms. -/
example : makePlural "man* of war".toList = "man(s) of war".toList ∧ appendEr "give* gift".toList = "give-r(s) of gift".toList ∧
    appendIng "give* gift".toList = "giv-ing gift".toList ∧ makePlural "baby".toList = "baby(ies)".toList ∧
    appendEr "look* at".toList = "look-er(s) at".toList := by decide +kernel

example : Marked ["man".toList] " of war".toList ∧ starred ["man".toList] " of war".toList = "man* of war".toList := by
  refine ⟨?_, by decide⟩
  simp [Marked, Follows, starred, Space]

/-- An empty rest still gets `of`. -/
example : appendEr "run*".toList = "run-er(s) of".toList := by decide +kernel

end Jbo.Trans
