import Verif.RefsThm
import Verif.OutputEx
/-!
# What the numbers in labels mean

A label such as `#3-moi2` tells by number which part of the text is meant.
-/

namespace Jbo.Output
open Jbo.Terms Jbo.Gram Jbo.Output.Spec

/-- The node whose number a label shows (`output.c:866-873`, `893-960`): after `jai` with a tag the tanru unit, otherwise what stands with `me`,
`nu'a` or before `moi`, or the compound made with `zei`. -/
def refOf (l : Label) : Option Nat :=
  match l.jai, l.head with
  | some (_, u), _ => some u
  | none, .me s => some s
  | none, .nuha m => some m
  | none, .numberMoi n _ => some n
  | none, .zei z => some z
  | none, _ => none

/-- Whether the label shows the number before `moi`. -/
def ofMoi (l : Label) : Bool :=
  match l.jai, l.head with
  | none, .numberMoi .. => true
  | _, _ => false

/-- The kind of node that a label must point to. -/
def kindOf (l : Label) (x : Node) : Prop :=
  match l.jai, l.head with
  | some _, _ => x.isNT .tanruUnit2 = true
  | none, .me _ => x.isNT .sumti = true
  | none, .nuha _ => x.isNT .mexOperator = true
  | none, .numberMoi .. => x.isNT .number = true ∨ x.isNT .lerfuString = true
  | none, .zei _ => ∃ z, x = .zei z
  | none, _ => False

/-! ## Brackets of compounds with `zei` -/

mutual
theorem zei_mark (need : Nat → Bool) : ∀ (x : Node) (seq : Nat) (ms : List Mark) (n : Nat), addBracketing need seq x = .ok (ms, n) →
    ∀ z, Sub x (.zei z) → ∃ k, ⟨z, .floor, k + 1⟩ ∈ ms
  | .nt i t cs, seq, ms, n, h, z, hs => by
    rw [addBracketing] at h
    have fin : ∀ {m : Mark} {seq' : Nat}, (addBracketings need seq' cs >>= fun p => pure (m :: p.1, p.2)) = .ok (ms, n) → ∃ k, ⟨z, .floor, k + 1⟩ ∈ ms := by
      intro m seq' h
      obtain ⟨⟨ms', n'⟩, h2, h⟩ := bind_ok.1 h
      cases h
      cases hs with
      | child hc hs =>
        obtain ⟨k, hk⟩ := zei_marks need cs _ _ _ h2 _ hc z hs
        exact ⟨k, List.mem_cons_of_mem _ hk⟩
    split at h
    · exact fin h
    · obtain ⟨b, _, h⟩ := bind_ok.1 h
      split at h
      · exact fin h
      · exact fin h
  | .zei i, seq, ms, n, h, z, hs => by
    cases hs
    cases h
    exact ⟨seq, List.mem_singleton.2 rfl⟩
  | .brivla _, _, _, _, _, _, hs => by cases hs
  | .cmavo .., _, _, _, _, _, hs => by cases hs
  | .leaf _, _, _, _, _, _, hs => by cases hs
theorem zei_marks (need : Nat → Bool) : ∀ (cs : List Node) (seq : Nat) (ms : List Mark) (n : Nat), addBracketings need seq cs = .ok (ms, n) →
    ∀ c ∈ cs, ∀ z, Sub c (.zei z) → ∃ k, ⟨z, .floor, k + 1⟩ ∈ ms
  | [], _, _, _, _, _, hc, _, _ => absurd hc List.not_mem_nil
  | d :: cs, seq, ms, n, h, c, hc, z, hs => by
    rw [addBracketings] at h
    obtain ⟨⟨m1, n1⟩, h1, h⟩ := bind_ok.1 h
    obtain ⟨⟨m2, n2⟩, h2, h⟩ := bind_ok.1 h
    cases h
    rcases List.mem_cons.1 hc with e | hc
    · obtain ⟨k, hk⟩ := zei_mark need d _ _ _ h1 z (e ▸ hs)
      exact ⟨k, List.mem_append.2 (.inl hk)⟩
    · obtain ⟨k, hk⟩ := zei_marks need cs _ _ _ h2 c hc z hs
      exact ⟨k, List.mem_append.2 (.inr hk)⟩
end

/-- A compound made with `zei` has a bracket with a number of its own. -/
theorem zei_numbered (need : Nat → Bool) (top : Node) (hp : Parse .chunks top) (hn : (ids top).Nodup) {ms : List Mark}
    (h : addBracketingTags need top = .ok ms) {z : Nat} (hs : Sub top (.zei z)) :
    (bracOf ms z).1 ≠ .none ∧ (bracOf ms z).2 ≠ 0 ∧ ∀ j, (bracOf ms j).2 = (bracOf ms z).2 → j = z := by
  obtain ⟨ms', n, h1, hr⟩ := walk need (fun _ => "") 0 top (parse_fine hp)
  rw [addBracketingTags, h1] at h
  cases h
  have hsub := hr.sub
  simp only [idsAll, List.append_nil] at hsub
  have hnd := hsub.nodup hn
  obtain ⟨k, hm⟩ := zei_mark need top 0 ms' n h1 z hs
  have e := bracOf_mem hnd hm
  simp only at e
  rw [e]
  refine ⟨fun e => (by cases e), Nat.succ_ne_zero _, fun j hj => ?_⟩
  unfold bracOf at hj
  split at hj
  · rename_i m' hf
    have hm' := List.mem_of_find?_eq_some hf
    have hid : m'.id = j := by have := List.find?_some hf; simpa using this
    have hd : ((ms'.filter (·.num != 0)).map (·.num)).Nodup := by rw [hr.dist]; exact List.nodup_range'
    simp only at hj
    have := List.inj_on_of_nodup_map hd (List.mem_filter.2 ⟨hm', by simp [hj]⟩) (List.mem_filter.2 ⟨hm, by simp⟩) hj
    rw [← hid, this]
  · cases hj

/-! ## Numbers before `moi` -/

theorem moi_rule : on .numberMoiTu2 (fun its => match its.head? with
    | some (.n .number) => true
    | some (.n .lerfuString) => true
    | _ => false) = true := by decide +kernel

theorem moi_first {i : Nat} {c : Node} {cs : List Node} (h : Parse .numberMoiTu2 (.nt i .numberMoiTu2 (c :: cs))) :
    ∃ j t ds, c = .nt j t ds ∧ (t = .number ∨ t = .lerfuString) := by
  obtain ⟨_, its, _, e, hf, hk⟩ := on_use moi_rule h
  cases e
  cases its with
  | nil => cases hf
  | cons it its =>
    rw [List.head?_cons] at hf
    split at hf
    · rename_i he
      cases he
      obtain ⟨c', ds, e', hp, _⟩ := first hk
      cases e'
      obtain ⟨j, es, _, rfl, _⟩ := parse_inv hp
      exact ⟨_, _, _, rfl, .inl rfl⟩
    · rename_i he
      cases he
      obtain ⟨c', ds, e', hp, _⟩ := first hk
      cases e'
      obtain ⟨j, es, _, rfl, _⟩ := parse_inv hp
      exact ⟨_, _, _, rfl, .inr rfl⟩
    · cases hf

/-! ## Every bracket is shown -/

mutual
theorem opened_written (word : Node → String) (brac : Nat → Br × Nat) : ∀ (x y : Node), Sub x y → (∃ i t cs, y = .nt i t cs) ∨ (∃ z, y = .zei z) →
    (brac y.id).1 ≠ .none → Piece.opened (brac y.id).1 (brac y.id).2 ∈ written word brac x
  | .nt i t cs, y, hs, hk, hb => by
    rw [written]
    cases hs with
    | refl => rw [Node.id] at hb ⊢; rw [enclose, if_neg hb]; exact List.mem_append.2 (.inl (List.mem_append.2 (.inl (List.mem_singleton.2 rfl))))
    | child hc hs =>
      have := opened_writtens word brac cs _ hc y hs hk hb
      rw [enclose]
      split
      · exact this
      · exact List.mem_append.2 (.inl (List.mem_append.2 (.inr this)))
  | .zei i, y, hs, hk, hb => by
    cases hs
    rw [written]
    rw [Node.id] at hb ⊢; rw [enclose, if_neg hb]; exact List.mem_append.2 (.inl (List.mem_append.2 (.inl (List.mem_singleton.2 rfl))))
  | .brivla _, y, hs, hk, _ => by cases hs; rcases hk with ⟨_, _, _, h⟩ | ⟨_, h⟩ <;> cases h
  | .cmavo .., y, hs, hk, _ => by cases hs; rcases hk with ⟨_, _, _, h⟩ | ⟨_, h⟩ <;> cases h
  | .leaf _, y, hs, hk, _ => by cases hs; rcases hk with ⟨_, _, _, h⟩ | ⟨_, h⟩ <;> cases h
theorem opened_writtens (word : Node → String) (brac : Nat → Br × Nat) : ∀ (cs : List Node) (c : Node), c ∈ cs → ∀ y, Sub c y →
    (∃ i t cs, y = .nt i t cs) ∨ (∃ z, y = .zei z) → (brac y.id).1 ≠ .none → Piece.opened (brac y.id).1 (brac y.id).2 ∈ writtens word brac cs
  | [], _, hc, _, _, _, _ => absurd hc List.not_mem_nil
  | d :: cs, c, hc, y, hs, hk, hb => by
    rw [writtens]
    rcases List.mem_cons.1 hc with e | hc
    · exact List.mem_append.2 (.inl (opened_written word brac d y (e ▸ hs) hk hb))
    · exact List.mem_append.2 (.inr (opened_writtens word brac cs c hc y hs hk hb))
end

/-! ## The claim -/

/-- **Labels point to brackets that are shown.**  For each label with a number in it: the number is that of a bracket around a part of the text of the
kind that the label wants, the bracket is shown whatever the driver, and no other bracket has the number.  Full claim: the same for the number
before `moi` when the term is linked with `be` or `bei`; see `moi_unnumbered`. -/
theorem labels_refer_partial (top : Node) (hp : Parse .chunks top) (hn : (ids top).Nodup) {fuel : Nat} {log : List Terms.Ev}
    (h : termsProcessing fuel top = .ok log) (need : Nat → Bool) (hneed : ∀ j, .brac j ∈ log → need j = true) :
    ∃ ms, addBracketingTags need top = .ok ms ∧ ∀ t l i, .label t l ∈ log → refOf l = some i → (ofMoi l = true → ¬ Linked top t) →
      ∃ x, Sub top x ∧ x.id = i ∧ kindOf l x ∧ (bracOf ms i).2 ≠ 0 ∧ (∀ j, (bracOf ms j).2 = (bracOf ms i).2 → j = i) ∧
        ∀ (env : Env) (fuel : Nat) (out : List Call), env.brac = bracOf ms → output env fuel .both top = .ok out →
          .opened (bracOf ms i).1 (bracOf ms i).2 ∈ out.filterMap seen := by
  obtain ⟨ms, h1, h2⟩ := reference_numbered need top hp hn
  refine ⟨ms, h1, fun t l i hl hi hm => ?_⟩
  have hf := processing_good h t l hl
  have fin : ∀ x : Node, Sub top x → x.id = i → kindOf l x → (∃ i t cs, x = .nt i t cs) ∨ (∃ z, x = .zei z) →
      ((bracOf ms i).1 ≠ .none ∧ (bracOf ms i).2 ≠ 0 ∧ ∀ j, (bracOf ms j).2 = (bracOf ms i).2 → j = i) → _ := fun x hs he hk hx hb =>
    (⟨x, hs, he, hk, hb.2.1, hb.2.2, fun env fuel out eb ho => by
      rw [display env top hp fuel out ho, eb]
      subst he
      exact opened_written _ _ top x hs hx hb.1⟩ :
      ∃ x, Sub top x ∧ x.id = i ∧ kindOf l x ∧ (bracOf ms i).2 ≠ 0 ∧ (∀ j, (bracOf ms j).2 = (bracOf ms i).2 → j = i) ∧
        ∀ (env : Env) (fuel : Nat) (out : List Call), env.brac = bracOf ms → output env fuel .both top = .ok out →
          Piece.opened (bracOf ms i).1 (bracOf ms i).2 ∈ out.filterMap seen)
  obtain ⟨head, pos, jai⟩ := l
  cases jai with
  | some p =>
    obtain ⟨tg, u⟩ := p
    cases hi
    rcases hf.jai tg i rfl with hm | ⟨hb, ⟨cs, hs⟩, _⟩
    · exact absurd hm List.not_mem_nil
    · exact fin _ hs rfl rfl (.inl ⟨_, _, _, rfl⟩) (h2 i _ cs hs (by decide) (hneed i hb))
  | none =>
    cases head with
    | me s =>
      cases hi
      obtain ⟨hb, cs, hs⟩ := hf.me i rfl
      exact fin _ hs rfl rfl (.inl ⟨_, _, _, rfl⟩) (h2 i _ cs hs (by decide) (hneed i hb))
    | nuha s =>
      cases hi
      obtain ⟨hb, cs, hs⟩ := hf.nuha i rfl
      exact fin _ hs rfl rfl (.inl ⟨_, _, _, rfl⟩) (h2 i _ cs hs (by decide) (hneed i hb))
    | numberMoi n m =>
      cases hi
      obtain ⟨⟨k, c, cs, hs, rfl⟩, hb⟩ := hf.moi i m rfl
      have hb : Terms.Ev.brac c.id ∈ log := by
        rcases hb with hb | hb | hb
        · exact hb
        · exact absurd hb List.not_mem_nil
        · exact absurd hb (hm rfl)
      obtain ⟨j, u, ds, rfl, hu⟩ := moi_first (sub_parse hp hs (by decide))
      have hc := sub_trans hs (.child (List.mem_cons_self ..) .refl)
      rcases hu with rfl | rfl
      · exact fin _ hc rfl (.inl rfl) (.inl ⟨_, _, _, rfl⟩) (h2 _ _ _ hc (by decide) (hneed _ hb))
      · exact fin _ hc rfl (.inr rfl) (.inl ⟨_, _, _, rfl⟩) (h2 _ _ _ hc (by decide) (hneed _ hb))
    | zei z =>
      cases hi
      exact fin _ (hf.zei i rfl) rfl ⟨_, rfl⟩ (.inr ⟨_, rfl⟩) (zei_numbered need top hp hn h1 (hf.zei i rfl))
    | brivla x => cases hi
    | goha x => cases hi
    | abstraction x => cases hi

/-- *mi pamoi do* -/
def moiText : Node := (number 0 (textOf (up [.noCuSentence] (koha 0 "mi" ++ tailOf' (up [.numberMoiTu2]
  (up [.number, .innerNumber] [.cmavo 0 .PA "pa"] ++ [.cmavo 0 .MOI "moi"])) (up [.tailTerms] (koha 0 "do")))))).1

/-- *pamoi be do* -/
def moiLinked : Node := (number 0 (textOf (up [.observativeSentence, .bridiTail, .bridiTail1, .bridiTail2, .bridiTail3, .mainSelbri,
  .selbri, .selbri1, .selbri2, .selbri3, .selbri4, .selbri5, .selbri6, .tanruUnit, .tanruUnit1] (up [.tanruUnit2, .numberMoiTu2]
  (up [.number, .innerNumber] [.cmavo 0 .PA "pa"] ++ [.cmavo 0 .MOI "moi"]) ++ [.nt 0 .linkargs [.cmavo 0 .BE "be", kohaTerm 0 "do"]])))).1

/-- The labels of *mi pamoi do* point to the number *pa*, the fourth bracket. -/
example : Parse .chunks moiText ∧ (ids moiText).Nodup ∧ (∃ log, termsProcessing 90 moiText = .ok log ∧
      (∀ t ∈ [15, 50], ∃ l, .label t l ∈ log ∧ refOf l = some 42 ∧ ofMoi l = true) ∧ .brac 42 ∈ log) ∧
    ((addBracketingTags (· == 42) moiText).toOption.map fun ms => bracOf ms 42) = some (.round, 4) := by
  refine ⟨parse_of (by decide +kernel), by decide +kernel, ⟨[.vectors 30 [.pos 15] [.pos 50], .label 15 ⟨.numberMoi 42 45, 1, none⟩,
    .label 50 ⟨.numberMoi 42 45, 2, none⟩, .brac 42, .done 39], by decide +kernel, ?_, by decide⟩, by decide +kernel⟩
  intro t ht
  simp only [List.mem_cons, List.not_mem_nil, or_false] at ht
  rcases ht with rfl | rfl
  · exact ⟨⟨.numberMoi 42 45, 1, none⟩, by decide, rfl, rfl⟩
  · exact ⟨⟨.numberMoi 42 45, 2, none⟩, by decide, rfl, rfl⟩

/-- **A defect** (`terms.c:785-788`).  In *pamoi be do* the label of *do* points to the number *pa*, but no bracket is required for it, because
the terms linked with `be` are not counted: the label shows `#0-moi2`. -/
theorem moi_unnumbered : Parse .chunks moiLinked ∧ (ids moiLinked).Nodup ∧ ∃ log, termsProcessing 90 moiLinked = .ok log ∧
    .label 34 ⟨.numberMoi 28 31, 2, none⟩ ∈ log ∧ refOf ⟨.numberMoi 28 31, 2, none⟩ = some 28 ∧ (∀ j, .brac j ∉ log) ∧
    ((addBracketingTags (fun _ => false) moiLinked).toOption.map fun ms => bracOf ms 28) = some (.none, 0) := by
  refine ⟨parse_of (by decide +kernel), by decide +kernel, [.vectors 16 [] [], .label 34 ⟨.numberMoi 28 31, 2, none⟩, .done 25],
    by decide +kernel, by decide, rfl, fun j hj => ?_, by decide +kernel⟩
  simp at hj

end Jbo.Output
