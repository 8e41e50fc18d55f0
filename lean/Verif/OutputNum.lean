import Verif.OutputEnd
import Verif.RelativeThm
/-!
# The numbers of brackets

Brackets are numbered from one in the order of opening, so that `#n` in a label or a gloss tells which part of
the text is meant.
-/

namespace Jbo.Output
open Jbo.Terms Jbo.Gram Jbo.Output.Spec

theorem clauses_rule : on .relativeClauses (fun its => match its.head? with | some (.n _) => true | _ => false) = true := by decide +kernel

theorem clauses_first {i : Nat} {cs : List Node} (h : Parse .relativeClauses (.nt i .relativeClauses cs)) :
    ∃ j t ds rest, cs = .nt j t ds :: rest := by
  obtain ⟨_, its, _, e, hf, hk⟩ := on_use clauses_rule h
  cases e
  cases its with
  | nil => cases hf
  | cons it its =>
    cases it with
    | n t =>
      obtain ⟨c, ds, rfl, hp, _⟩ := first hk
      obtain ⟨j, es, _, rfl, _⟩ := parse_inv hp
      exact ⟨_, _, _, _, rfl⟩
    | _ => cases hf

/-- The condition can be tested. -/
def Fine (x : Node) : Prop := ∀ i cs, Sub x (.nt i .relativeClauses cs) → ∃ j t ds rest, cs = .nt j t ds :: rest

theorem parse_fine {u : NT} {top : Node} (hp : Parse u top) : Fine top := fun _ _ hs => clauses_first (sub_parse hp hs (by decide))

theorem brOf_inner {t : NT} {b : Br} (h : brOf t = some (b, .inner)) : t = .relativeClauses := by
  cases t <;> first | rfl | (simp [brOf] at h)

theorem brOf_some {t : NT} {b : Br} {c : Cond} (h : brOf t = some (b, c)) : b ≠ .none := by
  rintro rfl
  cases t <;> simp [brOf] at h

/-- What a nonterminal gets. -/
theorem holds_ok {need : Nat → Bool} {i : Nat} {t : NT} {cs : List Node} (hf : Fine (.nt i t cs)) {b : Br} {c : Cond} (h : brOf t = some (b, c)) :
    ∃ r, holds need i cs c = .ok r := by
  cases c with
  | inner =>
    have := brOf_inner h
    subst this
    obtain ⟨j, u, ds, rest, rfl⟩ := hf i cs .refl
    exact ⟨_, rfl⟩
  | _ => exact ⟨_, rfl⟩

/-- The mark of a nonterminal when `seq` brackets have been opened. -/
def Marked (need : Nat → Bool) (seq i : Nat) (t : NT) (cs : List Node) (m : Mark) : Prop :=
  m = ⟨i, .none, 0⟩ ∧ (∀ b c, brOf t = some (b, c) → holds need i cs c = .ok false) ∨
    ∃ b c, brOf t = some (b, c) ∧ holds need i cs c = .ok true ∧ m = ⟨i, b, seq + 1⟩

theorem mark_ok (need : Nat → Bool) (seq i : Nat) (t : NT) (cs : List Node) (hf : Fine (.nt i t cs)) : ∃ m, Marked need seq i t cs m ∧
    addBracketing need seq (.nt i t cs) = (do
      let (ms, n) ← addBracketings need (if m.num = 0 then seq else seq + 1) cs
      return (m :: ms, n)) := by
  rw [addBracketing]
  cases h : brOf t with
  | none => exact ⟨_, .inl ⟨rfl, by simp [h]⟩, rfl⟩
  | some p =>
    obtain ⟨b, c⟩ := p
    obtain ⟨r, hr⟩ := holds_ok (need := need) hf h
    cases r with
    | false =>
      refine ⟨_, .inl ⟨rfl, fun b' c' e => ?_⟩, ?_⟩
      · rw [h] at e; cases e; exact hr
      · simp only [hr]; rfl
    | true => exact ⟨_, .inr ⟨b, c, h, hr, rfl⟩, by simp only [hr]; rfl⟩

/-- The numbers of the brackets of a text. -/
def opens (ps : List Piece) : List Nat := ps.filterMap Piece.number?

theorem opens_enclose (b : Br × Nat) (ps : List Piece) : opens (enclose b ps) = if b.1 = .none then opens ps else b.2 :: opens ps := by
  unfold enclose opens
  split
  · rfl
  · rw [List.filterMap_append, List.filterMap_append]
    simp [Piece.number?]

/-- What the walk over a tree gives. -/
structure Run (need : Nat → Bool) (x : List Node) (seq : Nat) (ms : List Mark) (n : Nat) (out : (Nat → Br × Nat) → List Piece) : Prop where
  le : seq ≤ n
  sub : (ms.map (·.id)).Sublist (idsAll x)
  nums : ∀ brac : Nat → Br × Nat, (∀ m ∈ ms, brac m.id = (m.br, m.num)) → opens (out brac) = List.range' (seq + 1) (n - seq)
  each : ∀ c ∈ x, ∀ i t cs, Sub c (.nt i t cs) → ∃ k m, m ∈ ms ∧ Marked need k i t cs m
  dist : (ms.filter (·.num != 0)).map (·.num) = List.range' (seq + 1) (n - seq)

theorem range_add (a b c : Nat) (h1 : a ≤ b) (h2 : b ≤ c) : List.range' (a + 1) (b - a) ++ List.range' (b + 1) (c - b) = List.range' (a + 1) (c - a) := by
  have e1 : b + 1 = a + 1 + (b - a) := by omega
  have e2 : c - a = (b - a) + (c - b) := by omega
  rw [e1, e2, List.range'_append_1]

mutual
theorem walk (need : Nat → Bool) (word : Node → String) : ∀ (seq : Nat) (x : Node), Fine x →
    ∃ ms n, addBracketing need seq x = .ok (ms, n) ∧ Run need [x] seq ms n (fun brac => written word brac x)
  | seq, .nt i t cs, hf => by
    obtain ⟨m, hm, e⟩ := mark_ok need seq i t cs hf
    obtain ⟨ms, n, h1, hr⟩ := walks need word (if m.num = 0 then seq else seq + 1) cs (fun c hc j ds hs => hf j ds (.child hc hs))
    refine ⟨m :: ms, n, by rw [e, h1]; rfl, ?_, ?_, fun brac hb => ?_, fun c hc j u ds hs => ?_, ?_⟩
    · have := hr.le; split at this <;> omega
    · have hid : m.id = i := by rcases hm with ⟨rfl, _⟩ | ⟨_, _, _, _, rfl⟩ <;> rfl
      simp only [idsAll, ids, List.map_cons, List.append_nil, hid]
      exact hr.sub.cons_cons i
    · have hn := hr.nums brac (fun m' hm' => hb m' (List.mem_cons_of_mem _ hm'))
      have hm' := hb m (List.mem_cons_self ..)
      have hle := hr.le
      simp only [written, opens_enclose]
      rcases hm with ⟨rfl, _⟩ | ⟨b, c, hbr, _, rfl⟩
      · simp only at hm' hn
        rw [hm', if_pos rfl]
        exact hn
      · simp only [Nat.add_one_ne_zero, if_false] at hm' hn hle
        rw [hm', if_neg (brOf_some hbr)]
        simp only
        rw [hn, show n - seq = (n - (seq + 1)) + 1 by omega, List.range'_succ]
    · obtain rfl := List.mem_singleton.1 hc
      cases hs with
      | refl => exact ⟨seq, m, List.mem_cons_self .., hm⟩
      | child hd hs =>
        obtain ⟨k, m', h2, h3⟩ := hr.each _ hd j u ds hs
        exact ⟨k, m', List.mem_cons_of_mem _ h2, h3⟩
    · have hd := hr.dist
      have hle := hr.le
      rcases hm with ⟨rfl, _⟩ | ⟨b, c, hbr, _, rfl⟩
      · exact hd
      · simp only [Nat.add_one_ne_zero, if_false] at hd hle
        rw [List.filter_cons_of_pos (by simp), List.map_cons, hd, show n - seq = (n - (seq + 1)) + 1 by omega, List.range'_succ]
  | seq, .zei i, _ => by
    refine ⟨_, _, rfl, by omega, by simp [idsAll, ids, Node.id], fun brac hb => ?_, fun c hc j u ds hs => ?_, ?_⟩
    · have := hb _ (List.mem_singleton.2 rfl)
      simp only at this
      simp only [written, opens_enclose, this]
      rw [show seq + 1 - seq = 1 by omega]
      rfl
    · obtain rfl := List.mem_singleton.1 hc
      cases hs
    · rw [show seq + 1 - seq = 1 by omega]
      simp [List.range']
  | seq, .brivla i, _ => ⟨_, _, rfl, by omega, by simp, fun brac _ => by simp [written, opens, Piece.number?],
      fun c hc _ _ _ hs => by (obtain rfl := List.mem_singleton.1 hc; cases hs), by simp⟩
  | seq, .cmavo .., _ => ⟨_, _, rfl, by omega, by simp, fun brac _ => by simp [written, opens, Piece.number?],
      fun c hc _ _ _ hs => by (obtain rfl := List.mem_singleton.1 hc; cases hs), by simp⟩
  | seq, .leaf i, _ => ⟨_, _, rfl, by omega, by simp, fun brac _ => by simp [written, opens, Piece.number?],
      fun c hc _ _ _ hs => by (obtain rfl := List.mem_singleton.1 hc; cases hs), by simp⟩
theorem walks (need : Nat → Bool) (word : Node → String) : ∀ (seq : Nat) (cs : List Node), (∀ c ∈ cs, Fine c) →
    ∃ ms n, addBracketings need seq cs = .ok (ms, n) ∧ Run need cs seq ms n (fun brac => writtens word brac cs)
  | seq, [], _ => ⟨_, _, rfl, by omega, by simp, fun brac _ => by simp [writtens, opens], fun _ h => (by cases h), by simp⟩
  | seq, c :: cs, hf => by
    obtain ⟨ms, n, h1, hr⟩ := walk need word seq c (hf c (List.mem_cons_self ..))
    obtain ⟨ms', n', h2, hr'⟩ := walks need word n cs (fun d hd => hf d (List.mem_cons_of_mem _ hd))
    refine ⟨ms ++ ms', n', by rw [addBracketings, h1]; simp only [bind, Except.bind, h2]; rfl, Nat.le_trans hr.le hr'.le, ?_, fun brac hb => ?_,
      fun d hd j u ds hs => ?_, ?_⟩
    · rw [List.map_append, idsAll]
      have := hr.sub
      simp only [idsAll, List.append_nil] at this
      exact this.append hr'.sub
    · have a := hr.nums brac (fun m hm => hb m (List.mem_append_left _ hm))
      have b := hr'.nums brac (fun m hm => hb m (List.mem_append_right _ hm))
      simp only [writtens, opens, List.filterMap_append] at a b ⊢
      rw [a, b, range_add _ _ _ hr.le hr'.le]
    · rcases List.mem_cons.1 hd with rfl | hd
      · obtain ⟨k, m, h3, h4⟩ := hr.each d (List.mem_singleton.2 rfl) j u ds hs
        exact ⟨k, m, List.mem_append_left _ h3, h4⟩
      · obtain ⟨k, m, h3, h4⟩ := hr'.each d hd j u ds hs
        exact ⟨k, m, List.mem_append_right _ h3, h4⟩
    · rw [List.filter_append, List.map_append, hr.dist, hr'.dist, range_add _ _ _ hr.le hr'.le]
end

theorem bracOf_mem {ms : List Mark} (hn : (ms.map (·.id)).Nodup) {m : Mark} (hm : m ∈ ms) : bracOf ms m.id = (m.br, m.num) := by
  have : ms.find? (·.id == m.id) = some m := by
    induction ms with
    | nil => cases hm
    | cons a ms ih =>
      rw [List.find?_cons]
      rw [List.map_cons, List.nodup_cons] at hn
      rcases List.mem_cons.1 hm with rfl | hm
      · simp
      · have hne : (a.id == m.id) = false := by
          rw [beq_eq_false_iff_ne]
          intro e
          exact hn.1 (List.mem_map.2 ⟨m, hm, e.symm⟩)
        rw [hne]
        exact ih hn.2 hm
  rw [bracOf, this]

/-- **Brackets are numbered one, two, three, … in the order of opening.** -/
theorem numbers_run (need : Nat → Bool) (top : Node) (hp : Parse .chunks top) (hn : (ids top).Nodup) :
    ∃ ms, addBracketingTags need top = .ok ms ∧ ∀ env : Env, env.brac = bracOf ms → ∀ fuel out, output env fuel .both top = .ok out →
      ∃ k, (out.filterMap seen).filterMap Piece.number? = List.range' 1 k := by
  obtain ⟨ms, n, h1, hr⟩ := walk need (fun _ => "") 0 top (parse_fine hp)
  refine ⟨ms, by rw [addBracketingTags, h1]; rfl, fun env he fuel out ho => ⟨n, ?_⟩⟩
  obtain ⟨ms', n', h1', hr'⟩ := walk need (text env) 0 top (parse_fine hp)
  rw [h1] at h1'
  cases h1'
  rw [display env top hp fuel out ho, he]
  have hs := hr'.sub
  simp only [idsAll, List.append_nil] at hs
  exact hr'.nums _ fun m hm => bracOf_mem (hs.nodup hn) hm

/-! ## References -/

/-- The kinds of nodes that get a bracket when it is required. -/
def referable : List NT :=
  [.sumti, .sumti1, .sumti5a, .sumti5b, .nameSumti6, .sumtiTail1a, .freeVocative, .tanruUnit2, .number, .lerfuString, .mexOperator]

theorem referable_holds {t : NT} (ht : t ∈ referable) (need : Nat → Bool) {i : Nat} (hn : need i = true) (cs : List Node) :
    ∃ b c, brOf t = some (b, c) ∧ holds need i cs c = .ok true := by
  simp only [referable, List.mem_cons, List.not_mem_nil, or_false] at ht
  rcases ht with rfl | rfl | rfl | rfl | rfl | rfl | rfl | rfl | rfl | rfl | rfl <;>
    exact ⟨_, _, rfl, by simp [holds, hn]; rfl⟩

/-- A node to which something refers has a bracket with a number, and no other has this number. -/
theorem reference_numbered (need : Nat → Bool) (top : Node) (hp : Parse .chunks top) (hn : (ids top).Nodup) :
    ∃ ms, addBracketingTags need top = .ok ms ∧ ∀ i t cs, Sub top (.nt i t cs) → t ∈ referable → need i = true →
      (bracOf ms i).1 ≠ .none ∧ (bracOf ms i).2 ≠ 0 ∧ ∀ j, (bracOf ms j).2 = (bracOf ms i).2 → j = i := by
  obtain ⟨ms, n, h1, hr⟩ := walk need (fun _ => "") 0 top (parse_fine hp)
  refine ⟨ms, by rw [addBracketingTags, h1]; rfl, fun i t cs hs ht hi => ?_⟩
  have hsub := hr.sub
  simp only [idsAll, List.append_nil] at hsub
  have hnd := hsub.nodup hn
  obtain ⟨k, m, hm, hmk⟩ := hr.each top (List.mem_singleton.2 rfl) i t cs hs
  obtain ⟨b, c, hb, hh⟩ := referable_holds ht need hi cs
  rcases hmk with ⟨_, hno⟩ | ⟨b', c', hb', _, rfl⟩
  · have := hno b c hb
    rw [hh] at this; cases this
  · rw [hb] at hb'
    cases hb'
    have e := bracOf_mem hnd hm
    simp only at e
    rw [e]
    refine ⟨brOf_some hb, Nat.succ_ne_zero _, fun j hj => ?_⟩
    -- another node with this number
    unfold bracOf at hj
    split at hj
    · rename_i m' hf
      have hm' := List.mem_of_find?_eq_some hf
      have hid : m'.id = j := by have := List.find?_some hf; simpa using this
      have hd : ((ms.filter (·.num != 0)).map (·.num)).Nodup := by rw [hr.dist]; exact List.nodup_range'
      simp only at hj
      have := List.inj_on_of_nodup_map hd (List.mem_filter.2 ⟨hm', by simp [hj]⟩) (List.mem_filter.2 ⟨hm, by simp⟩) hj
      rw [← hid, this]
    · cases hj

section
open Jbo.Relative.Spec

theorem nearest_det {P : Node → Prop} {anc : List Node} {r r' : Node} (h : Nearest P anc r) (h' : Nearest P anc r') : r = r' := by
  obtain ⟨near, rest, rfl, h1, h2⟩ := h
  obtain ⟨near', rest', e, h1', h2'⟩ := h'
  rcases List.append_eq_append_iff.1 e with ⟨as, ea, eb⟩ | ⟨as, ea, eb⟩
  · cases as with
    | nil => simp at eb; exact eb.1
    | cons a as =>
      rw [List.cons_append] at eb
      injection eb with e1 _
      subst e1
      exact absurd h1 (h2' _ (by rw [ea]; simp))
  · cases as with
    | nil => simp at eb; exact eb.1.symm
    | cons a as =>
      rw [List.cons_append] at eb
      injection eb with e1 _
      subst e1
      exact absurd h1' (h2 _ (by rw [ea]; simp))

theorem stands_det {anc : List Node} {x y : Node} (h : Stands anc x) (h' : Stands anc y) : x = y := by
  obtain ⟨near, i, cs, rest, rfl, h1⟩ := h
  obtain ⟨near', j, ds, rest', e, h2⟩ := h'
  rcases List.append_eq_append_iff.1 e with ⟨as, ea, eb⟩ | ⟨as, ea, eb⟩
  · cases as with
    | nil => simp at eb; exact eb.2.1
    | cons a as =>
      rw [List.cons_append] at eb
      injection eb with e1 _
      subst e1
      have := h2 _ (by rw [ea]; simp : Node.nt i .relativeClauses cs ∈ near')
      simp [Node.isNT] at this
  · cases as with
    | nil => simp at eb; exact eb.2.1.symm
    | cons a as =>
      rw [List.cons_append] at eb
      injection eb with e1 _
      subst e1
      have := h1 _ (by rw [ea]; simp : Node.nt j .relativeClauses ds ∈ near)
      simp [Node.isNT] at this

theorem antecedent_det {x a b : Node} (h : Antecedent x a) (h' : Antecedent x b) : a = b := by
  cases h with
  | sumti _ => cases h' with
    | sumti _ => rfl
    | lahe h _ => rcases h with h | h <;> cases h
  | sumti5 _ => cases h' with
    | sumti5 _ => rfl
    | lahe h _ => rcases h with h | h <;> cases h
  | lahe ht hk => cases h' with
    | lahe _ hk' => rw [hk] at hk'; cases hk'; rfl
    | _ => rcases ht with ht | ht <;> cases ht
  | name => cases h' with
    | name => rfl
    | lahe h _ => rcases h with h | h <;> cases h
  | owner hk => cases h' with
    | owner hk' => rw [hk] at hk'; cases hk'; rfl
    | lahe h _ => rcases h with h | h <;> cases h
  | tail _ => cases h' with
    | tail _ => rfl
    | lahe h _ => rcases h with h | h <;> cases h
  | vocative => cases h' with
    | vocative => rfl
    | lahe h _ => rcases h with h | h <;> cases h

/-- The gloss of `ke'a` has the number of the antecedent of its clause. -/
theorem keha_number {top : Node} (hp : Parse .chunks top) (hn : (ids top).Nodup) {log : List Relative.Ev}
    (hl : Relative.relativeClauseProcessing top = .ok log) (brac : Nat → Br × Nat) {near rest : List Node} {i : Nat} {r encl a : Node}
    (hk : Occ top (near ++ r :: rest) (.cmavo i .KOhA "ke'a")) (hr : anyClause r) (hnear : ∀ y ∈ near, ¬ anyClause y)
    (hst : Stands rest encl) (ha : Antecedent encl a) : kehaNumber log brac i = some (brac a.id).2 := by
  obtain ⟨log', h1, h2⟩ := Relative.relatives_any top hp
  rw [hl] at h1
  cases h1
  have near1 : Nearest anyClause (near ++ r :: rest) r := ⟨near, rest, rfl, hr, hnear⟩
  have m1 : Relative.Ev.link i r.id ∈ log := (h2 _).2 ⟨_, _, hk, .keha near1 (List.mem_cons_self ..)⟩
  obtain ⟨q, cs, rfl⟩ := hr
  have hor : Occ top rest (.nt q .relativeClause cs) := (occ_anc hk near _ rest rfl).1
  have m2 : Relative.Ev.antecedent q a.id ∈ log := (h2 _).2 ⟨_, _, hor, .clause hst ha (List.mem_cons_self ..)⟩
  have u1 : ∀ z, Relative.Ev.link i z ∈ log → z = q := by
    intro z hz
    obtain ⟨anc', x', ho', ht⟩ := (h2 _).1 hz
    cases ht with
    | keha hr' he =>
      simp only [List.mem_cons, Relative.Ev.link.injEq, List.not_mem_nil, or_false, reduceCtorEq] at he
      obtain ⟨rfl, rfl⟩ := he
      have e := (occ_unique hp hn ho' hk rfl).1
      subst e
      rw [nearest_det hr' near1]; rfl
    | clause _ _ he => simp at he
  have u2 : ∀ z, Relative.Ev.antecedent q z ∈ log → z = a.id := by
    intro z hz
    obtain ⟨anc', x', ho', ht⟩ := (h2 _).1 hz
    cases ht with
    | keha hr' he => simp at he
    | @clause _ i' cs' encl' a' hs' ha' he =>
      simp only [List.mem_cons, Relative.Ev.antecedent.injEq, List.not_mem_nil, or_false, reduceCtorEq] at he
      obtain ⟨rfl, rfl⟩ := he
      have e := (occ_unique hp hn ho' hor rfl).1
      subst e
      have := stands_det hs' hst
      subst this
      rw [antecedent_det ha' ha]
  have f1 : log.findSome? (linkOf i) = some q := by
    have : (log.findSome? (linkOf i)).isSome := by
      rw [List.findSome?_isSome_iff]
      exact ⟨_, m1, by simp [linkOf]⟩
    obtain ⟨z, hz⟩ := Option.isSome_iff_exists.1 this
    obtain ⟨e, he, hfe⟩ := List.exists_of_findSome?_eq_some hz
    cases e with
    | link k r' =>
      by_cases hki : k = i
      · subst hki
        simp only [linkOf, if_true, Option.some.injEq] at hfe
        subst hfe
        rw [hz, u1 _ he]
      · simp [linkOf, hki] at hfe
    | _ => cases hfe
  have f2 : log.findSome? (antecedentOf q) = some a.id := by
    have : (log.findSome? (antecedentOf q)).isSome := by
      rw [List.findSome?_isSome_iff]
      exact ⟨_, m2, by simp [antecedentOf]⟩
    obtain ⟨z, hz⟩ := Option.isSome_iff_exists.1 this
    obtain ⟨e, he, hfe⟩ := List.exists_of_findSome?_eq_some hz
    cases e with
    | antecedent k r' =>
      by_cases hki : k = q
      · subst hki
        simp only [antecedentOf, if_true, Option.some.injEq] at hfe
        subst hfe
        rw [hz, u2 _ he]
      · simp [antecedentOf, hki] at hfe
    | _ => cases hfe
  unfold kehaNumber
  simp only [f1, f2, Option.bind_eq_bind, Option.bind_some]
  rfl

theorem isNT_nt {x : Node} {t : NT} (h : x.isNT t = true) : ∃ i cs, x = .nt i t cs := by
  cases x with
  | nt i u cs => simp only [Node.isNT, beq_iff_eq] at h; subst h; exact ⟨_, _, rfl⟩
  | _ => simp [Node.isNT] at h

/-- What antecedents are. -/
theorem antecedent_kind {encl a : Node} (h : Antecedent encl a) (h6 : a.isNT .sumti6 = false) :
    Sub encl a ∧ ∃ i t cs, a = .nt i t cs ∧ t ∈ referable := by
  cases h with
  | sumti h =>
    obtain ⟨i, cs, rfl⟩ := isNT_nt h
    exact ⟨.child (List.mem_cons_self ..) .refl, _, _, _, rfl, by decide⟩
  | sumti5 h =>
    rcases h with h | h <;>
    · obtain ⟨i, cs, rfl⟩ := isNT_nt h
      exact ⟨.child (List.mem_cons_self ..) .refl, _, _, _, rfl, by decide⟩
  | @lahe _ _ ds _ _ hk =>
    have hm : a ∈ Terms.Spec.kids ds .sumti := by rw [hk]; exact List.mem_singleton.2 rfl
    obtain ⟨hm, ht⟩ := List.mem_filter.1 hm
    obtain ⟨i, cs, rfl⟩ := isNT_nt ht
    exact ⟨.child hm .refl, _, _, _, rfl, by decide⟩
  | name => exact ⟨.refl, _, _, _, rfl, by decide⟩
  | @owner _ ds _ hk =>
    have hm : a ∈ Terms.Spec.kids ds .sumti6 := by rw [hk]; exact List.mem_singleton.2 rfl
    rw [(List.mem_filter.1 hm).2] at h6
    cases h6
  | tail h =>
    obtain ⟨i, cs, rfl⟩ := isNT_nt h
    exact ⟨.child (List.mem_cons_self ..) .refl, _, _, _, rfl, by decide⟩
  | vocative => exact ⟨.refl, _, _, _, rfl, by decide⟩

theorem sub_trans {x y z : Node} (h : Sub x y) (h' : Sub y z) : Sub x z := by
  induction h with
  | refl => exact h'
  | child hc _ ih => exact .child hc (ih h')

/-- **`ke'a` points to its antecedent.**  In every text with brackets where `relative_clause_processing` wants them: the gloss of `ke'a`
has a number, it is the number of the bracket around the antecedent of the nearest clause, and no other bracket has it.  Full claim: the same
when the antecedent is the sumti between `le` and the clause; see `owner_unnumbered`. -/
theorem keha_refers_partial (top : Node) (hp : Parse .chunks top) (hn : (ids top).Nodup) :
    ∃ log, Relative.relativeClauseProcessing top = .ok log ∧ ∀ need : Nat → Bool, (∀ j, .brac j ∈ log → need j = true) →
      ∃ ms, addBracketingTags need top = .ok ms ∧ ∀ near rest i r encl a, Occ top (near ++ r :: rest) (.cmavo i .KOhA "ke'a") →
        anyClause r → (∀ y ∈ near, ¬ anyClause y) → Stands rest encl → Antecedent encl a → a.isNT .sumti6 = false →
        ∃ b n, kehaNumber log (bracOf ms) i = some n ∧ bracOf ms a.id = (b, n) ∧ b ≠ .none ∧ n ≠ 0 ∧ ∀ j, (bracOf ms j).2 = n → j = a.id := by
  obtain ⟨log, h1, h2⟩ := Relative.relatives_any top hp
  refine ⟨log, h1, fun need hneed => ?_⟩
  obtain ⟨ms, h3, h4⟩ := reference_numbered need top hp hn
  refine ⟨ms, h3, fun near rest i r encl a ho hr hnear hst ha h6 => ?_⟩
  have hnum := keha_number hp hn h1 (bracOf ms) ho hr hnear hst ha
  obtain ⟨hor, _⟩ := occ_anc ho near r rest rfl
  obtain ⟨hsub, q, t, cs, rfl, ht⟩ := antecedent_kind ha h6
  have hbr : Relative.Ev.brac q ∈ log := by
    obtain ⟨k, ds, rfl⟩ := hr
    exact (h2 _).2 ⟨_, _, hor, .clause hst ha (List.mem_cons_of_mem _ (List.mem_cons_self ..))⟩
  obtain ⟨near', k, ds, rest', rfl, _⟩ := hst
  have hoe := (occ_anc hor (near' ++ [.nt k .relativeClauses ds]) encl rest' (by simp)).1
  obtain ⟨h5, h7, h8⟩ := h4 q t cs (sub_trans (occ_sub hoe) hsub) ht (hneed _ hbr)
  exact ⟨_, _, hnum, rfl, h5, h7, h8⟩

end

end Jbo.Output
