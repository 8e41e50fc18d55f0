import Verif.BlockInst
import Verif.DfasynSpec
/-!
# Every file that is accepted gives a sensible NFA
-/

namespace Jbo.Dfasyn

/-- Tokens exist, and transitions to known states lead to states of the block. -/
def BlkInv (nt : Nat) (b : PBlock) : Prop :=
  ∀ s ∈ b.states, ∀ tr ∈ s.trans, (∀ i, tr.2 = .at i → i < b.states.length) ∧ ∀ t, tr.1 = some t → t < nt

/-- What every action does. -/
def BlkGrows (nt : Nat) (b b' : PBlock) : Prop :=
  (BlkInv nt b → BlkInv nt b') ∧ b.states.length ≤ b'.states.length

theorem BlkGrows.refl {nt : Nat} (b : PBlock) : BlkGrows nt b b := ⟨id, Nat.le_refl _⟩

theorem BlkGrows.trans {nt : Nat} {a b c : PBlock} (h : BlkGrows nt a b) (k : BlkGrows nt b c) : BlkGrows nt a c :=
  ⟨fun x => k.1 (h.1 x), Nat.le_trans h.2 k.2⟩

/-- The blocks read so far are fine. -/
def EnvOk (nt : Nat) (env : Env) : Prop := env.tokens.length = nt ∧ ∀ p ∈ env.blocks, BlkInv nt p.2

theorem mem_flatOpt {α β : Type} {f : α → Option (List β)} : ∀ {l : List α} {r : List β}, flatOpt f l = some r →
    ∀ y ∈ r, ∃ x ∈ l, ∃ z, f x = some z ∧ y ∈ z
  | [], r, h => by
    simp only [flatOpt, Option.some.injEq] at h
    subst h; intro y hy; cases hy
  | a :: l, r, h => by
    unfold flatOpt at h
    cases hf : f a with
    | none => rw [hf] at h; simp at h
    | some x =>
      cases hl : flatOpt f l with
      | none => rw [hf, hl] at h; simp at h
      | some z =>
        rw [hf, hl] at h
        simp only [Option.some.injEq] at h
        subst h
        intro y hy
        rcases List.mem_append.1 hy with hy | hy
        · exact ⟨a, List.mem_cons_self, x, hf, hy⟩
        · obtain ⟨w, hw, h2⟩ := mem_flatOpt hl y hy
          exact ⟨w, List.mem_cons_of_mem _ hw, h2⟩

theorem pushed_lt (tokens : List Ident) (abbrevs : List (Ident × List Ident)) : ∀ (fuel : Nat) (s : Ident)
    (r : List (Option Nat)), pushed tokens abbrevs fuel s = some r → ∀ t, some t ∈ r → t < tokens.length := by
  intro fuel
  induction fuel with
  | zero =>
    intro s r h t ht
    unfold pushed at h
    split at h
    · cases h; simp at ht
    · split at h
      · cases h
      · split at h
        · rename_i u hu
          cases h
          simp only [List.mem_singleton, Option.some.injEq] at ht
          subst ht
          unfold lookupToken List.idxOf? at hu
          exact (List.findIdx?_eq_some_iff_getElem.1 hu).1
        · cases h
  | succ fuel ih =>
    intro s r h t ht
    unfold pushed at h
    split at h
    · cases h; simp at ht
    · split at h
      · obtain ⟨x, _, z, hz, hy⟩ := mem_flatOpt h _ ht
        exact ih x z hz t hy
      · split at h
        · rename_i u hu
          cases h
          simp only [List.mem_singleton, Option.some.injEq] at ht
          subst ht
          unfold lookupToken List.idxOf? at hu
          exact (List.findIdx?_eq_some_iff_getElem.1 hu).1
        · cases h

theorem mem_modify {α : Type} {f : α → α} : ∀ {l : List α} {i : Nat} {x : α}, x ∈ l.modify i f →
    x ∈ l ∨ ∃ y ∈ l, x = f y := by
  intro l i x h
  obtain ⟨j, hj, rfl⟩ := List.getElem_of_mem h
  rw [List.getElem_modify]
  have hj' : j < l.length := by simpa using hj
  split
  · exact .inr ⟨_, List.getElem_mem hj', rfl⟩
  · exact .inl (List.getElem_mem hj')

/-- Changing a state so that its new transitions are fine. -/
theorem modify_grows {nt : Nat} {b : PBlock} {i : Nat} {f : PState → PState}
    (h : ∀ s, ∀ tr ∈ (f s).trans, tr ∈ s.trans ∨ ((∀ i, tr.2 = .at i → i < b.states.length) ∧
      ∀ t, tr.1 = some t → t < nt)) : BlkGrows nt b (b.modify i f) := by
  refine ⟨fun hi s hs tr htr => ?_, by simp [PBlock.modify]⟩
  have hlen : (b.modify i f).states.length = b.states.length := by simp [PBlock.modify]
  rw [hlen]
  rcases mem_modify hs with hs | ⟨y, hy, rfl⟩
  · exact hi s hs tr htr
  · rcases h y tr htr with h | h
    · exact hi y hy tr h
    · exact h

theorem addTransitions_grows {nt : Nat} {env : Env} (he : EnvOk nt env) {b b' : PBlock} {i : Nat} {o : List Ident}
    {n : SName} (h : addTransitions env b i o (.named n) = some b') : BlkGrows nt b b' := by
  unfold addTransitions at h
  split at h
  · cases h
  · rename_i ts hts
    cases h
    apply modify_grows
    intro s tr htr
    simp only [List.mem_append, List.mem_reverse, List.mem_map] at htr
    rcases htr with ⟨t, ht, rfl⟩ | htr
    · refine .inr ⟨fun i e => (by cases e), fun t' e => ?_⟩
      have e : t = some t' := e
      subst e
      obtain ⟨x, _, z, hz, hy⟩ := mem_flatOpt hts _ ht
      rw [← he.1]
      exact pushed_lt _ _ _ x z hz t' hy
    · exact .inl htr

theorem append_grows {nt : Nat} {b b' : PBlock} {e : List PState} (h : b'.states = b.states ++ e)
    (he : ∀ s ∈ e, s.trans = []) : BlkGrows nt b b' := by
  refine ⟨fun hi s hs tr htr => ?_, by rw [h]; simp⟩
  rw [h] at hs ⊢
  rcases List.mem_append.1 hs with hs | hs
  · obtain ⟨h1, h2⟩ := hi s hs tr htr
    refine ⟨fun i e => ?_, h2⟩
    have := h1 i e
    rw [List.length_append]; omega
  · rw [he s hs] at htr; cases htr

theorem get_ext (b : PBlock) (n : SName) : (∃ e, (b.get n).1.states = b.states ++ e ∧ ∀ s ∈ e, s.trans = []) ∧
    (b.get n).2 < (b.get n).1.states.length := by
  unfold PBlock.get
  cases h : b.find n with
  | some i => exact ⟨⟨[], by simp, by simp⟩, (List.findIdx?_eq_some_iff_getElem.1 h).1⟩
  | none => exact ⟨⟨[⟨n, [], [], []⟩], rfl, by simp⟩, by simp [PBlock.create]⟩

theorem get_grows {nt : Nat} (b : PBlock) (n : SName) : BlkGrows nt b (b.get n).1 := by
  obtain ⟨⟨e, h1, h2⟩, _⟩ := get_ext b n
  exact append_grows h1 h2

theorem addInternal_grows {nt : Nat} {env : Env} (he : EnvOk nt env) {b b' : PBlock} {i j : Nat} {o : List Ident}
    (h : addInternal env b i o = some (b', j)) : BlkGrows nt b b' := by
  unfold addInternal at h
  simp only at h
  split at h
  · cases h
  · rename_i b'' hb
    cases h
    exact BlkGrows.trans (append_grows (e := [⟨[.sub b.subcount], [], [], []⟩]) rfl (by simp))
      (addTransitions_grows he hb)

theorem instantiate_grows {nt : Nat} {env : Env} (he : EnvOk nt env) {b b' : PBlock} {inst : Atom} {m : Ident}
    (h : instantiate env b inst m = some b') : BlkGrows nt b b' := by
  unfold instantiate at h
  split at h
  · cases h
  · rename_i mb hm
    simp only [Option.some.injEq] at h
    subst h
    have hmb : BlkInv nt mb := by
      have : (m, mb) ∈ env.blocks := by
        obtain ⟨l1, l2, hl, _⟩ := List.lookup_eq_some_iff.1 hm
        rw [hl]; simp
      exact he.2 _ this
    refine ⟨fun hi s hs tr htr => ?_, by simp⟩
    simp only [List.length_append, List.length_map]
    rcases List.mem_append.1 hs with hs | hs
    · obtain ⟨h1, h2⟩ := hi s hs tr htr
      exact ⟨fun i e => by have := h1 i e; omega, h2⟩
    · obtain ⟨s0, hs0, rfl⟩ := List.mem_map.1 hs
      simp only [List.mem_reverse, List.mem_map] at htr
      obtain ⟨⟨t0, d0⟩, htr0, rfl⟩ := htr
      obtain ⟨h1, h2⟩ := hmb s0 hs0 _ htr0
      refine ⟨fun i e => ?_, h2⟩
      cases d0 with
      | «at» k =>
        simp only [Dest.at.injEq] at e
        have := h1 k rfl
        omega
      | named n => simp at e

theorem same_grows {nt : Nat} {b b' : PBlock} (h : b'.states = b.states) : BlkGrows nt b b' :=
  append_grows (e := []) (by simpa using h) (by simp)

theorem inlineLoop_grows {nt : Nat} {env : Env} (he : EnvOk nt env) {i : Nat} {out : SName} :
    ∀ {l : List (Option (Ident × Ident × Ident))} {b b' : PBlock}, inlineLoop env i out l b = some b' → BlkGrows nt b b'
  | [], b, b', h => by cases h; exact .refl _
  | none :: l, b, b', h => by
    unfold inlineLoop at h
    split at h
    · cases h
    · rename_i b1 h1
      exact (addTransitions_grows he h1).trans (inlineLoop_grows he h)
  | some (type, inn, ex) :: l, b, b', h => by
    unfold inlineLoop at h
    simp only at h
    split at h
    · cases h
    · rename_i b1 h1
      split at h
      · cases h
      · rename_i b2 h2
        split at h
        · cases h
        · rename_i b3 h3
          have g1 := instantiate_grows he h1
          have g0 : BlkGrows nt b { b with subblockcount := b.subblockcount + 1 } := same_grows rfl
          exact g0.trans (g1.trans ((get_grows b1 _).trans ((addTransitions_grows he h2).trans
            ((addTransitions_grows he h3).trans (inlineLoop_grows he h)))))

theorem addInline_grows {nt : Nat} {env : Env} (he : EnvOk nt env) {b b' : PBlock} {i j : Nat}
    {l : List (Option (Ident × Ident × Ident))} (h : addInline env b i l = some (b', j)) : BlkGrows nt b b' := by
  unfold addInline at h
  simp only at h
  split at h
  · cases h
  · rename_i b'' hb
    cases h
    exact BlkGrows.trans (append_grows (e := [⟨[.sub b.subcount], [], [], []⟩]) rfl (by simp)) (inlineLoop_grows he hb)

theorem stepAction_grows {nt : Nat} {env : Env} (he : EnvOk nt env) {b : PBlock} {i : Nat} {s : Step}
    {r : PBlock × Nat × List Ident} (h : stepAction env b i s = some r) : BlkGrows nt b r.1 := by
  cases s with
  | toks l => cases h; exact .refl _
  | inl l =>
    simp only [stepAction] at h
    split at h
    · cases h
    · rename_i b1 j h1
      cases h
      exact addInline_grows he h1

theorem seqAction_grows {nt : Nat} {env : Env} (he : EnvOk nt env) : ∀ {l : List Step}
    {r r' : PBlock × Nat × List Ident}, seqAction env l r = some r' → BlkGrows nt r.1 r'.1
  | [], r, r', h => by cases h; exact .refl _
  | s :: l, (b, i, p), r', h => by
    unfold seqAction at h
    split at h
    · cases h
    · rename_i b1 j h1
      split at h
      · cases h
      · rename_i r1 h2
        exact (addInternal_grows he h1).trans ((stepAction_grows he h2).trans (seqAction_grows he h))

theorem toAction_grows {nt : Nat} {env : Env} (he : EnvOk nt env) {i : Nat} {p : List Ident} :
    ∀ {l : List SName} {b b' : PBlock}, toAction env i p l b = some b' → BlkGrows nt b b'
  | [], b, b', h => by cases h; exact .refl _
  | d :: l, b, b', h => by
    unfold toAction at h
    split at h
    · cases h
    · rename_i b1 h1
      exact (addTransitions_grows he h1).trans (toAction_grows he h)

theorem transAction_grows {nt : Nat} {env : Env} (he : EnvOk nt env) {b b' : PBlock} {i : Nat} {t : TransDecl}
    (h : transAction env b i t = some b') : BlkGrows nt b b' := by
  unfold transAction at h
  split at h
  · cases h
  · rename_i r h1
    split at h
    · cases h
    · rename_i b2 j p h2
      have g := (stepAction_grows he h1).trans (seqAction_grows he h2)
      split at h
      · exact g.trans (toAction_grows he h)
      · split at h
        · cases h
        · rename_i b3 k h3
          cases h
          exact g.trans ((addInternal_grows he h3).trans (modify_grows (fun s tr htr => .inl htr)))

theorem transActions_grows {nt : Nat} {env : Env} (he : EnvOk nt env) {i : Nat} :
    ∀ {l : List TransDecl} {b b' : PBlock}, transActions env i l b = some b' → BlkGrows nt b b'
  | [], b, b', h => by cases h; exact .refl _
  | t :: l, b, b', h => by
    unfold transActions at h
    split at h
    · cases h
    · rename_i b1 h1
      exact (transAction_grows he h1).trans (transActions_grows he h)

theorem stateAction_grows {nt : Nat} {env : Env} (he : EnvOk nt env) {b b' : PBlock} {i : Nat} {s : StateDecl}
    (h : stateAction env b s = some (b', i)) : BlkGrows nt b b' ∧ i < b'.states.length := by
  unfold stateAction at h
  simp only at h
  split at h
  · cases h
  · rename_i b1 h1
    cases h
    have g1 : BlkGrows nt (b.get s.name).1 b' ∧ (b.get s.name).1.states.length ≤ b'.states.length := by
      cases ha : s.attr with
      | none =>
        rw [ha] at h1
        have := transActions_grows he h1
        exact ⟨this, this.2⟩
      | some n =>
        rw [ha] at h1
        have k : BlkGrows nt (b.get s.name).1 ((b.get s.name).1.modify (b.get s.name).2
            (fun s => { s with attrs := n :: s.attrs })) := modify_grows (fun s tr htr => .inl htr)
        have := k.trans (transActions_grows he h1)
        exact ⟨this, this.2⟩
    exact ⟨(get_grows b s.name).trans g1.1, Nat.lt_of_lt_of_le (get_ext b s.name).2 g1.2⟩

theorem stateActions_grows {nt : Nat} {env : Env} (he : EnvOk nt env) :
    ∀ {l : List StateDecl} {r r' : PBlock × Option Nat}, stateActions env l r = some r' →
      (∀ i, r.2 = some i → i < r.1.states.length) →
      BlkGrows nt r.1 r'.1 ∧ ∀ i, r'.2 = some i → i < r'.1.states.length
  | [], r, r', h, hc => by cases h; exact ⟨.refl _, hc⟩
  | s :: l, (b, c), r', h, hc => by
    unfold stateActions at h
    split at h
    · cases h
    · rename_i b1 i h1
      obtain ⟨g, hi⟩ := stateAction_grows he h1
      obtain ⟨g2, h2⟩ := stateActions_grows he h (by intro j e; cases e; exact hi)
      exact ⟨g.trans g2, h2⟩

theorem instActions_grows {nt : Nat} {env : Env} (he : EnvOk nt env) :
    ∀ {l : List (Ident × Ident)} {b b' : PBlock}, instActions env l b = some b' → BlkGrows nt b b'
  | [], b, b', h => by cases h; exact .refl _
  | (i, m) :: l, b, b', h => by
    unfold instActions at h
    split at h
    · cases h
    · rename_i b1 h1
      exact (instantiate_grows he h1).trans (instActions_grows he h)

/-- Every transition leads to one of `n` states, and its token is one of `nt`. -/
def BlkFixed (nt n : Nat) (l : List (Option Nat × Dest)) : Prop :=
  ∀ tr ∈ l, (∃ i, tr.2 = .at i ∧ i < n) ∧ ∀ t, tr.1 = some t → t < nt

theorem fixTrans_ok {nt : Nat} : ∀ (l : List (Option Nat × Dest)) (b : PBlock),
    (∀ tr ∈ l, (∀ i, tr.2 = .at i → i < b.states.length) ∧ ∀ t, tr.1 = some t → t < nt) →
    (∃ e, (fixTrans l b).1.states = b.states ++ e ∧ ∀ s ∈ e, s.trans = []) ∧
    BlkFixed nt (fixTrans l b).1.states.length (fixTrans l b).2
  | [], b, _ => ⟨⟨[], by simp [fixTrans], by simp⟩, by intro tr htr; simp [fixTrans] at htr⟩
  | (t, .at i) :: l, b, h => by
    obtain ⟨⟨e, h1, h2⟩, h3⟩ := fixTrans_ok (nt := nt) l b (fun tr htr => h tr (List.mem_cons_of_mem _ htr))
    refine ⟨⟨e, h1, h2⟩, ?_⟩
    intro tr htr
    have htr : tr ∈ (t, Dest.at i) :: (fixTrans l b).2 := htr
    rcases List.mem_cons.1 htr with rfl | htr
    · obtain ⟨k1, k2⟩ := h (t, .at i) List.mem_cons_self
      refine ⟨⟨i, rfl, ?_⟩, k2⟩
      have := k1 i rfl
      show i < (fixTrans l b).1.states.length
      rw [h1, List.length_append]; omega
    · exact h3 tr htr
  | (t, .named n) :: l, b, h => by
    obtain ⟨⟨e0, g1, g2⟩, g3⟩ := get_ext b n
    obtain ⟨⟨e, h1, h2⟩, h3⟩ := fixTrans_ok (nt := nt) l (b.get n).1 (fun tr htr => by
      obtain ⟨k1, k2⟩ := h tr (List.mem_cons_of_mem _ htr)
      refine ⟨fun i e => ?_, k2⟩
      have := k1 i e
      rw [g1, List.length_append]; omega)
    refine ⟨⟨e0 ++ e, ?_, ?_⟩, ?_⟩
    · show (fixTrans l (b.get n).1).1.states = _
      rw [h1, g1, List.append_assoc]
    · intro s hs
      rcases List.mem_append.1 hs with hs | hs
      · exact g2 s hs
      · exact h2 s hs
    · intro tr htr
      have htr : tr ∈ (t, Dest.at (b.get n).2) :: (fixTrans l (b.get n).1).2 := htr
      rcases List.mem_cons.1 htr with rfl | htr
      · refine ⟨⟨_, rfl, ?_⟩, (h (t, .named n) List.mem_cons_self).2⟩
        show (b.get n).2 < (fixTrans l (b.get n).1).1.states.length
        rw [h1, List.length_append]; omega
      · exact h3 tr htr

theorem fixStates_ok {nt : Nat} : ∀ (l : List PState) (b : PBlock),
    (∀ s ∈ l, ∀ tr ∈ s.trans, (∀ i, tr.2 = .at i → i < b.states.length) ∧ ∀ t, tr.1 = some t → t < nt) →
    (∃ e, (fixStates l b).1.states = b.states ++ e ∧ ∀ s ∈ e, s.trans = []) ∧
    (fixStates l b).2.length = l.length ∧
    ∀ s ∈ (fixStates l b).2, BlkFixed nt (fixStates l b).1.states.length s.trans
  | [], b, _ => ⟨⟨[], by simp [fixStates], by simp⟩, rfl, by intro s hs; simp [fixStates] at hs⟩
  | s :: l, b, h => by
    obtain ⟨⟨e0, g1, g2⟩, g3⟩ := fixTrans_ok (nt := nt) s.trans b (h s List.mem_cons_self)
    obtain ⟨⟨e, h1, h2⟩, h3, h4⟩ := fixStates_ok (nt := nt) l (fixTrans s.trans b).1 (fun x hx tr htr => by
      obtain ⟨k1, k2⟩ := h x (List.mem_cons_of_mem _ hx) tr htr
      refine ⟨fun i e => ?_, k2⟩
      have := k1 i e
      rw [g1, List.length_append]; omega)
    refine ⟨⟨e0 ++ e, ?_, ?_⟩, ?_, ?_⟩
    · show (fixStates l (fixTrans s.trans b).1).1.states = _
      rw [h1, g1, List.append_assoc]
    · intro s hs
      rcases List.mem_append.1 hs with hs | hs
      · exact g2 s hs
      · exact h2 s hs
    · show (_ :: (fixStates l (fixTrans s.trans b).1).2).length = _
      rw [List.length_cons, h3, List.length_cons]
    · intro x hx
      have hx : x ∈ { s with trans := (fixTrans s.trans b).2 } :: (fixStates l (fixTrans s.trans b).1).2 := hx
      show BlkFixed nt (fixStates l (fixTrans s.trans b).1).1.states.length x.trans
      rcases List.mem_cons.1 hx with rfl | hx
      · intro tr htr
        obtain ⟨⟨i, k1, k2⟩, k3⟩ := g3 tr htr
        refine ⟨⟨i, k1, ?_⟩, k3⟩
        rw [h1, List.length_append]; omega
      · exact h4 x hx

/-- After `fixup_state_refs` every transition has its state. -/
theorem fixup_ok {nt : Nat} {b : PBlock} (h : BlkInv nt b) :
    b.states.length ≤ (fixup b).states.length ∧
    ∀ s ∈ (fixup b).states, BlkFixed nt (fixup b).states.length s.trans := by
  obtain ⟨⟨e, h1, h2⟩, h3, h4⟩ := fixStates_ok b.states b h
  have hs : (fixup b).states = (fixStates b.states b).2 ++ e := by
    show (fixStates b.states b).2 ++ (fixStates b.states b).1.states.drop b.states.length = _
    rw [h1, List.drop_left]
  have hl : (fixup b).states.length = (fixStates b.states b).1.states.length := by
    rw [hs, h1, List.length_append, List.length_append, h3]
  refine ⟨by rw [hl, h1, List.length_append]; omega, ?_⟩
  rw [hl]
  intro s hs'
  rw [hs] at hs'
  rcases List.mem_append.1 hs' with hs' | hs'
  · exact h4 s hs'
  · rw [h2 s hs']; intro tr htr; cases htr

theorem blockAction_ok {nt : Nat} {env : Env} (he : EnvOk nt env) {d : BlockDecl} {b : PBlock} {c : Option Nat}
    (h : blockAction env d = some (b, c)) :
    (∀ s ∈ b.states, BlkFixed nt b.states.length s.trans) ∧ ∀ i, c = some i → i < b.states.length := by
  unfold blockAction at h
  split at h
  · cases h
  · rename_i b1 h1
    split at h
    · cases h
    · rename_i b2 cur h2
      cases h
      have g1 := instActions_grows he h1
      obtain ⟨g2, g3⟩ := stateActions_grows he h2 (by intro i e; cases e)
      have hi : BlkInv nt b2 := g2.1 (g1.1 (by intro s hs; cases hs))
      obtain ⟨k1, k2⟩ := fixup_ok hi
      exact ⟨k2, fun i e => Nat.lt_of_lt_of_le (g3 i e) k1⟩

theorem fixed_inv {nt : Nat} {b : PBlock} (h : ∀ s ∈ b.states, BlkFixed nt b.states.length s.trans) : BlkInv nt b := by
  intro s hs tr htr
  obtain ⟨⟨i, h1, h2⟩, h3⟩ := h s hs tr htr
  refine ⟨fun j e => ?_, h3⟩
  rw [h1] at e
  cases e
  exact h2

theorem blockActions_ok {nt : Nat} : ∀ {ds : List BlockDecl} {env : Env} {r r' : Option (PBlock × Option Nat)},
    EnvOk nt env → (∀ b c, r = some (b, c) → (∀ s ∈ b.states, BlkFixed nt b.states.length s.trans) ∧
      ∀ i, c = some i → i < b.states.length) → blockActions env ds r = r' →
    ∀ b c, r' = some (b, c) → (∀ s ∈ b.states, BlkFixed nt b.states.length s.trans) ∧
      ∀ i, c = some i → i < b.states.length
  | [], env, r, r', _, hr, h => by
    simp only [blockActions] at h
    subst h; exact hr
  | d :: ds, env, r, r', he, _, h => by
    unfold blockActions at h
    split at h
    · subst h; intro b c e; cases e
    · split at h
      · subst h; intro b c e; cases e
      · rename_i b1 c1 h1
        have k := blockAction_ok he h1
        refine blockActions_ok (env := { env with blocks := env.blocks ++ [(d.name, b1)] }) ⟨he.1, ?_⟩ ?_ h
        · intro p hp
          rcases List.mem_append.1 hp with hp | hp
          · exact he.2 p hp
          · rw [List.mem_singleton.1 hp]; exact fixed_inv k.1
        · intro b c e; cases e; exact k

/-- C118: whatever the input file, if `dfasyn` gets as far as an NFA, all its transitions lead to existing states, all
their tokens are declared, and the start state exists. -/
theorem compile_wf {src : Source} {a : Nfa} {start : Nat} (h : src.compile = some (a, start)) :
    a.WF ∧ start < a.n ∧ a.nt = src.tokens.length := by
  unfold Source.compile at h
  split at h
  · rename_i b cur hb
    cases h
    obtain ⟨h1, h2⟩ := blockActions_ok (nt := src.tokens.length) (env := ⟨src.tokens, src.abbrevs, []⟩) (r := none)
      ⟨rfl, by intro p hp; cases hp⟩ (by intro b c e; cases e) hb b (some start) rfl
    refine ⟨?_, ?_, rfl⟩
    · intro p tr htr
      unfold Nfa.state at htr
      rw [List.getD_eq_getElem?_getD, List.getElem?_map] at htr
      cases hp : b.states[p]? with
      | none => rw [hp] at htr; simp at htr
      | some s =>
        rw [hp] at htr
        simp only [Option.map_some, Option.getD_some, PState.final, List.mem_map] at htr
        obtain ⟨tr0, h3, rfl⟩ := htr
        obtain ⟨⟨i, k1, k2⟩, k3⟩ := h1 s (List.mem_of_getElem? hp) tr0 h3
        rw [k1]
        exact ⟨by simpa [Nfa.n] using k2, k3⟩
    · simpa [Nfa.n] using h2 start rfl
  · cases h

/-- A block that loops, used twice in another one; the destination `end` is created only in the end. -/
example : ∃ a start, (Source.mk [n!"A", n!"B"] [(n!"X", [n!"A", n!"B"])]
    [⟨n!"m", [], [st [n!"in"] [tr [[n!"A"], [n!"B", 0]] [[n!"in"], [n!"out"]]]]⟩,
     ⟨n!"top", [(n!"i", n!"m")], [st [n!"s"] [⟨.inl [some (n!"m", n!"in", n!"out")], [.toks [n!"X"]],
        .to [[.id n!"i", .id n!"in"], [.id n!"end"]]⟩]]⟩] ⟨[], []⟩ ⟨[], []⟩).compile = some (a, start) ∧
    a.n = 10 ∧ start = 3 ∧ a.WF := by
  refine ⟨⟨_, _, _, _⟩, 3, rfl, by decide +kernel, rfl, (compile_wf (src := Source.mk [n!"A", n!"B"]
    [(n!"X", [n!"A", n!"B"])] [⟨n!"m", [], [st [n!"in"] [tr [[n!"A"], [n!"B", 0]] [[n!"in"], [n!"out"]]]]⟩,
     ⟨n!"top", [(n!"i", n!"m")], [st [n!"s"] [⟨.inl [some (n!"m", n!"in", n!"out")], [.toks [n!"X"]],
        .to [[.id n!"i", .id n!"in"], [.id n!"end"]]⟩]]⟩] ⟨[], []⟩ ⟨[], []⟩) (start := 3) rfl).1⟩

end Jbo.Dfasyn
