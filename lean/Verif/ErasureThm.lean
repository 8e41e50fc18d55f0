import Verif.Erasure
import Verif.ErasureSpec

/-! # Theorems about erasure (C05 - C08) -/

namespace Jbo.Erasure
open Jbo ErasureSpec

/-! ## si -/

theorem require_eq_spoken (t : Tok) : require t = spoken t := by cases t <;> rfl

/-- Stack invariant: a partly erased entry still misses at least one `si`. -/
def StackOk (st : List (Tok × Nat)) : Prop :=
  ∀ p ∈ st, p.2 ≠ 0 → ∃ n, spoken p.1 = some n ∧ p.2 < n

theorem require_remains {y : Tok} {k : Nat} (h : k ≠ 0 → ∃ n, spoken y = some n ∧ k < n) :
    require (remains (y, k)) = (spoken y).map (· - k) := by
  rw [require_eq_spoken]
  cases k with
  | zero => cases h' : spoken y <;> simp [remains, h']
  | succ k =>
    obtain ⟨n, hn, hk⟩ := h (by simp)
    have : spoken (remains (y, k + 1)) = some (n - (k + 1)) := by
      rw [remains, hn]; rfl
    rw [this, hn]; rfl

/-- Batch counting agrees with speaking one `si` at a time. -/
theorem replay_countSi (y : Tok) (n k : Nat) (below : List (Tok × Nat)) (hn : spoken y = some n) :
    ∀ (ts : List Tok) (g : Nat), 0 < g →
      replay (if g < n - k then (y, k + g) :: below else below) ts =
      replay (if (countSi (n - k) g ts).1 < n - k then (y, k + (countSi (n - k) g ts).1) :: below
              else below) (countSi (n - k) g ts).2 := by
  intro ts
  induction ts with
  | nil => intro g _; rfl
  | cons t ts ih =>
    intro g hg
    by_cases h : g < n - k ∧ t.isSel .SI = true
    · rw [countSi, if_pos h]
      obtain ⟨h1, h2⟩ := h
      rw [← ih (g + 1) (by omega)]
      simp only [h1, if_true, replay, speak, h2, hn]
      have : (n ≤ k + g + 1) ↔ ¬ (g + 1 < n - k) := by omega
      by_cases h3 : g + 1 < n - k
      · have h4 : ¬ (n ≤ k + g + 1) := by omega
        simp [h3, h4, ← Nat.add_assoc]
      · have h4 : (n ≤ k + g + 1) := by omega
        simp [h3, h4]
    · rw [countSi, if_neg h]

theorem siLoop_eq (ts : List Tok) (st : List (Tok × Nat)) (hst : StackOk st) :
    siLoop (st.map remains) ts =
      match replay st ts with
      | some st' => .ok (st'.map remains).reverse
      | none => .error .assertFail := by
  induction hl : ts.length using Nat.strongRecOn generalizing ts st with
  | ind L ih =>
  cases ts with
  | nil => simp [siLoop, replay]
  | cons x rest =>
    unfold siLoop
    by_cases hx : x.isSel .SI = true
    · rw [if_pos hx]
      cases st with
      | nil =>
        have h0 : StackOk [(x, 0)] := by
          intro p hp hne; simp at hp; subst hp; simp at hne
        have := ih rest.length (by simp at hl; omega) rest [(x, 0)] h0 rfl
        simp only [List.map_nil, replay, speak, hx, if_true, Option.bind_some]
        rw [← this]; rfl
      | cons p below =>
        obtain ⟨y, k⟩ := p
        have hyk := hst (y, k) (by simp)
        simp only [List.map_cons]
        rw [require_remains hyk]
        simp only [replay, speak, hx, if_true]
        cases hn : spoken y with
        | none => simp
        | some n =>
          simp only [Option.map_some]
          have hbelow : StackOk below := fun p hp => hst p (by simp [hp])
          have hcs := replay_countSi y n k below hn rest 1 (by omega)
          have hlen := countSi_length (n - k) 1 rest
          have hstep : (if n ≤ k + 1 then some below else some ((y, k + 1) :: below)).bind
              (replay · rest) = replay (if 1 < n - k then (y, k + 1) :: below else below) rest := by
            by_cases h : n ≤ k + 1
            · have : ¬ (1 < n - k) := by omega
              simp [h, this]
            · have : 1 < n - k := by omega
              simp [h, this]
          rw [hstep, hcs]
          by_cases hlt : (countSi (n - k) 1 rest).1 < n - k
          · simp only [hlt, if_true]
            have hpos : 0 < (countSi (n - k) 1 rest).1 := by
              have aux : ∀ (ts : List Tok) g, 0 < g → 0 < (countSi (n - k) g ts).1 := by
                intro ts
                induction ts with
                | nil => intro g hg; simpa [countSi] using hg
                | cons t ts ih =>
                  intro g hg; unfold countSi; split
                  · exact ih _ (by omega)
                  · exact hg
              exact aux rest 1 (by omega)
            have hok : StackOk ((y, k + (countSi (n - k) 1 rest).1) :: below) := by
              intro p hp hne
              rcases List.mem_cons.1 hp with h | h
              · subst h; exact ⟨n, hn, by simp; omega⟩
              · exact hbelow p h hne
            have := ih (countSi (n - k) 1 rest).2.length (by simp at hl; omega)
              (countSi (n - k) 1 rest).2 _ hok rfl
            rw [← this]
            congr 1
            simp only [List.map_cons, List.cons.injEq, and_true]
            obtain ⟨g, hg⟩ := Nat.exists_eq_succ_of_ne_zero (Nat.pos_iff_ne_zero.1 hpos)
            have : k + (countSi (n - k) 1 rest).1 = (k + g) + 1 := by omega
            rw [this]
            simp only [remains, hn, Option.getD_some]
            congr 1; omega
          · simp only [hlt, if_false]
            exact ih (countSi (n - k) 1 rest).2.length (by simp at hl; omega)
              (countSi (n - k) 1 rest).2 below hbelow rfl
    · rw [if_neg hx]
      have hok : StackOk ((x, 0) :: st) := by
        intro p hp hne
        rcases List.mem_cons.1 hp with h | h
        · subst h; simp at hne
        · exact hst p h hne
      have := ih rest.length (by simp at hl; omega) rest ((x, 0) :: st) hok rfl
      simp only [replay, speak, hx]
      simpa [remains] using this

/-- **C05** `handle_si` computes exactly the stack replay, for every token sequence; the
failing `assert` is reached exactly when the replay meets an unsupported token. -/
theorem si_refines_replay (ts : List Tok) :
    handleSi ts = match siResult ts with
      | some r => .ok r
      | none => .error .assertFail := by
  have h := siLoop_eq ts [] (by intro p hp; simp at hp)
  unfold handleSi siResult
  simp only [List.map_nil] at h
  rw [h]
  cases replay [] ts <;> simp

/-- A brivla is spoken and then erased inside a longer text. -/
example : handleSi [.cmavo .LE ['l','e'], .brivla ['a'], .cmavo .SI ['s','i'], .brivla ['b']]
    = .ok [.cmavo .LE ['l','e'], .brivla ['b']] := by decide +kernel

/-- Plain words: no quotes, garbage, compounds. -/
def PlainWord (t : Tok) : Prop := spoken t = some 1

/-- **C05** Corollary in the simplest setting: a word followed by `si` disappears, whatever
stands before and after (`pre` containing only plain non-`si` words). -/
theorem si_erases_previous (pre post : List Tok) (w si : Tok)
    (hw : PlainWord w) (hws : w.isSel .SI = false) (hsi : si.isSel .SI = true)
    (hpre : ∀ t ∈ pre, t.isSel .SI = false) :
    handleSi (pre ++ w :: si :: post) = handleSi (pre ++ post) := by
  rw [si_refines_replay, si_refines_replay]
  have key : ∀ (st : List (Tok × Nat)) (pre : List Tok), (∀ t ∈ pre, t.isSel .SI = false) →
      replay st (pre ++ w :: si :: post) = replay st (pre ++ post) := by
    intro st pre
    induction pre generalizing st with
    | nil =>
      intro _
      simp [replay, speak, hws, hsi, show spoken w = some 1 from hw]
    | cons t ts ih =>
      intro h
      simp only [List.cons_append, replay]
      have ht := h t (by simp)
      simp only [speak, ht]
      exact ih _ (fun t' ht' => h t' (by simp [ht']))
  unfold siResult
  rw [key [] pre hpre]

example : ∃ (pre post : List Tok) (w si : Tok), PlainWord w ∧ w.isSel .SI = false ∧ si.isSel .SI = true ∧
    (∀ t ∈ pre, t.isSel .SI = false) ∧ pre ≠ [] ∧ post ≠ [] :=
  ⟨[.brivla ['x']], [.cmene ['d']], .brivla ['y'], .cmavo .SI ['s', 'i'],
    rfl, rfl, rfl, by simp [Tok.isSel], by simp, by simp⟩

/-- **C05** A quotation of `n` spoken words needs `n` `si`; any smaller positive number `k`
leaves a defect token missing `n - k`. -/
theorem si_quote_shortfall (pre post : List Tok) (q : Tok) (n k : Nat)
    (hq : spoken q = some n) (hqs : q.isSel .SI = false) (hk0 : 0 < k) (hk : k < n)
    (hpre : ∀ t ∈ pre, t.isSel .SI = false)
    (hpost : ∀ t ∈ post, t.isSel .SI = false) :
    handleSi (pre ++ q :: (List.replicate k (.cmavo .SI ['s','i']) ++ post)) =
      .ok (pre ++ .broken (n - k) :: post) := by
  rw [si_refines_replay]
  have nosi : ∀ (st : List (Tok × Nat)) (l more : List Tok), (∀ t ∈ l, t.isSel .SI = false) →
      replay st (l ++ more) = replay ((l.map (·, 0)).reverse ++ st) more := by
    intro st l more
    induction l generalizing st with
    | nil => intro _; simp
    | cons t ts ih =>
      intro h
      simp only [List.cons_append, replay, speak, h t (by simp)]
      simpa using ih ((t, 0) :: st) (fun t' ht' => h t' (by simp [ht']))
  have sis : ∀ (below : List (Tok × Nat)) (more : List Tok) (k j : Nat), j + k < n →
      replay ((q, j) :: below) (List.replicate k (.cmavo .SI ['s','i']) ++ more) =
      replay ((q, j + k) :: below) more := by
    intro below more k
    induction k with
    | zero => intro j _; simp
    | succ k ih =>
      intro j hj
      have : ¬ (n ≤ j + 1) := by omega
      simp only [List.replicate_succ, List.cons_append, replay, speak, Tok.isSel, beq_self_eq_true,
        if_true, hq, this, if_false, Option.bind_some]
      rw [ih (j + 1) (by omega)]
      congr 3; omega
  unfold siResult
  rw [nosi [] pre _ hpre]
  simp only [replay, speak, hqs]
  simp only [Bool.false_eq_true, if_false, Option.bind_some]
  rw [sis _ _ k 0 (by omega)]
  have := nosi ((q, 0 + k) :: ((pre.map (·, 0)).reverse ++ [])) post [] hpost
  simp only [List.append_nil] at this ⊢
  rw [this]
  obtain ⟨m, rfl⟩ := Nat.exists_eq_succ_of_ne_zero (Nat.pos_iff_ne_zero.1 hk0)
  have hm : ∀ l : List Tok, l.map (remains ∘ (·, 0)) = l := by
    intro l; induction l with
    | nil => rfl
    | cons a l ih => rw [List.map_cons, ih]; rfl
  simp [replay, remains, hq, hm]

example : handleSi [.zoi ['z'] ['d'] ['t'], .cmavo .SI ['s','i'], .cmavo .SI ['s','i'], .brivla ['b']]
    = .ok [.broken 2, .brivla ['b']] := by decide +kernel

/-- A counter-intuitive consequence, kept visible: a `si` that finds nothing to erase stays
in the text and is itself erased by the next `si`. -/
theorem si_si_vanishes (post : List Tok) (a b : Tok) (ha : a.isSel .SI = true)
    (hb : b.isSel .SI = true) :
    handleSi (a :: b :: post) = handleSi post := by
  rw [si_refines_replay, si_refines_replay]
  have : spoken a = some 1 := by
    cases a <;> simp [Tok.isSel] at ha
    rfl
  unfold siResult
  simp [replay, speak, ha, hb, this]

/-- **C05** (the claim is not total) `si` right after a word that could not be classified
makes the program abort. -/
theorem si_after_garbage_aborts (pre post : List Tok) (w : Word) (si : Tok)
    (hsi : si.isSel .SI = true) (hpre : ∀ t ∈ pre, t.isSel .SI = false) :
    handleSi (pre ++ .garbage w :: si :: post) = .error .assertFail := by
  rw [si_refines_replay]
  have key : ∀ (st : List (Tok × Nat)) (pre : List Tok), (∀ t ∈ pre, t.isSel .SI = false) →
      replay st (pre ++ .garbage w :: si :: post) = none := by
    intro st pre
    induction pre generalizing st with
    | nil =>
      intro _
      have hg : Tok.isSel .SI (.garbage w) = false := rfl
      simp only [List.nil_append, replay, speak, hg, hsi]; rfl
    | cons t ts ih =>
      intro h
      simp only [List.cons_append, replay, speak, h t (by simp)]
      exact ih _ (fun t' ht' => h t' (by simp [ht']))
  simp [siResult, key [] pre hpre]

/-! ## sa and su -/

theorem cutBack_spec (p : Tok → Bool) (l : List Tok) :
    CutFromLast (fun t => p t = true) l.reverse (cutBack p l).reverse := by
  induction l with
  | nil => right; simp [cutBack]
  | cons y l ih =>
    unfold cutBack
    by_cases h : p y = true
    · rw [if_pos h]
      left; exact ⟨y, [], by simp, h, by simp⟩
    · rw [if_neg h]
      rcases ih with ⟨c, d, h1, h2, h3⟩ | ⟨h1, h2⟩
      · left
        refine ⟨c, d ++ [y], by simp [h1], h2, ?_⟩
        intro e he
        rcases List.mem_append.1 he with h4 | h4
        · exact h3 e h4
        · simp at h4; subst h4; exact h
      · right
        refine ⟨h1, ?_⟩
        intro e he
        simp only [List.reverse_cons, List.mem_append, List.mem_singleton] at he
        rcases he with h4 | h4
        · exact h2 e h4
        · subst h4; exact h

theorem cutFromLast_unique {P : Tok → Prop} {pre a b : List Tok}
    (ha : CutFromLast P pre a) (hb : CutFromLast P pre b) : a = b := by
  rcases ha with ⟨c, d, h1, h2, h3⟩ | ⟨h1, h2⟩
  · rcases hb with ⟨c', d', h1', h2', h3'⟩ | ⟨h1', h2'⟩
    · rw [h1] at h1'
      rcases List.append_eq_append_iff.1 h1' with ⟨m, hm1, hm2⟩ | ⟨m, hm1, hm2⟩
      · cases m with
        | nil => simpa using hm1.symm
        | cons e m =>
          simp only [List.cons_append, List.cons.injEq] at hm2
          exact absurd h2' (h3 c' (by rw [hm2.2]; simp))
      · cases m with
        | nil => simpa using hm1
        | cons e m =>
          simp only [List.cons_append, List.cons.injEq] at hm2
          exact absurd h2 (h3' c (by rw [hm2.2]; simp))
    · exact absurd h2 (h2' c (by rw [h1]; simp))
  · rcases hb with ⟨c', d', h1', h2', h3'⟩ | ⟨h1', h2'⟩
    · exact absurd h2' (h2 c' (by rw [h1']; simp))
    · rw [h1, h1']

theorem sameClass_iff (nt y : Tok) : sameClass nt y = true ↔ SameClass nt y := by
  cases nt <;> cases y <;> simp [sameClass, SameClass, Tok.kind] <;> exact eq_comm

theorem isSel_iff (s : Sel) (t : Tok) : t.isSel s = true ↔ Is s t := by
  cases t <;> simp [Tok.isSel, Is]

theorem suStop_iff (t : Tok) : suStop t = true ↔ IsOpener t := by
  cases t <;> simp [suStop, Tok.isSel, IsOpener]
  constructor
  · rintro (((h | h) | h) | h) <;> simp [h]
  · rintro (h | h | h | h) <;> simp [h]

theorem saLoop_skip (pre : List Tok) (left : List Tok) (x : Tok) (post : List Tok)
    (hpre : ∀ t ∈ pre, ¬ Is .SA t) :
    saLoop left (pre ++ x :: post) = saLoop (pre.reverse ++ left) (x :: post) := by
  induction pre generalizing left with
  | nil => simp
  | cons t ts ih =>
    have ht : t.isSel .SA = false := by
      have := hpre t (by simp); rw [← isSel_iff] at this; simpa using this
    have h2 := ih (t :: left) (fun t' h' => hpre t' (by simp [h']))
    have hne : ∃ a b, ts ++ x :: post = a :: b := by
      cases ts with
      | nil => exact ⟨x, post, rfl⟩
      | cons a b => exact ⟨a, b ++ x :: post, rfl⟩
    obtain ⟨a, b, hab⟩ := hne
    simp only [List.cons_append, hab, saLoop, ht]
    rw [← hab]
    simpa using h2

/-- **C06** Processing the first `sa` of a text: if it is followed by a word `w`, everything
from the last preceding word of `w`'s class up to and including the `sa` is deleted, and
processing goes on with the shortened text. -/
theorem sa_erases_to_class (pre kept post : List Tok) (sa w : Tok)
    (hsa : Is .SA sa) (hpre : ∀ t ∈ pre, ¬ Is .SA t)
    (hcut : CutFromLast (SameClass w) pre kept) :
    handleSa (pre ++ sa :: w :: post) = handleSa (kept ++ w :: post) := by
  have hkept : ∀ t ∈ kept, ¬ Is .SA t := by
    intro t ht
    rcases hcut with ⟨c, d, h1, _, _⟩ | ⟨h1, _⟩
    · exact hpre t (by rw [h1]; simp [ht])
    · simp [h1] at ht
  unfold handleSa
  rw [saLoop_skip pre [] sa _ hpre, saLoop_skip kept [] w _ hkept]
  have h1 := (isSel_iff .SA sa).2 hsa
  simp only [saLoop, h1, if_true, List.append_nil]
  have hc := cutBack_spec (sameClass w) pre.reverse
  simp only [List.reverse_reverse, sameClass_iff] at hc
  have := cutFromLast_unique hc hcut
  rw [← this]; simp

/-- The equation is not vacuous: `le broda sa le brode`. -/
example : Is .SA (.cmavo .SA ['s','a']) ∧
    CutFromLast (SameClass (.cmavo .LE ['l','o']))
      [.brivla ['x'], .cmavo .LE ['l','e'], .brivla ['y']] [.brivla ['x']] ∧
    handleSa [.brivla ['x'], .cmavo .LE ['l','e'], .brivla ['y'], .cmavo .SA ['s','a'],
      .cmavo .LE ['l','o'], .brivla ['z']] =
      [.brivla ['x'], .cmavo .LE ['l','o'], .brivla ['z']] := by
  refine ⟨⟨_, rfl⟩, Or.inl ⟨.cmavo .LE ['l','e'], [.brivla ['y']], rfl, rfl, ?_⟩, by decide⟩
  intro d hd; simp at hd; subst hd; simp [SameClass, Tok.kind]

/-- **C06** A text without `sa`, or whose only `sa` is its last word, is left alone. -/
theorem sa_absent (pre : List Tok) (x : Tok) (hpre : ∀ t ∈ pre, ¬ Is .SA t) :
    handleSa (pre ++ [x]) = pre ++ [x] := by
  unfold handleSa
  rw [saLoop_skip pre [] x [] hpre]
  simp [saLoop]

theorem suLoop_skip (pre : List Tok) (left post : List Tok)
    (hpre : ∀ t ∈ pre, ¬ Is .SU t) :
    suLoop left (pre ++ post) = suLoop (pre.reverse ++ left) post := by
  induction pre generalizing left with
  | nil => simp
  | cons t ts ih =>
    have ht : t.isSel .SU = false := by
      have := hpre t (by simp); rw [← isSel_iff] at this; simpa using this
    have h2 := ih (t :: left) (fun t' h' => hpre t' (by simp [h']))
    rw [List.cons_append, suLoop.eq_def]
    simp only [ht, Bool.false_eq_true, if_false]
    rw [h2]; simp

/-- **C07** A single `su` deletes from the last discourse opener on (or everything so far). -/
theorem su_erases_to_opener (pre kept post : List Tok) (su : Tok)
    (hsu : Is .SU su) (hpre : ∀ t ∈ pre, ¬ Is .SU t)
    (hpost : ∀ t, post.head? = some t → ¬ Is .SU t)
    (hcut : CutFromLast IsOpener pre kept) :
    handleSu (pre ++ su :: post) = handleSu (kept ++ post) := by
  have hkept : ∀ t ∈ kept, ¬ Is .SU t := by
    intro t ht
    rcases hcut with ⟨c, d, h1, _, _⟩ | ⟨h1, _⟩
    · exact hpre t (by rw [h1]; simp [ht])
    · simp [h1] at ht
  unfold handleSu
  rw [suLoop_skip pre [] _ hpre, suLoop_skip kept [] _ hkept]
  have h1 := (isSel_iff .SU su).2 hsu
  have hc := cutBack_spec suStop pre.reverse
  simp only [List.reverse_reverse, suStop_iff] at hc
  have hk := cutFromLast_unique hc hcut
  have hk' : cutBack suStop pre.reverse = kept.reverse := by rw [← hk]; simp
  cases post with
  | nil =>
    rw [suLoop.eq_def]
    simp [h1, hk', suLoop]
  | cons t ts =>
    have ht : t.isSel .SU = false := by
      have := hpost t rfl; rw [← isSel_iff] at this; simpa using this
    conv => lhs; rw [suLoop.eq_def]
    simp [h1, ht, hk']

example : handleSu [.cmavo .NIhO ['n'], .brivla ['a'], .cmavo .LU ['l','u'], .brivla ['b'],
    .cmavo .SU ['s','u'], .brivla ['c']] = [.cmavo .NIhO ['n'], .brivla ['a'], .brivla ['c']] := by
  simp [handleSu, suLoop, Tok.isSel, cutBack, suStop]

/-- **C07** `su su` deletes everything up to and including itself. -/
theorem su_su_erases_all (pre post : List Tok) (su su' : Tok)
    (hsu : Is .SU su) (hsu' : Is .SU su') (hpre : ∀ t ∈ pre, ¬ Is .SU t) :
    handleSu (pre ++ su :: su' :: post) = handleSu post := by
  unfold handleSu
  rw [suLoop_skip pre [] _ hpre, suLoop]
  simp [(isSel_iff .SU su).2 hsu, (isSel_iff .SU su').2 hsu']

/-- **C07** Texts without `su` are left alone. -/
theorem su_absent (ts : List Tok) (h : ∀ t ∈ ts, ¬ Is .SU t) : handleSu ts = ts := by
  unfold handleSu
  have := suLoop_skip ts [] [] h
  simp only [List.append_nil] at this
  rw [this, suLoop]; simp

/-! ## Conservation (C08) -/

theorem cutBack_suffix (p : Tok → Bool) (l : List Tok) : (cutBack p l).Sublist l := by
  induction l with
  | nil => simp [cutBack]
  | cons y l ih =>
    unfold cutBack; split
    · exact List.sublist_cons_self y l
    · exact ih.cons y

theorem saLoop_sublist (ts left : List Tok) : (saLoop left ts).Sublist (left.reverse ++ ts) := by
  induction ts generalizing left with
  | nil => simp [saLoop]
  | cons x rest ih =>
    cases rest with
    | nil => simp [saLoop]
    | cons nt rest =>
      simp only [saLoop]
      split
      · refine (ih _).trans ?_
        apply List.Sublist.append
        · exact (cutBack_suffix _ left).reverse
        · exact List.sublist_cons_self _ _
      · simpa using ih (x :: left)

theorem suLoop_sublist (ts left : List Tok) : (suLoop left ts).Sublist (left.reverse ++ ts) := by
  induction hl : ts.length using Nat.strongRecOn generalizing ts left with
  | ind L ih =>
  cases ts with
  | nil => simp [suLoop]
  | cons x rest =>
    unfold suLoop
    split
    · cases rest with
      | nil =>
        refine (ih 0 (by simp at hl; omega) [] _ rfl).trans ?_
        apply List.Sublist.append
        · exact (cutBack_suffix _ left).reverse
        · simp
      | cons nt rest =>
        simp only
        split
        · refine (ih rest.length (by simp at hl; omega) rest [] rfl).trans ?_
          simp only [List.reverse_nil, List.nil_append]
          exact ((List.sublist_cons_self nt rest).trans (List.sublist_cons_self x _)).trans
            (List.sublist_append_right _ _)
        · refine (ih (nt :: rest).length (by simp at hl ⊢; omega) (nt :: rest) _ rfl).trans ?_
          apply List.Sublist.append
          · exact (cutBack_suffix _ left).reverse
          · exact List.sublist_cons_self _ _
    · simpa using ih rest.length (by simp at hl; omega) rest (x :: left) rfl

theorem replay_stackOk (ts : List Tok) (st st' : List (Tok × Nat)) (hst : StackOk st)
    (h : replay st ts = some st') : StackOk st' := by
  induction ts generalizing st with
  | nil => simp [replay] at h; subst h; exact hst
  | cons t ts ih =>
    simp only [replay] at h
    cases hs : speak st t with
    | none => simp [hs] at h
    | some s1 =>
      simp only [hs, Option.bind_some] at h
      refine ih s1 ?_ h
      unfold speak at hs
      split at hs
      · cases st with
        | nil =>
          simp at hs; subst hs
          intro p hp hne; simp at hp; subst hp; simp at hne
        | cons p below =>
          obtain ⟨y, k⟩ := p
          have hbelow : StackOk below := fun p hp => hst p (by simp [hp])
          simp only at hs
          cases hn : spoken y with
          | none => simp [hn] at hs
          | some n =>
            simp only [hn] at hs
            split at hs
            · simp at hs; subst hs; exact hbelow
            · simp at hs; subst hs
              intro p hp hne
              rcases List.mem_cons.1 hp with h' | h'
              · subst h'; exact ⟨n, hn, by simp; omega⟩
              · exact hbelow p h' hne
      · simp at hs; subst hs
        intro p hp hne
        rcases List.mem_cons.1 hp with h' | h'
        · subst h'; simp at hne
        · exact hst p h' hne

theorem damaged_of_stack (st : List (Tok × Nat)) (hst : StackOk st) :
    Damaged (st.map (·.1)).reverse (st.map remains).reverse := by
  rw [← List.map_reverse, ← List.map_reverse]
  have hst' : StackOk st.reverse := fun p hp => hst p (by simpa using hp)
  generalize st.reverse = l at hst'
  clear hst
  induction l with
  | nil => exact .nil
  | cons p l ih =>
    have ih := ih (fun p hp => hst' p (by simp [hp]))
    obtain ⟨y, k⟩ := p
    cases k with
    | zero => exact .same y ih
    | succ k =>
      obtain ⟨n, hn, hk⟩ := hst' (y, k + 1) (by simp) (by simp)
      simp only at hn hk
      have : remains (y, k + 1) = .broken (n - (k + 1)) := by simp [remains, hn]
      rw [List.map_cons, List.map_cons, this]
      exact .hurt y _ n hn (by omega) (by omega) ih

theorem replay_sublist (ts : List Tok) (st st' : List (Tok × Nat)) (h : replay st ts = some st') :
    (st'.map (·.1)).reverse.Sublist ((st.map (·.1)).reverse ++ ts) := by
  induction ts generalizing st with
  | nil => simp [replay] at h; subst h; simp
  | cons t ts ih =>
    simp only [replay] at h
    cases hs : speak st t with
    | none => simp [hs] at h
    | some s1 =>
      simp only [hs, Option.bind_some] at h
      refine (ih s1 h).trans ?_
      unfold speak at hs
      split at hs
      · cases st with
        | nil => simp at hs; subst hs; simp
        | cons p below =>
          obtain ⟨y, k⟩ := p
          simp only at hs
          cases hn : spoken y with
          | none => simp [hn] at hs
          | some n =>
            simp only [hn] at hs
            split at hs
            · simp at hs; subst hs
              simp only [List.map_cons, List.reverse_cons, List.append_assoc]
              apply List.Sublist.append (List.Sublist.refl _)
              exact (List.sublist_cons_self t ts).trans (List.sublist_cons_self y _)
            · simp at hs; subst hs
              simp only [List.map_cons, List.reverse_cons, List.append_assoc]
              apply List.Sublist.append (List.Sublist.refl _)
              exact (List.sublist_cons_self t ts).cons_cons y
      · simp at hs; subst hs; simp

theorem damaged_sublist {s r r' : List Tok} (h : Damaged s r) (hs : r'.Sublist r) :
    ∃ s', s'.Sublist s ∧ Damaged s' r' := by
  induction hs generalizing s with
  | slnil => exact ⟨[], by simp, .nil⟩
  | cons a _ ih =>
    cases h with
    | same t h => obtain ⟨s', h1, h2⟩ := ih h; exact ⟨s', h1.cons _, h2⟩
    | hurt t d n _ _ _ h => obtain ⟨s', h1, h2⟩ := ih h; exact ⟨s', h1.cons _, h2⟩
  | cons_cons a _ ih =>
    cases h with
    | same t h => obtain ⟨s', h1, h2⟩ := ih h; exact ⟨a :: s', h1.cons_cons _, .same a h2⟩
    | hurt t d n a1 a2 a3 h =>
      obtain ⟨s', h1, h2⟩ := ih h
      exact ⟨t :: s', h1.cons_cons _, .hurt t d n a1 a2 a3 h2⟩

/-- **C08** Whatever the text, the tokens surviving `do_erasures` are input tokens in their
original order (some possibly relabelled as partly erased). -/
theorem erasures_conserve (ts r : List Tok) (h : doErasures ts = .ok r) :
    ∃ s, s.Sublist ts ∧ Damaged s r := by
  unfold doErasures at h
  rw [si_refines_replay] at h
  unfold siResult at h
  cases hr : replay [] ts with
  | none => simp [hr] at h
  | some st =>
    simp only [hr, Option.map_some, Except.ok.injEq] at h
    subst h
    have h1 := damaged_of_stack st (replay_stackOk ts [] st (by intro p hp; simp at hp) hr)
    have h2 := replay_sublist ts [] st hr
    have h3 : (handleSu (handleSa (st.map remains).reverse)).Sublist (st.map remains).reverse := by
      have a := suLoop_sublist (handleSa (st.map remains).reverse) []
      have b := saLoop_sublist (st.map remains).reverse []
      simp only [List.reverse_nil, List.nil_append] at a b
      exact a.trans b
    obtain ⟨s', h4, h5⟩ := damaged_sublist h1 h3
    exact ⟨s', h4.trans (by simpa using h2), h5⟩

example : ∃ r, doErasures [.brivla ['a'], .zo ['b'], .cmavo .SI ['s','i'], .cmavo .SU ['s','u'],
    .cmene ['c']] = .ok r ∧ r = [.cmene ['c']] := by
  simp [doErasures, handleSi, siLoop, countSi, require, Tok.isSel, handleSa, saLoop, handleSu,
    suLoop, cutBack, suStop]

/-- **C08** Texts without `si`, `sa`, `su` are unchanged. -/
theorem erasures_absent (ts : List Tok)
    (h : ∀ t ∈ ts, ¬ Is .SI t ∧ ¬ Is .SA t ∧ ¬ Is .SU t) : doErasures ts = .ok ts := by
  have hsi : handleSi ts = .ok ts := by
    rw [si_refines_replay]
    have : ∀ (st : List (Tok × Nat)) (l : List Tok), (∀ t ∈ l, ¬ Is .SI t) →
        replay st l = some ((l.map (·, 0)).reverse ++ st) := by
      intro st l
      induction l generalizing st with
      | nil => intro _; simp [replay]
      | cons t ts ih =>
        intro h
        have ht : t.isSel .SI = false := by
          have := h t (by simp); rw [← isSel_iff] at this; simpa using this
        simp only [replay, speak, ht]
        simpa using ih ((t, 0) :: st) (fun t' ht' => h t' (by simp [ht']))
    have hm : ∀ l : List Tok, l.map (remains ∘ (·, 0)) = l := by
      intro l; induction l with
      | nil => rfl
      | cons a l ih => rw [List.map_cons, ih]; rfl
    simp [siResult, this [] ts (fun t ht => (h t ht).1), hm]
  have hsa : handleSa ts = ts := by
    rcases List.eq_nil_or_concat ts with h0 | ⟨l, x, hx⟩
    · subst h0; simp [handleSa, saLoop]
    · rw [List.concat_eq_append] at hx
      rw [hx]
      exact sa_absent l x (fun t ht => (h t (by rw [hx]; simp [ht])).2.1)
  simp [doErasures, hsi, hsa, su_absent ts (fun t ht => (h t ht).2.2)]

end Jbo.Erasure
