import Verif.CategCo

/-!
# The passes that look ahead put their markers exactly where they belong
-/

namespace Jbo.Categ
open Jbo Jbo.CategSpec

/-! ## The search over groups -/

theorem notMem_mkr {e : Sel} {w : List Tok} (h : .marker e ∉ w) : ∀ t ∈ w, mkr e t = false := by
  intro t ht
  cases hb : mkr e t with
  | false => rfl
  | true => rw [mkr_true] at hb; subst hb; exact absurd ht h

theorem shut_len {s e : Sel} {g : List Tok} (h : Shut s e g) : 2 ≤ g.length := by
  obtain ⟨w, rfl, _⟩ := h; simp

theorem straddle_shut {s e : Sel} {g : List Tok} (h : Shut s e g) (r : List Tok) :
    straddle s e (g ++ r) = .ok (some g.length) := by
  obtain ⟨w, rfl, hw⟩ := h
  have e1 : (Tok.marker s :: (w ++ [Tok.marker e])) ++ r = .marker s :: (w ++ .marker e :: r) := by simp
  rw [e1]
  simp only [straddle]
  rw [if_pos (by simp [mkr]), findMk_mid (notMem_mkr hw)]
  simp

theorem shut_of_straddle {s e : Sel} {r : List Tok} {k : Nat} (h : straddle s e r = .ok (some k)) :
    k ≤ r.length ∧ Shut s e (r.take k) := by
  cases r with
  | nil => simp [straddle] at h
  | cons t r =>
    simp only [straddle] at h
    split at h
    · rename_i ht
      rw [mkr_true] at ht
      subst ht
      cases hf : findMk e r with
      | none => simp [hf] at h
      | some j =>
        simp only [hf, Except.ok.injEq, Option.some.injEq] at h
        obtain ⟨mid, rest, rfl, h2, rfl⟩ := findMk_some hf
        subst h
        refine ⟨by simp, mid, ?_, ?_⟩
        · rw [List.take_succ_cons, show mid ++ Tok.marker e :: rest = (mid ++ [.marker e]) ++ rest by simp,
            List.take_left' (by simp)]
        · intro hc
          have := h2 _ hc
          simp [mkr] at this
    · simp at h

theorem straddle_none {s e : Sel} {r : List Tok} (h : straddle s e r = .ok none) : headMkr s r = false := by
  cases r with
  | nil => rfl
  | cons t r =>
    simp only [straddle] at h
    split at h
    · split at h <;> simp at h
    · rename_i ht
      simpa [headMkr] using ht

theorem shut_head {s e : Sel} {g r : List Tok} (h : Shut s e g) (m : Sel) : headMkr m (g ++ r) = decide (s = m) := by
  obtain ⟨w, rfl, _⟩ := h
  simp only [List.cons_append, headMkr, mkr_marker]

theorem tenseSeq_head {g r : List Tok} (h : TenseSeq g) (m : Sel) :
    headMkr m (g ++ r) = decide (Sel.PRIVATE_START_TENSE = m) := by
  cases h with
  | one h => exact shut_head h m
  | more h _ _ => rw [List.append_assoc]; exact shut_head h m

theorem connG_len {g : List Tok} (h : ConnG g) : 2 ≤ g.length := by
  rcases h with h | h <;> exact shut_len h

theorem headMkr_word {x : Tok} {s m : Sel} {w : List Tok} (h : x.isSel s = true) : headMkr m (x :: w) = false :=
  mkr_of_isSel h m

theorem drop_append_len {α : Type} (g r : List α) : (g ++ r).drop g.length = r := by simp

/-- The search finds the word behind marked tenses. -/
theorem ahead_fwd {g : List Tok} (h : TenseSeq g) : ∀ (n : Nat) (x : Tok) (w : List Tok) (s : Sel), g.length < n →
    x.isSel s = true → lookahead n (g ++ x :: w) = .ok (bokeResult (x :: w), g.length) := by
  induction h with
  | @one g hg =>
    intro n x w s hn hx
    cases n with
    | zero => omega
    | succ n =>
      unfold lookahead
      rw [shut_head hg, if_pos (by simp)]
      obtain ⟨v, rfl, hv⟩ := hg
      have e1 : ((Tok.marker Sel.PRIVATE_START_TENSE :: (v ++ [Tok.marker .PRIVATE_END_TENSE])) ++ x :: w).tail =
        v ++ .marker .PRIVATE_END_TENSE :: (x :: w) := by simp
      rw [e1, findMk_mid (notMem_mkr hv)]
      dsimp only
      have e2 : ((Tok.marker Sel.PRIVATE_START_TENSE :: (v ++ [Tok.marker .PRIVATE_END_TENSE])) ++ x :: w).drop
          (v.length + 1 + 1) = x :: w := by
        rw [show v.length + 1 + 1 = (Tok.marker Sel.PRIVATE_START_TENSE :: (v ++ [Tok.marker .PRIVATE_END_TENSE])).length by
          simp, drop_append_len]
      rw [e2, headMkr_word hx, headMkr_word hx]
      simp
  | @more g c r hg hc hr ih =>
    intro n x w s hn hx
    cases n with
    | zero => omega
    | succ n =>
      have hgl := shut_len hg
      have hcl := connG_len hc
      simp only [List.length_append] at hn
      unfold lookahead
      rw [List.append_assoc, List.append_assoc, shut_head hg, if_pos (by simp)]
      obtain ⟨v, rfl, hv⟩ := hg
      have e1 : ((Tok.marker Sel.PRIVATE_START_TENSE :: (v ++ [Tok.marker .PRIVATE_END_TENSE])) ++ (c ++ (r ++ x :: w))).tail =
        v ++ .marker .PRIVATE_END_TENSE :: (c ++ (r ++ x :: w)) := by simp
      rw [e1, findMk_mid (notMem_mkr hv)]
      dsimp only
      have e2 : ((Tok.marker Sel.PRIVATE_START_TENSE :: (v ++ [Tok.marker .PRIVATE_END_TENSE])) ++
          (c ++ (r ++ x :: w))).drop (v.length + 1 + 1) = c ++ (r ++ x :: w) := by
        rw [show v.length + 1 + 1 = (Tok.marker Sel.PRIVATE_START_TENSE :: (v ++ [Tok.marker .PRIVATE_END_TENSE])).length by
          simp, drop_append_len]
      rw [e2]
      have key : (if headMkr .PRIVATE_START_JEK (c ++ (r ++ x :: w)) then
            straddle .PRIVATE_START_JEK .PRIVATE_END_JEK (c ++ (r ++ x :: w))
          else straddle .PRIVATE_START_JOIK .PRIVATE_END_JOIK (c ++ (r ++ x :: w))) = .ok (some c.length) ∧
          (headMkr .PRIVATE_START_JEK (c ++ (r ++ x :: w)) || headMkr .PRIVATE_START_JOIK (c ++ (r ++ x :: w))) = true := by
        rcases hc with hc | hc
        · rw [shut_head hc, shut_head hc, if_pos (by simp)]
          exact ⟨straddle_shut hc _, by simp⟩
        · rw [shut_head hc, shut_head hc, if_neg (by simp)]
          exact ⟨straddle_shut hc _, by simp⟩
      rw [if_pos key.2, key.1]
      dsimp only
      rw [drop_append_len, tenseSeq_head hr, if_pos (by simp), ih n x w s (by omega) hx]
      simp [Except.map]
      omega

theorem lookahead_back : ∀ (n : Nat) (r : List Tok) (b : Boke) (i : Nat), lookahead n r = .ok (b, i) →
    (i = 0 ∧ b = bokeResult r) ∨
    (i ≤ r.length ∧ TenseSeq (r.take i) ∧ (b = bokeResult (r.drop i) ∨ b = .other))
  | 0, r, b, i, h => by simp [lookahead] at h
  | n + 1, r, b, i, h => by
    unfold lookahead at h
    split at h
    · rename_i ht
      obtain ⟨r', rfl⟩ := headMkr_true ht
      cases hf : findMk .PRIVATE_END_TENSE r' with
      | none => simp [hf] at h
      | some k =>
        simp only [List.tail_cons, hf] at h
        obtain ⟨mid, rest, rfl, h2, rfl⟩ := findMk_some hf
        have hsh : Shut .PRIVATE_START_TENSE .PRIVATE_END_TENSE (.marker .PRIVATE_START_TENSE :: (mid ++ [.marker .PRIVATE_END_TENSE])) := by
          refine ⟨mid, rfl, fun hc => ?_⟩
          have := h2 _ hc
          simp [mkr] at this
        have hsplit : Tok.marker Sel.PRIVATE_START_TENSE :: (mid ++ Tok.marker .PRIVATE_END_TENSE :: rest) =
          (.marker .PRIVATE_START_TENSE :: (mid ++ [.marker .PRIVATE_END_TENSE])) ++ rest := by simp
        have hlen : mid.length + 1 + 1 = (Tok.marker Sel.PRIVATE_START_TENSE :: (mid ++ [Tok.marker .PRIVATE_END_TENSE])).length := by
          simp
        have hdrop : (Tok.marker Sel.PRIVATE_START_TENSE :: (mid ++ Tok.marker .PRIVATE_END_TENSE :: rest)).drop (mid.length + 1 + 1) = rest := by
          rw [hsplit, hlen, drop_append_len]
        have htake : (Tok.marker Sel.PRIVATE_START_TENSE :: (mid ++ Tok.marker .PRIVATE_END_TENSE :: rest)).take (mid.length + 1 + 1) =
            .marker .PRIVATE_START_TENSE :: (mid ++ [.marker .PRIVATE_END_TENSE]) := by
          rw [hsplit, hlen, List.take_left' rfl]
        rw [hdrop] at h
        have one : ∀ b', (b' = bokeResult rest ∨ b' = .other) →
            (Except.ok (b', mid.length + 1 + 1) : Except Crash (Boke × Nat)) = .ok (b, i) →
            (i = 0 ∧ b = bokeResult (.marker .PRIVATE_START_TENSE :: (mid ++ .marker .PRIVATE_END_TENSE :: rest))) ∨
            (i ≤ (Tok.marker Sel.PRIVATE_START_TENSE :: (mid ++ Tok.marker .PRIVATE_END_TENSE :: rest)).length ∧
            TenseSeq ((Tok.marker Sel.PRIVATE_START_TENSE :: (mid ++ Tok.marker .PRIVATE_END_TENSE :: rest)).take i) ∧
            (b = bokeResult ((Tok.marker Sel.PRIVATE_START_TENSE :: (mid ++ Tok.marker .PRIVATE_END_TENSE :: rest)).drop i) ∨
              b = .other)) := by
          intro b' hb' he
          simp only [Except.ok.injEq, Prod.mk.injEq] at he
          obtain ⟨rfl, rfl⟩ := he
          right
          rw [hdrop, htake]
          exact ⟨by simp, .one hsh, hb'⟩
        split at h
        · rename_i hconn
          cases hst : (if headMkr .PRIVATE_START_JEK rest then straddle .PRIVATE_START_JEK .PRIVATE_END_JEK rest
              else straddle .PRIVATE_START_JOIK .PRIVATE_END_JOIK rest) with
          | error c => rw [hst] at h; simp at h
          | ok o =>
            rw [hst] at h
            cases o with
            | none => simp at h
            | some j =>
              dsimp only at h
              have hcg : j ≤ rest.length ∧ ConnG (rest.take j) := by
                split at hst
                · exact ⟨(shut_of_straddle hst).1, Or.inl (shut_of_straddle hst).2⟩
                · exact ⟨(shut_of_straddle hst).1, Or.inr (shut_of_straddle hst).2⟩
              split at h
              · rename_i hts
                cases hl : lookahead n (rest.drop j) with
                | error c => rw [hl] at h; simp [Except.map] at h
                | ok q =>
                  obtain ⟨b', i'⟩ := q
                  rw [hl] at h
                  simp only [Except.map, Except.ok.injEq, Prod.mk.injEq] at h
                  obtain ⟨rfl, rfl⟩ := h
                  rcases lookahead_back n _ _ _ hl with ⟨rfl, rfl⟩ | ⟨h3, h4, h5⟩
                  · exfalso
                    cases n with
                    | zero => simp [lookahead] at hl
                    | succ n =>
                      unfold lookahead at hl
                      rw [if_pos hts] at hl
                      split at hl
                      · simp at hl
                      · dsimp only at hl
                        split at hl
                        · split at hl
                          · simp at hl
                          · simp at hl
                          · split at hl
                            · revert hl
                              cases lookahead n _ with
                              | error c => simp [Except.map]
                              | ok q => simp [Except.map]
                            · simp at hl
                        · simp at hl
                  · right
                    have e3 : Tok.marker Sel.PRIVATE_START_TENSE :: (mid ++ Tok.marker .PRIVATE_END_TENSE :: rest) =
                        (.marker .PRIVATE_START_TENSE :: (mid ++ [.marker .PRIVATE_END_TENSE])) ++ (rest.take j ++
                          ((rest.drop j).take i' ++ (rest.drop j).drop i')) := by
                      rw [List.take_append_drop, List.take_append_drop]; simp
                    have e4 : mid.length + 1 + 1 + j + i' = ((Tok.marker Sel.PRIVATE_START_TENSE :: (mid ++
                        [Tok.marker .PRIVATE_END_TENSE])) ++ (rest.take j ++ (rest.drop j).take i')).length := by
                      have := hcg.1
                      simp only [List.length_append, List.length_cons, List.length_nil, List.length_take, List.length_drop] at h3 ⊢
                      omega
                    have e5 : Tok.marker Sel.PRIVATE_START_TENSE :: (mid ++ Tok.marker .PRIVATE_END_TENSE :: rest) =
                        ((.marker .PRIVATE_START_TENSE :: (mid ++ [.marker .PRIVATE_END_TENSE])) ++ (rest.take j ++
                          (rest.drop j).take i')) ++ (rest.drop j).drop i' := by
                      rw [e3]; simp only [List.append_assoc]
                    refine ⟨?_, ?_, ?_⟩
                    · rw [e5, List.length_append, e4]; omega
                    · rw [e5, e4, List.take_left' rfl]
                      exact .more hsh hcg.2 h4
                    · rw [e5, e4, drop_append_len]
                      exact h5
              · exact one _ (Or.inr rfl) h
        · exact one _ (Or.inl rfl) h
    · simp only [Except.ok.injEq, Prod.mk.injEq] at h
      exact Or.inl ⟨h.2.symm, h.1.symm⟩

theorem bokeResult_bo (r : List Tok) : bokeResult r = .bo ↔ headSel .BO r = true := by
  unfold bokeResult
  cases h : headSel .BO r
  · cases h' : headSel .KE r <;> simp
  · simp

theorem bokeResult_ke (r : List Tok) : bokeResult r = .ke ↔ headSel .KE r = true := by
  unfold bokeResult
  cases h : headSel .BO r
  · cases h' : headSel .KE r <;> simp
  · cases h' : headSel .KE r
    · simp
    · exfalso
      obtain ⟨x, w, rfl, hx⟩ := headSel_cons h
      exact absurd (isSel_unique hx h') (by decide)

theorem ahead_lookahead {s : Sel} {n : Nat} {r : List Tok} {b : Boke} {i : Nat} (hn : r.length < n)
    (h : lookahead n r = .ok (b, i)) (hA : Ahead s r) : ∃ x w, x.isSel s = true ∧ b = bokeResult (x :: w) := by
  obtain ⟨g, x, w, rfl, hx, hg⟩ := hA
  refine ⟨x, w, hx, ?_⟩
  rcases hg with rfl | hg
  · cases n with
    | zero => omega
    | succ n =>
      unfold lookahead at h
      rw [if_neg (by rw [List.nil_append, headMkr_word hx]; simp)] at h
      simp only [Except.ok.injEq, Prod.mk.injEq] at h
      exact h.1.symm
  · rw [ahead_fwd hg n x w s (by simp at hn; omega) hx] at h
    simp only [Except.ok.injEq, Prod.mk.injEq] at h
    exact h.1.symm

/-- The result of the search is right. -/
theorem ahead_iff {n : Nat} {r : List Tok} {b : Boke} {i : Nat} (hn : r.length < n) (h : lookahead n r = .ok (b, i)) :
    (b = .bo ↔ Ahead .BO r) ∧ (b = .ke ↔ Ahead .KE r) := by
  have back : ∀ (s : Sel) (b0 : Boke), (∀ q, bokeResult q = b0 ↔ headSel s q = true) → b0 ≠ .other → b = b0 → Ahead s r := by
    rintro s b0 h1 h2 rfl
    rcases lookahead_back n r b i h with ⟨_, hb⟩ | ⟨_, h4, h5 | h5⟩
    · obtain ⟨x, w, rfl, hx⟩ := headSel_cons ((h1 r).1 hb.symm)
      exact ⟨[], x, w, rfl, hx, Or.inl rfl⟩
    · obtain ⟨x, w, e, hx⟩ := headSel_cons ((h1 _).1 h5.symm)
      exact ⟨r.take i, x, w, by rw [← e, List.take_append_drop], hx, Or.inr h4⟩
    · exact absurd h5 h2
  refine ⟨⟨back .BO .bo bokeResult_bo (by decide), fun hA => ?_⟩, ⟨back .KE .ke bokeResult_ke (by decide), fun hA => ?_⟩⟩
  · obtain ⟨x, w, hx, rfl⟩ := ahead_lookahead hn h hA
    exact (bokeResult_bo _).2 hx
  · obtain ⟨x, w, hx, rfl⟩ := ahead_lookahead hn h hA
    exact (bokeResult_ke _).2 hx

/-! ## Going through a text -/

theorem put_unique {S : Sel → List Tok → List Tok → Prop} (hS : ∀ m m' a b, S m a b → S m' a b → m = m')
    {a r o o' : List Tok} (h : Put S a r o) (h' : Put S a r o') : o = o' := by
  induction h generalizing o' with
  | nil a => cases h'; rfl
  | yes h1 _ ih =>
    cases h' with
    | yes h2 h3 => rw [hS _ _ _ _ h1 h2, ih h3]
    | no h2 _ => exact absurd h1 (h2 _)
  | no h1 _ ih =>
    cases h' with
    | yes h2 _ => exact absurd h2 (h1 _)
    | no _ h3 => rw [ih h3]

theorem put_skip {S : Sel → List Tok → List Tok → Prop} {r o : List Tok} : ∀ (g a : List Tok),
    (∀ u t v, g = u ++ t :: v → ∀ m, ¬ S m (a ++ u) (t :: (v ++ r))) → Put S (a ++ g) r o → Put S a (g ++ r) (g ++ o)
  | [], a, _, h => by simpa using h
  | t :: g, a, hno, h => by
    refine .no (by simpa using hno [] t g rfl) ?_
    refine put_skip g (a ++ [t]) ?_ (by simpa using h)
    intro u t' v e m
    have := hno (t :: u) t' v (by rw [e]; rfl) m
    simpa using this

/-! ## Looking at I -/

theorem connective_connG {c : List Tok} (h : ConnG c) (r : List Tok) : connective (c ++ r) = .ok c.length := by
  unfold connective
  rcases h with h | h
  · rw [straddle_shut h]
  · have : straddle .PRIVATE_START_JEK .PRIVATE_END_JEK (c ++ r) = .ok none := by
      obtain ⟨w, rfl, _⟩ := h
      simp [straddle, mkr]
    rw [this, straddle_shut h]

theorem connective_back {r : List Tok} {k : Nat} (h : connective r = .ok k) :
    (k = 0 ∧ headMkr .PRIVATE_START_JEK r = false ∧ headMkr .PRIVATE_START_JOIK r = false) ∨
    (k ≤ r.length ∧ ConnG (r.take k)) := by
  unfold connective at h
  cases h1 : straddle .PRIVATE_START_JEK .PRIVATE_END_JEK r with
  | error c => simp [h1] at h
  | ok o =>
    cases o with
    | some j =>
      simp only [h1, Except.ok.injEq] at h
      subst h
      exact Or.inr ⟨(shut_of_straddle h1).1, Or.inl (shut_of_straddle h1).2⟩
    | none =>
      simp only [h1] at h
      cases h2 : straddle .PRIVATE_START_JOIK .PRIVATE_END_JOIK r with
      | error c => simp [h2] at h
      | ok o =>
        cases o with
        | some j =>
          simp only [h2, Except.ok.injEq] at h
          subst h
          exact Or.inr ⟨(shut_of_straddle h2).1, Or.inr (shut_of_straddle h2).2⟩
        | none =>
          simp only [h2, Except.ok.injEq] at h
          exact Or.inl ⟨h.symm, straddle_none h1, straddle_none h2⟩

theorem connective_zero {r : List Tok} {s : Sel} (h : Ahead s r) : connective r = .ok 0 := by
  have h1 : headMkr .PRIVATE_START_JEK r = false ∧ headMkr .PRIVATE_START_JOIK r = false := by
    obtain ⟨g, x, w, rfl, hx, rfl | hg⟩ := h
    · exact ⟨headMkr_word hx, headMkr_word hx⟩
    · rw [tenseSeq_head hg, tenseSeq_head hg]; decide
  have h2 : ∀ s e, headMkr s r = false → straddle s e r = .ok none := by
    intro s e h
    cases r with
    | nil => rfl
    | cons t r => simp only [headMkr] at h; simp [straddle, h]
  unfold connective
  rw [h2 _ _ h1.1, h2 _ _ h1.2]

/-- What stands inside groups. -/
def Inner (T : List Stag → Prop) (t : Tok) : Prop :=
  (∃ s, Reads t s) ∨ ∃ c ∈ [Sel.NA, .SE, .JA, .NAI, .JOI, .BIhI, .GAhO], t.isSel c = true

theorem in_inner {T : List Stag → Prop} {g : List Tok} (h : In T g) : ∀ t ∈ g, Inner T t := by
  obtain ⟨w, h, hT⟩ := h
  clear hT
  induction h with
  | nil => simp
  | cons h1 _ ih =>
    intro t ht
    replace ht := List.mem_cons.1 ht
    rcases ht with rfl | ht
    · exact Or.inl ⟨_, h1⟩
    · exact ih t ht

theorem opts_inner {T : List Stag → Prop} {ss : List Sel} {p : List Tok} (h : Opts ss p)
    (hs : ∀ s ∈ ss, s ∈ [Sel.NA, .SE, .JA, .NAI, .JOI, .BIhI, .GAhO]) : ∀ t ∈ p, Inner T t := by
  intro t ht
  obtain ⟨s, h1, h2⟩ := opts_allSel h t ht
  exact Or.inr ⟨s, hs s h1, h2⟩

theorem ek_inner {T : List Stag → Prop} {g : List Tok} (h : EkWords .JA g) : ∀ t ∈ g, Inner T t := by
  obtain ⟨p, x, q, rfl, h1, h2, h3⟩ := h
  intro t ht
  simp only [List.mem_append, List.mem_cons] at ht
  rcases ht with ht | rfl | ht
  · exact opts_inner h1 (by decide) t ht
  · exact Or.inr ⟨_, by decide, h2⟩
  · exact opts_inner h3 (by decide) t ht

theorem joik_inner {T : List Stag → Prop} {g : List Tok} (h : JoikWords g) : ∀ t ∈ g, Inner T t := by
  obtain ⟨p, x, q, rfl, ⟨h1, h2, h3⟩ | ⟨h1, h2, h3⟩⟩ := h
  all_goals
    intro t ht
    simp only [List.mem_append, List.mem_cons] at ht
    rcases ht with ht | rfl | ht
    · exact opts_inner h1 (by decide) t ht
    · exact Or.inr ⟨_, by decide, h2⟩
    · exact opts_inner h3 (by decide) t ht

theorem inner_not {T : List Stag → Prop} {t : Tok} (h : Inner T t) {c : Sel} (h1 : mapStag c = none)
    (h2 : c ∉ [Sel.NA, .SE, .JA, .NAI, .JOI, .BIhI, .GAhO]) : t.isSel c = false := by
  cases hb : t.isSel c with
  | false => rfl
  | true =>
    exfalso
    rcases h with ⟨s, h⟩ | ⟨c', h3, h4⟩
    · have := (stagTok_iff t s).2 h
      cases t with
      | cmavo sel w =>
        simp only [Tok.isSel, beq_iff_eq] at hb
        subst hb
        simp [stagTok, h1] at this
      | _ => simp [Tok.isSel] at hb
    · exact h2 (isSel_unique h4 hb ▸ h3)

/-- The inside of a group. -/
theorem shut_mid {s e : Sel} (hne : s ≠ e) {K : List Tok → Prop} {L a g r : List Tok} (hG : Grp s e K L) (hs : Shut s e g)
    (hL : L = a ++ (g ++ r)) : ∃ w, g = .marker s :: (w ++ [.marker e]) ∧ NoMk s e w ∧ K (words w) := by
  obtain ⟨w, rfl, hw⟩ := hs
  subst hL
  have hG' : Grp s e K (a ++ .marker s :: (w ++ .marker e :: r)) := by simpa using hG
  obtain ⟨mid, rest, h1, h2, h3⟩ := grp_after hne hG'
  have : w = mid := by
    have f1 := findMk_mid (rest := r) (notMem_mkr hw)
    have f2 := findMk_mid (rest := rest) (fun t ht => (h2 t ht).2)
    rw [← h1, f1] at f2
    simp only [Option.some.injEq, Nat.add_right_cancel_iff] at f2
    exact (List.append_inj h1 f2).1
  subst this
  exact ⟨w, rfl, h2, h3⟩

theorem shut_tokens {s e : Sel} (hne : s ≠ e) {K : List Tok → Prop} {T : List Stag → Prop} (hK : ∀ w, K w → ∀ t ∈ w, Inner T t)
    {L a g r : List Tok} (hG : Grp s e K L) (hs : Shut s e g) (hL : L = a ++ (g ++ r)) :
    ∀ t ∈ g, (∃ m, t = .marker m) ∨ Inner T t := by
  obtain ⟨w, rfl, _, h3⟩ := shut_mid hne hG hs hL
  intro t ht
  simp only [List.mem_cons, List.mem_append, List.not_mem_nil, or_false] at ht
  rcases ht with rfl | ht | rfl
  · exact Or.inl ⟨_, rfl⟩
  · cases t with
    | marker m => exact Or.inl ⟨m, rfl⟩
    | _ =>
      right
      refine hK _ h3 _ ?_
      unfold words
      rw [List.mem_filter]
      exact ⟨ht, by simp [Tok.kind]⟩
  · exact Or.inl ⟨_, rfl⟩

theorem connG_tokens {T : List Stag → Prop} {L a g r : List Tok} (hC : Known T L) (hs : ConnG g) (hL : L = a ++ (g ++ r)) :
    ∀ t ∈ g, (∃ m, t = .marker m) ∨ Inner T t := by
  rcases hs with hs | hs
  · exact shut_tokens (by decide) (fun w h => ek_inner h) hC.jek hs hL
  · exact shut_tokens (by decide) (fun w h => joik_inner h) hC.joik hs hL

theorem tenseSeq_tokens {T : List Stag → Prop} {L g : List Tok} (hC : Known T L) (hs : TenseSeq g) : ∀ (a r : List Tok),
    L = a ++ (g ++ r) → ∀ t ∈ g, (∃ m, t = .marker m) ∨ Inner T t := by
  induction hs with
  | one h => intro a r hL; exact shut_tokens (by decide) (fun w h => in_inner h) hC.tense h hL
  | @more g c r' h1 h2 _ ih =>
    intro a r hL t ht
    simp only [List.mem_append] at ht
    rcases ht with ht | ht | ht
    · exact shut_tokens (by decide) (fun w h => in_inner h) hC.tense h1 (a := a) (r := c ++ (r' ++ r)) (by rw [hL]; simp) t ht
    · exact connG_tokens hC h2 (a := a ++ g) (r := r' ++ r) (by rw [hL]; simp) t ht
    · exact ih (a ++ g ++ c) r (by rw [hL]; simp) t ht

theorem iboLoop_put {T : List Stag → Prop} {L : List Tok} (hC : Known T L) : ∀ (n : Nat) (a l r out : List Tok), L = a ++ r →
    iboLoop n l r = .ok out → ∃ o, out = l.reverse ++ o ∧ Put IboSite a r o
  | 0, _, _, _, _, _, h => by simp [iboLoop] at h
  | n + 1, a, l, [], out, _, h => by
    simp [iboLoop] at h; subst h
    exact ⟨[], by simp, .nil _⟩
  | n + 1, a, l, x :: r, out, hL, h => by
    unfold iboLoop at h
    have hL' : L = (a ++ [x]) ++ r := by simp [hL]
    by_cases hx : x.isSel .I = true
    · rw [if_pos hx] at h
      cases hk : connective r with
      | error c => simp [hk] at h
      | ok k =>
        simp only [hk] at h
        cases hl : lookahead (r.length + 1) (r.drop k) with
        | error c => simp [hl] at h
        | ok q =>
          obtain ⟨b, i⟩ := q
          have hA := (ahead_iff (by simp; omega) hl).1
          have hsite : b = .bo ↔ IboSite .PRIVATE_I_BO a (x :: r) := by
            rw [hA]
            constructor
            · intro h1
              refine ⟨rfl, x, r.take k, r.drop k, by rw [List.take_append_drop], hx, ?_, h1⟩
              rcases connective_back hk with ⟨rfl, _⟩ | ⟨_, h2⟩
              · exact Or.inl rfl
              · exact Or.inr h2
            · rintro ⟨_, x', c, r', e, _, hc, h1⟩
              simp only [List.cons.injEq] at e
              obtain ⟨_, rfl⟩ := e
              have hk' : k = c.length := by
                rcases hc with rfl | hc
                · rw [List.nil_append, connective_zero h1] at hk
                  simpa using hk.symm
                · rw [connective_connG hc] at hk
                  simpa using hk.symm
              rw [hk', drop_append_len]
              exact h1
          -- the tokens passed over
          have hreg : ∀ t ∈ r.take (k + i), t.isSel .I = false := by
            have hI : ∀ t : Tok, ((∃ m, t = .marker m) ∨ Inner T t) → t.isSel .I = false := by
              rintro t (⟨m, rfl⟩ | h)
              · rfl
              · exact inner_not h (by rfl) (by decide)
            intro t ht
            rw [List.take_add, List.mem_append] at ht
            rcases ht with ht | ht
            · rcases connective_back hk with ⟨rfl, _⟩ | ⟨_, h2⟩
              · simp at ht
              · exact hI t (connG_tokens hC h2 (a := a ++ [x]) (r := r.drop k) (by rw [List.take_append_drop]; exact hL') t ht)
            · rcases lookahead_back _ _ _ _ hl with ⟨rfl, _⟩ | ⟨_, h2, _⟩
              · simp at ht
              · exact hI t (tenseSeq_tokens hC h2 (a ++ [x] ++ r.take k) ((r.drop k).drop i) (by
                  rw [List.take_append_drop, List.append_assoc (a ++ [x]), List.take_append_drop]; exact hL') t ht)
          have cont : ∀ l', (∃ o, out = ((r.take (k + i)).reverse ++ x :: l').reverse ++ o ∧
              Put IboSite (a ++ [x] ++ r.take (k + i)) (r.drop (k + i)) o) →
              ∃ o, out = l'.reverse ++ x :: o ∧ Put IboSite (a ++ [x]) r o := by
            rintro l' ⟨o, h1, h2⟩
            refine ⟨r.take (k + i) ++ o, by rw [h1]; simp, ?_⟩
            have := put_skip (S := IboSite) (r.take (k + i)) (a ++ [x]) (r := r.drop (k + i)) (o := o) ?_ h2
            · rwa [List.take_append_drop] at this
            · rintro u t v e m ⟨_, x', c, r', e', hx', _⟩
              simp only [List.cons.injEq] at e'
              rw [← e'.1, hreg t (by rw [e]; simp)] at hx'
              cases hx'
          have hL2 : L = (a ++ [x] ++ r.take (k + i)) ++ r.drop (k + i) := by
            rw [List.append_assoc (a ++ [x]), List.take_append_drop]; exact hL'
          by_cases hb : b = .bo
          · subst hb
            simp only [hl] at h
            obtain ⟨o, h1, h2⟩ := cont (.marker .PRIVATE_I_BO :: l) (iboLoop_put hC n _ _ _ _ hL2 h)
            exact ⟨.marker .PRIVATE_I_BO :: x :: o, by rw [h1]; simp, .yes (hsite.1 rfl) h2⟩
          · have h' : iboLoop n ((r.take (k + i)).reverse ++ x :: l) (r.drop (k + i)) = .ok out := by
              cases b with
              | bo => exact absurd rfl hb
              | ke => simpa [hl] using h
              | other => simpa [hl] using h
            obtain ⟨o, h1, h2⟩ := cont l (iboLoop_put hC n _ _ _ _ hL2 h')
            refine ⟨x :: o, h1, .no ?_ h2⟩
            intro m hm
            have := hm.1
            subst this
            exact hb (hsite.2 hm)
    · rw [if_neg hx] at h
      obtain ⟨o, h1, h2⟩ := iboLoop_put hC n (a ++ [x]) (x :: l) r out hL' h
      refine ⟨x :: o, by rw [h1]; simp, .no ?_ h2⟩
      rintro m ⟨_, x', c, r', e, hx', _⟩
      simp only [List.cons.injEq] at e
      rw [← e.1] at hx'
      exact hx hx'

theorem ibo_put {T : List Stag → Prop} {ts out : List Tok} (hC : Known T ts) (h : ibo ts = .ok out) :
    Put IboSite [] ts out := by
  obtain ⟨o, h1, h2⟩ := iboLoop_put hC _ [] [] ts out rfl h
  rw [h1]; simpa using h2

/-! ## The word behind an opening marker -/

/-- Behind every marker `s` come at once optional words of `ss` and a word of `cs`. -/
def Opens (s : Sel) (ss cs : List Sel) (L : List Tok) : Prop :=
  ∀ a b, L = a ++ .marker s :: b → ∃ p x w, b = p ++ x :: w ∧ AllSel ss p ∧ ∃ c ∈ cs, x.isSel c = true

theorem CoOk.opens {s c : Sel} {L : List Tok} (h : CoOk s c L) : Opens s [.NA, .SE] [c] L := by
  intro a b e
  obtain ⟨p, x, w, h1, h2, h3, _⟩ := optHead_opts (h a b e)
  exact ⟨p, x, w, h1, opts_allSel h2, c, by simp, h3⟩

/-- A place at which a marker can be inserted without coming between. -/
def SafeO (ss cs : List Sel) (a b : List Tok) : Prop :=
  (∀ p x w, b = p ++ x :: w → AllSel ss p → (∃ c ∈ cs, x.isSel c = true) → False) ∨
  ∃ q y, a = q ++ [y] ∧ (∀ m, y ≠ .marker m) ∧ ∀ s ∈ ss, y.isSel s = false

theorem allSel_word {ss : List Sel} {p : List Tok} (h : AllSel ss p) {t : Tok} (ht : t ∈ p) (m : Sel) : t ≠ .marker m := by
  rintro rfl
  obtain ⟨s, _, hs⟩ := h _ ht
  cases hs

theorem Opens.insert {s m : Sel} {ss cs : List Sel} {a b : List Tok} (hne : m ≠ s) (h : Opens s ss cs (a ++ b))
    (hs : SafeO ss cs a b) : Opens s ss cs (a ++ .marker m :: b) := by
  intro p q e
  rcases split_marker hne e with ⟨d, rfl, rfl⟩ | ⟨d, rfl, rfl⟩
  · obtain ⟨u, x, w, h1, h2, h3⟩ := h p (d ++ b) (by simp)
    rcases List.append_eq_append_iff.1 h1 with ⟨z, e1, e2⟩ | ⟨z, e1, e2⟩
    · -- `d` ends within the optional words
      exfalso
      rcases hs with hs | ⟨q', y, e', hy1, hy2⟩
      · exact hs z x w e2 (fun t ht => h2 t (by rw [e1]; simp [ht])) h3
      · rcases List.eq_nil_or_concat d with rfl | ⟨d', y', rfl⟩
        · obtain ⟨_, e3⟩ := List.append_inj' (s₁ := p) (t₁ := [.marker s]) (s₂ := q') (t₂ := [y]) (by simpa using e') rfl
          simp at e3
          exact hy1 s e3.symm
        · rw [List.concat_eq_append] at e' e1
          obtain ⟨_, e3⟩ := List.append_inj' (s₁ := p ++ .marker s :: d') (t₁ := [y']) (s₂ := q') (t₂ := [y])
            (by simpa using e') rfl
          simp at e3
          subst e3
          obtain ⟨s', h5, h6⟩ := h2 y' (by rw [e1]; simp)
          rw [hy2 s' h5] at h6
          cases h6
    · cases z with
      | nil =>
        exfalso
        simp at e1 e2
        subst e1
        rcases hs with hs | ⟨q', y, e', hy1, hy2⟩
        · exact hs [] x w e2.symm (by simp [AllSel]) h3
        · rcases List.eq_nil_or_concat d with rfl | ⟨d', y', rfl⟩
          · obtain ⟨_, e3⟩ := List.append_inj' (s₁ := p) (t₁ := [.marker s]) (s₂ := q') (t₂ := [y]) (by simpa using e') rfl
            simp at e3
            exact hy1 s e3.symm
          · rw [List.concat_eq_append] at e' h2
            obtain ⟨_, e3⟩ := List.append_inj' (s₁ := p ++ .marker s :: d') (t₁ := [y']) (s₂ := q') (t₂ := [y])
              (by simpa using e') rfl
            simp at e3
            subst e3
            obtain ⟨s', h5, h6⟩ := h2 y' (by simp)
            rw [hy2 s' h5] at h6
            cases h6
      | cons x' z =>
        simp only [List.cons_append, List.cons.injEq] at e2
        obtain ⟨rfl, rfl⟩ := e2
        exact ⟨u, x, z ++ .marker m :: b, by rw [e1]; simp, h2, h3⟩
  · exact h (a ++ d) q (by simp)

theorem Ins.opens {P : Sel → List Tok → List Tok → Prop} {l l' : List Tok} (h : Ins P l l') {s : Sel} {ss cs : List Sel}
    (hk : ∀ m a b, P m a b → m ≠ s ∧ SafeO ss cs a b) (h0 : Opens s ss cs l) : Opens s ss cs l' := by
  induction h with
  | refl => exact h0
  | step _ hp ih => exact ih.insert (hk _ _ _ hp).1 (hk _ _ _ hp).2

/-- Other optional words and another word. -/
theorem safeO_head {ss cs ss' : List Sel} {a p w : List Tok} {y : Tok} (h1 : ∀ s ∈ ss', s ∉ cs) (h2 : AllSel ss' p)
    (h3 : ∀ s ∈ ss ++ cs, y.isSel s = false) : SafeO ss cs a (p ++ y :: w) := by
  left
  intro p' x w' e hp' hx
  rcases List.append_eq_append_iff.1 e with ⟨z, e1, e2⟩ | ⟨z, e1, e2⟩
  · cases z with
    | nil =>
      simp at e2
      obtain ⟨c, hc, hx⟩ := hx
      rw [← e2.1, h3 c (by simp [hc])] at hx
      cases hx
    | cons t z =>
      simp only [List.cons_append, List.cons.injEq] at e2
      obtain ⟨s, h4, h5⟩ := hp' y (by rw [e1, e2.1]; simp)
      rw [h3 s (by simp [h4])] at h5
      cases h5
  · cases z with
    | nil =>
      simp at e2
      obtain ⟨c, hc, hx⟩ := hx
      rw [e2.1, h3 c (by simp [hc])] at hx
      cases hx
    | cons t z =>
      simp only [List.cons_append, List.cons.injEq] at e2
      obtain ⟨s, h4, h5⟩ := h2 x (by rw [e1, e2.1]; simp)
      obtain ⟨c, hc, hx⟩ := hx
      exact h1 s h4 (isSel_unique h5 hx ▸ hc)

theorem safeO_sel {ss cs : List Sel} {a w : List Tok} {y : Tok} {s : Sel} (h : y.isSel s = true) (hs : s ∉ ss ++ cs) :
    SafeO ss cs a (y :: w) := by
  refine safeO_head (p := []) (ss' := []) (by simp) (by simp [AllSel]) ?_
  intro s' hs'
  exact not_isSel h (fun e => hs (e ▸ hs'))

theorem safeO_mkr {ss cs : List Sel} {a b : List Tok} {m : Sel} (h : headMkr m b = true) : SafeO ss cs a b := by
  obtain ⟨r, rfl⟩ := headMkr_true h
  exact safeO_head (p := []) (ss' := []) (by simp) (by simp [AllSel]) (fun _ _ => rfl)

theorem walk_opens {rule : Tok → Option Rule} (hr : RuleOk rule) {s : Sel} {ss cs : List Sel}
    (h1 : ∀ x k, rule x = some k → k.start = s ∧ (∀ u ∈ k.before, u ∈ ss) ∧ (∃ c ∈ cs, x.isSel c = true) ∧
      ∀ a e, k.after = some (a, e) → e ≠ s) (hdis : ∀ u ∈ ss, u ∉ cs) :
    ∀ (n : Nat) (l r out : List Tok), Opens s ss cs l.reverse → (∀ t ∈ r, mkr s t = false) →
    walk rule n l r = .ok out → Opens s ss cs out
  | 0, _, _, _, _, _, h => by simp [walk] at h
  | n + 1, l, [], out, hl, _, h => by simp [walk] at h; exact h ▸ hl
  | n + 1, l, x :: r, out, hl, hr', h => by
    have hr'' : ∀ t ∈ r, mkr s t = false := fun t ht => hr' t (by simp [ht])
    have hopen : ∀ k, rule x = some k → Opens s ss cs (x :: insOpt k.start k.before l).reverse := by
      intro k hk
      obtain ⟨h2, h3, h4, _⟩ := h1 x k hk
      obtain ⟨p, q, rfl, e2, h5, _⟩ := insOpt_spec k.start k.before l
      rw [e2]
      have hp : AllSel ss p.reverse := by
        intro t ht
        obtain ⟨u, h6, h7⟩ := h5 t (by simpa using ht)
        exact ⟨u, h3 u h6, h7⟩
      intro a b e
      have e' : q.reverse ++ .marker s :: (p.reverse ++ [x]) = a ++ .marker s :: b := by simpa [h2] using e
      have hxm : ∀ m, x ≠ .marker m := by rintro m rfl; rw [hr.mks] at hk; cases hk
      rcases List.append_eq_append_iff.1 e' with ⟨y, h6, h7⟩ | ⟨y, h6, h7⟩
      · cases y with
        | nil => simp at h7; rw [← h7]; exact ⟨p.reverse, x, [], rfl, hp, h4⟩
        | cons t y =>
          exfalso
          simp only [List.cons_append, List.cons.injEq] at h7
          have hm : Tok.marker s ∈ p.reverse ++ [x] := by rw [h7.2]; simp
          rw [List.mem_append, List.mem_singleton] at hm
          rcases hm with hm | hm
          · exact allSel_word hp hm s rfl
          · exact hxm s hm.symm
      · cases y with
        | nil => simp at h7; rw [h7]; exact ⟨p.reverse, x, [], rfl, hp, h4⟩
        | cons t y =>
          simp only [List.cons_append, List.cons.injEq] at h7
          obtain ⟨rfl, rfl⟩ := h7
          obtain ⟨u, z, w, h8, h9, h10⟩ := hl a (y ++ p.reverse) (by simp [h6])
          rcases List.append_eq_append_iff.1 h8 with ⟨v, h11, h12⟩ | ⟨v, h11, h12⟩
          · exfalso
            obtain ⟨c, hc, hz⟩ := h10
            obtain ⟨s', h13, h14⟩ := hp z (by rw [h12]; simp)
            exact hdis s' h13 (isSel_unique h14 hz ▸ hc)
          · cases v with
            | nil =>
              exfalso
              simp at h12
              obtain ⟨c, hc, hz⟩ := h10
              obtain ⟨s', h13, h14⟩ := hp z (by rw [← h12]; simp)
              exact hdis s' h13 (isSel_unique h14 hz ▸ hc)
            | cons z' v =>
              simp only [List.cons_append, List.cons.injEq] at h12
              obtain ⟨rfl, rfl⟩ := h12
              exact ⟨u, z, v ++ .marker s :: (p.reverse ++ [x]), by rw [h11]; simp, h9, h10⟩
    cases hx : rule x with
    | none =>
      simp only [walk, hx] at h
      refine walk_opens hr h1 hdis n _ r out ?_ hr'' h
      intro a b e
      simp only [List.reverse_cons] at e
      rcases List.eq_nil_or_concat b with rfl | ⟨b', y, rfl⟩
      · obtain ⟨_, e2⟩ := List.append_inj' (s₁ := l.reverse) (t₁ := [x]) (s₂ := a) (t₂ := [.marker s]) e rfl
        simp at e2
        have := hr' x (by simp)
        simp [mkr, e2] at this
      · rw [List.concat_eq_append] at e ⊢
        obtain ⟨e1, _⟩ := List.append_inj' (s₁ := l.reverse) (t₁ := [x]) (s₂ := a ++ .marker s :: b') (t₂ := [y])
          (by simpa using e) rfl
        obtain ⟨p, z, w, h3, h4⟩ := hl a b' e1
        exact ⟨p, z, w ++ [y], by rw [h3]; simp, h4⟩
    | some k =>
      have hopen' := hopen k hx
      obtain ⟨bf, st, af⟩ := k
      cases af with
      | none =>
        simp only [walk, hx] at h
        exact walk_opens hr h1 hdis n _ r out hopen' hr'' h
      | some ae =>
        obtain ⟨af, e⟩ := ae
        simp only [walk, hx] at h
        refine walk_opens hr h1 hdis n _ _ out hopen' ?_ h
        obtain ⟨p, q, rfl, e2, _, _⟩ := insOpt_spec e af r
        rw [e2]
        intro t ht
        simp only [List.mem_append, List.mem_cons] at ht
        rcases ht with ht | rfl | ht
        · exact hr'' t (by simp [ht])
        · rw [mkr_marker]
          simpa using (h1 x _ hx).2.2.2 af e rfl
        · exact hr'' t (by simp [ht])

theorem jek_opens {ts out : List Tok} (hno : ∀ t ∈ ts, mkr .PRIVATE_START_JEK t = false) (h : pass jekRule ts = .ok out) :
    Opens .PRIVATE_START_JEK [.NA, .SE] [.JA] out := by
  refine walk_opens jekRule_ok ?_ (by decide) _ [] ts out (by intro a b e; simp at e) hno h
  intro x k hk
  unfold jekRule at hk
  split at hk
  · rename_i hx
    injection hk with hk; subst hk
    refine ⟨rfl, by decide, ⟨.JA, by simp, hx⟩, ?_⟩
    intro a e he
    cases he
    decide
  · cases hk

theorem joik_opens {ts out : List Tok} (hno : ∀ t ∈ ts, mkr .PRIVATE_START_JOIK t = false) (h : pass joikRule ts = .ok out) :
    Opens .PRIVATE_START_JOIK [.GAhO, .SE] [.JOI, .BIhI] out := by
  refine walk_opens joikRule_ok ?_ (by decide) _ [] ts out (by intro a b e; simp at e) hno h
  intro x k hk
  unfold joikRule at hk
  split at hk
  · rename_i hx
    injection hk with hk; subst hk
    refine ⟨rfl, by decide, ⟨.JOI, by simp, hx⟩, ?_⟩
    intro a e he
    cases he
    decide
  · split at hk
    · rename_i hx
      injection hk with hk; subst hk
      refine ⟨rfl, by decide, ⟨.BIhI, by simp, hx⟩, ?_⟩
      intro a e he
      cases he
      decide
    · cases hk

/-! ## Markers inside groups -/

/-- Between the markers of another group no marker `s` stands, if the words there are none of `cs`. -/
theorem shut_inside {s s' e' : Sel} (hne : s' ≠ e') (h1 : s ≠ s') (h2 : s ≠ e') {K : List Tok → Prop} {ss cs : List Sel}
    (hK : ∀ w, K w → ∀ t ∈ w, ∀ c ∈ cs, t.isSel c = false) {L a g r : List Tok} (hG : Grp s' e' K L) (hO : Opens s ss cs L)
    (hs : Shut s' e' g) (hL : L = a ++ (g ++ r)) : .marker s ∉ g := by
  obtain ⟨w, rfl, _, h3⟩ := shut_mid hne hG hs hL
  intro hm
  simp only [List.mem_cons, List.mem_append, List.not_mem_nil, or_false, Tok.marker.injEq, h1, h2, false_or] at hm
  obtain ⟨u, v, rfl⟩ := List.append_of_mem hm
  obtain ⟨p, x, z, h4, h5, c, hc, hx⟩ := hO (a ++ .marker s' :: u) (v ++ .marker e' :: r) (by rw [hL]; simp)
  have hxv : x ∈ v := by
    rcases List.append_eq_append_iff.1 h4 with ⟨y, e1, e2⟩ | ⟨y, e1, e2⟩
    · exfalso
      cases y with
      | nil => simp at e2; rw [← e2.1] at hx; cases hx
      | cons t y =>
        simp only [List.cons_append, List.cons.injEq] at e2
        exact allSel_word h5 (t := t) (by rw [e1]; simp) e' e2.1.symm
    · cases y with
      | nil => simp at e2; rw [e2.1] at hx; cases hx
      | cons t y =>
        simp only [List.cons_append, List.cons.injEq] at e2
        rw [e1, e2.1]; simp
  have : x ∈ words (u ++ .marker s :: v) := by
    unfold words
    rw [List.mem_filter]
    refine ⟨by simp [hxv], ?_⟩
    cases x <;> simp_all [Tok.isSel, Tok.kind]
  rw [hK _ h3 x this c hc] at hx
  cases hx

theorem inner_cs {T : List Stag → Prop} {cs : List Sel} (hcs : ∀ c ∈ cs, mapStag c = none ∧
    c ∉ [Sel.NA, .SE, .JA, .NAI, .JOI, .BIhI, .GAhO]) {K : List Tok → Prop} (hK : ∀ w, K w → ∀ t ∈ w, Inner T t) :
    ∀ w, K w → ∀ t ∈ w, ∀ c ∈ cs, t.isSel c = false :=
  fun w hw t ht c hc => inner_not (hK w hw t ht) (hcs c hc).1 (hcs c hc).2

theorem split_notMem {x : Tok} {g h u v : List Tok} (hn : x ∉ g) (e : g ++ h = u ++ x :: v) :
    ∃ z, u = g ++ z ∧ h = z ++ x :: v := by
  rcases List.append_eq_append_iff.1 e with ⟨z, e1, e2⟩ | ⟨z, e1, e2⟩
  · exact ⟨z, e1, e2⟩
  · cases z with
    | nil => exact ⟨[], by simpa using e1.symm, by simpa using e2.symm⟩
    | cons t z =>
      simp only [List.cons_append, List.cons.injEq] at e2
      exact absurd (by rw [e1, e2.1]; simp) hn

/-- Where a marker can be found in marked tenses: nowhere, but if it is the beginning of a jek or joik, then behind a
tense. -/
theorem tenseSeq_inside {s : Sel} {L g : List Tok} {gd : Prop}
    (hten : ∀ a g r, L = a ++ (g ++ r) → Shut .PRIVATE_START_TENSE .PRIVATE_END_TENSE g → .marker s ∉ g)
    (hcon : ∀ a c r, L = a ++ (c ++ r) → ConnG c → .marker s ∉ c ∨ (gd ∧ ∃ c', c = .marker s :: c' ∧ .marker s ∉ c'))
    (hg : TenseSeq g) : ∀ (a r : List Tok), L = a ++ (g ++ r) → ∀ u v, g = u ++ .marker s :: v →
    gd ∧ u.getLast? = some (.marker .PRIVATE_END_TENSE) := by
  induction hg with
  | one h =>
    intro a r hL u v e
    exact absurd (by rw [e]; simp) (hten a _ r hL h)
  | @more g c r' h1 h2 _ ih =>
    intro a r hL u v e
    have n1 : .marker s ∉ g := hten a g (c ++ (r' ++ r)) (by rw [hL]; simp) h1
    have n2 := hcon (a ++ g) c (r' ++ r) (by rw [hL]; simp) h2
    obtain ⟨z, rfl, e2⟩ := split_notMem n1 e
    have hrest : ∀ y, z = c ++ y → r' = y ++ .marker s :: v →
        gd ∧ (g ++ z).getLast? = some (.marker .PRIVATE_END_TENSE) := by
      rintro y rfl e4
      obtain ⟨h3, h4⟩ := ih (a ++ g ++ c) r (by rw [hL]; simp) y v e4
      exact ⟨h3, by rw [← List.append_assoc, List.getLast?_append]; simp [h4]⟩
    rcases n2 with n2 | ⟨h3, c', rfl, n3⟩
    · obtain ⟨y, h5, h6⟩ := split_notMem n2 e2
      exact hrest y h5 h6
    · cases z with
      | nil =>
        refine ⟨h3, ?_⟩
        obtain ⟨w, rfl, _⟩ := h1
        rw [List.append_nil, ← List.cons_append, List.getLast?_concat]
      | cons z0 z =>
        simp only [List.cons_append, List.cons.injEq] at e2
        obtain ⟨y, h5, h6⟩ := split_notMem n3 e2.2
        exact hrest y (by rw [h5, e2.1]; rfl) h6

/-! ## The opening markers stay with their words -/

theorem opts_rev {ss : List Sel} {p : List Tok} (h : Opts ss.reverse p) : AllSel ss p := by
  intro t ht
  obtain ⟨s, h1, h2⟩ := opts_allSel h t ht
  exact ⟨s, by simpa using h1, h2⟩

theorem walkP_safeO {rule : Tok → Option Rule} (hr : RuleOk rule) {ss cs : List Sel}
    (h : ∀ x k, rule x = some k → (∀ u ∈ k.before, u ∉ cs) ∧ (∀ s ∈ ss ++ cs, x.isSel s = false) ∧
      ∀ ss' m, k.after = some (ss', m) → ∀ u ∈ ss', u ∉ ss) {m : Sel} {a b : List Tok} (hw : WalkP rule m a b) :
    SafeO ss cs a b := by
  rcases hw with ⟨x, c, p, w, h1, _, h2, rfl, _⟩ | ⟨x, c, ss', q, p, h1, h2, h3, rfl, _⟩
  · exact safeO_head (h x c h1).1 (opts_rev h2) (h x c h1).2.1
  · right
    have hx : ∀ m, x ≠ .marker m := by rintro m rfl; rw [hr.mks] at h1; cases h1
    rcases List.eq_nil_or_concat p with rfl | ⟨p, y, rfl⟩
    · exact ⟨q, x, rfl, hx, fun s hs => (h x c h1).2.1 s (by simp [hs])⟩
    · rw [List.concat_eq_append] at h3 ⊢
      have hy := opts_allSel h3
      refine ⟨q ++ x :: p, y, by simp, allSel_word hy (by simp), ?_⟩
      intro s hs
      obtain ⟨s', h4, h5⟩ := hy y (by simp)
      exact not_isSel h5 (fun e => (h x c h1).2.2 ss' _ h2 s' h4 (e ▸ hs))

theorem gek_safeO {T : List Stag → Prop} {ss cs : List Sel} (h1 : Sel.SE ∉ cs) (h2 : Sel.GA ∉ ss ++ cs) {m : Sel} {a b : List Tok}
    (h : GekP T m a b) : SafeO ss cs a b := by
  obtain ⟨_, ⟨p, x, w, rfl, h3, h4⟩ | h3 | h3, _⟩ := h
  · exact safeO_head (ss' := [.SE]) (by simpa using h1) (opts_allSel h3) (fun s hs => not_isSel h4 (fun e => h2 (e ▸ hs)))
  · exact safeO_mkr h3
  · exact safeO_mkr h3

theorem i_safeO {ss cs : List Sel} (h1 : Sel.I ∉ ss ++ cs) {a b : List Tok} (h : headSel .I b = true) : SafeO ss cs a b := by
  obtain ⟨x, w, rfl, hx⟩ := headSel_cons h
  exact safeO_sel hx h1

/-! ## Connectives before bo and ke -/

theorem keboLoop_put {L : List Tok} {s bo ke : Sel} {strad : List Tok → Except Crash (Option Nat)} {guard : Bool}
    {C : List Tok → Prop}
    (h1 : ∀ r k, strad r = .ok (some k) → k ≤ r.length ∧ C (r.take k))
    (h2 : ∀ c r, C c → (Ahead .BO r ∨ Ahead .KE r) → strad (c ++ r) = .ok (some c.length))
    (h3 : ∀ c, C c → ∃ c', c = .marker s :: c')
    (h4 : ∀ a c r, L = a ++ (.marker s :: c ++ r) → C (.marker s :: c) → .marker s ∉ c)
    (h5 : ∀ a g r, L = a ++ (g ++ r) → TenseSeq g → ∀ u v, g = u ++ .marker s :: v →
      guard = true ∧ u.getLast? = some (.marker .PRIVATE_END_TENSE)) :
    ∀ (n : Nat) (a l r out : List Tok), L = a ++ r → l.head? = a.getLast? →
    keboLoop s bo ke strad guard n l r = .ok out → ∃ o, out = l.reverse ++ o ∧ Put (KeboSite C bo ke guard) a r o
  | 0, _, _, _, _, _, _, h => by simp [keboLoop] at h
  | n + 1, a, l, [], out, _, _, h => by
    simp [keboLoop] at h; subst h
    exact ⟨[], by simp, .nil _⟩
  | n + 1, a, l, x :: r, out, hL, hl, h => by
    unfold keboLoop at h
    have hL' : L = (a ++ [x]) ++ r := by simp [hL]
    have skip1 : (∀ m, ¬ KeboSite C bo ke guard m a (x :: r)) → keboLoop s bo ke strad guard n (x :: l) r = .ok out →
        ∃ o, out = l.reverse ++ o ∧ Put (KeboSite C bo ke guard) a (x :: r) o := by
      intro hno h
      obtain ⟨o, h6, h7⟩ := keboLoop_put h1 h2 h3 h4 h5 n (a ++ [x]) (x :: l) r out hL' (by simp) h
      exact ⟨x :: o, by rw [h6]; simp, .no hno h7⟩
    by_cases hx : mkr s x = true
    · rw [if_pos hx] at h
      have hx' : x = .marker s := by simpa [mkr] using hx
      subst hx'
      by_cases hg : (guard && (headSel .I l || headMkr .PRIVATE_END_TENSE l)) = true
      · rw [if_pos hg] at h
        refine skip1 ?_ h
        rintro m ⟨h6, _⟩
        simp only [Bool.and_eq_true, Bool.or_eq_true] at hg
        rcases hg.2 with hg' | hg'
        · obtain ⟨y, w, rfl, hy⟩ := headSel_cons hg'
          rw [(h6 hg.1 y hl.symm).1] at hy
          cases hy
        · obtain ⟨w, rfl⟩ := headMkr_true hg'
          exact (h6 hg.1 _ hl.symm).2 rfl
      · rw [if_neg hg] at h
        have hG : guard = true → ∀ t, a.getLast? = some t → t.isSel .I = false ∧ t ≠ .marker .PRIVATE_END_TENSE := by
          intro hgd t ht
          rw [← hl] at ht
          cases l with
          | nil => simp at ht
          | cons y w =>
            simp only [List.head?_cons, Option.some.injEq] at ht
            subst ht
            simp only [hgd, Bool.true_and, headSel, headMkr, Bool.or_eq_true, not_or, Bool.not_eq_true] at hg
            refine ⟨hg.1, ?_⟩
            rintro rfl
            simp [mkr] at hg
        cases hk : strad (.marker s :: r) with
        | error c => simp [hk] at h
        | ok ok =>
          cases ok with
          | none => simp [hk] at h
          | some k =>
            simp only [hk] at h
            obtain ⟨hkl, hC⟩ := h1 _ _ hk
            cases hlk : lookahead (r.length + 2) ((Tok.marker s :: r).drop k) with
            | error c => simp [hlk] at h
            | ok q =>
              obtain ⟨b, i⟩ := q
              simp only [hlk] at h
              have hA := ahead_iff (by simp; omega) hlk
              have hsite : ∀ m, KeboSite C bo ke guard m a (.marker s :: r) ↔ (m = bo ∧ b = .bo) ∨ (m = ke ∧ b = .ke) := by
                intro m
                rw [hA.1, hA.2]
                constructor
                · rintro ⟨_, c, r', e, hc, h6⟩
                  have hk' : k = c.length := by
                    have : strad (c ++ r') = .ok (some c.length) := by
                      refine h2 c r' hc ?_
                      rcases h6 with ⟨_, h6⟩ | ⟨_, h6⟩
                      · exact Or.inl h6
                      · exact Or.inr h6
                    rw [← e, hk] at this
                    simpa using this
                  rw [e, hk', drop_append_len]
                  exact h6
                · intro h6
                  exact ⟨hG, (Tok.marker s :: r).take k, (Tok.marker s :: r).drop k, by rw [List.take_append_drop], hC, h6⟩
              obtain ⟨c', hc'⟩ := h3 _ hC
              obtain ⟨k, rfl⟩ : ∃ k', k = k' + 1 := by
                cases k with
                | zero => simp at hc'
                | succ k => exact ⟨k, rfl⟩
              have hki : k + 1 + i = (k + i) + 1 := by omega
              rw [hki] at h
              simp only [List.take_succ_cons, List.drop_succ_cons] at h hlk hC
              -- the tokens passed over
              have hreg : ∀ u t v, r.take (k + i) = u ++ t :: v → ∀ m,
                  ¬ KeboSite C bo ke guard m (a ++ [.marker s] ++ u) (t :: (v ++ r.drop (k + i))) := by
                rintro u t v e m ⟨h6, c, r', e', hc, _⟩
                obtain ⟨c'', rfl⟩ := h3 c hc
                simp only [List.cons_append, List.cons.injEq] at e'
                obtain ⟨rfl, _⟩ := e'
                rw [List.take_add] at e
                have n1 : .marker s ∉ r.take k := h4 a _ (r.drop k) (by
                  rw [List.cons_append, List.take_append_drop]; exact hL) hC
                obtain ⟨z, e1, e2⟩ := split_notMem n1 e
                rcases lookahead_back _ _ _ _ hlk with ⟨rfl, _⟩ | ⟨_, h7, _⟩
                · simp at e2
                · obtain ⟨h8, h9⟩ := h5 (a ++ [.marker s] ++ r.take k) _ ((r.drop k).drop i) (by
                    rw [List.take_append_drop, List.append_assoc (a ++ [Tok.marker s]), List.take_append_drop]; exact hL')
                    h7 z v e2
                  refine (h6 h8 (.marker .PRIVATE_END_TENSE) ?_).2 rfl
                  rw [e1, ← List.append_assoc, List.getLast?_append, h9]
                  rfl
              obtain ⟨o, h6, h7⟩ := keboLoop_put h1 h2 h3 h4 h5 n (a ++ (.marker s :: r.take (k + i))) _ _ out (by
                rw [List.append_assoc, List.cons_append, List.take_append_drop]; exact hL) (by
                rw [List.getLast?_append, List.reverse_cons, List.append_assoc, List.append_assoc]
                rcases List.eq_nil_or_concat (r.take (k + i)) with e | ⟨d, y, e⟩
                · rw [e]; simp
                · rw [e, List.concat_eq_append, List.reverse_append, ← List.cons_append, List.getLast?_concat]; rfl) h
              have h8 := put_skip (S := KeboSite C bo ke guard) (r.take (k + i)) (a ++ [.marker s]) (r := r.drop (k + i)) (o := o)
                hreg (by simpa using h7)
              rw [List.take_append_drop] at h8
              cases b with
              | bo =>
                exact ⟨.marker bo :: .marker s :: (r.take (k + i) ++ o), by rw [h6]; simp [bokeMark],
                  .yes ((hsite bo).2 (Or.inl ⟨rfl, rfl⟩)) h8⟩
              | ke =>
                exact ⟨.marker ke :: .marker s :: (r.take (k + i) ++ o), by rw [h6]; simp [bokeMark],
                  .yes ((hsite ke).2 (Or.inr ⟨rfl, rfl⟩)) h8⟩
              | other =>
                refine ⟨.marker s :: (r.take (k + i) ++ o), by rw [h6]; simp [bokeMark], .no ?_ h8⟩
                intro m hm
                rcases (hsite m).1 hm with ⟨_, h9⟩ | ⟨_, h9⟩ <;> cases h9
    · rw [if_neg hx] at h
      refine skip1 ?_ h
      rintro m ⟨_, c, r', e, hc, _⟩
      obtain ⟨c', rfl⟩ := h3 c hc
      simp only [List.cons_append, List.cons.injEq] at e
      rw [e.1] at hx
      simp [mkr] at hx

/-! ## A word and its neighbours -/

theorem markBefore_put {m : Sel} {p : List Tok → Tok → List Tok → Bool} {S : Sel → List Tok → List Tok → Prop}
    (hS : ∀ a l x r, l.head? = a.getLast? → ∀ m', S m' a (x :: r) ↔ m' = m ∧ p l x r = true) :
    ∀ (r a l : List Tok), l.head? = a.getLast? → ∃ o, markBefore m p l r = l.reverse ++ o ∧ Put S a r o
  | [], a, l, _ => ⟨[], by simp [markBefore], .nil _⟩
  | x :: r, a, l, h => by
    unfold markBefore
    by_cases hp : p l x r = true
    · rw [if_pos hp]
      obtain ⟨o, h1, h2⟩ := markBefore_put hS r (a ++ [x]) (x :: .marker m :: l) (by simp)
      exact ⟨.marker m :: x :: o, by rw [h1]; simp, .yes ((hS a l x r h m).2 ⟨rfl, hp⟩) h2⟩
    · rw [if_neg hp]
      obtain ⟨o, h1, h2⟩ := markBefore_put hS r (a ++ [x]) (x :: l) (by simp)
      exact ⟨x :: o, by rw [h1]; simp, .no (fun m' hm => hp ((hS a l x r h m').1 hm).2) h2⟩

theorem pair_put (n s1 s2 : Sel) (ts : List Tok) :
    Put (PairSite s1 s2 n) [] ts (markBefore n (fun _ x r => x.isSel s1 && headSel s2 r) [] ts) := by
  suffices hS : _ by
    obtain ⟨o, h1, h2⟩ := markBefore_put (m := n) (p := fun _ x r => x.isSel s1 && headSel s2 r) (S := PairSite s1 s2 n) hS
      ts [] [] rfl
    rw [h1]; simpa using h2
  · intro a l x r _ m'
    constructor
    · rintro ⟨rfl, x', y, r', e, hx, hy⟩
      simp only [List.cons.injEq] at e
      obtain ⟨rfl, rfl⟩ := e
      exact ⟨rfl, by simp [hx, headSel, hy]⟩
    · rintro ⟨rfl, h⟩
      simp only [Bool.and_eq_true] at h
      obtain ⟨y, w, rfl, hy⟩ := headSel_cons h.2
      exact ⟨rfl, x, y, w, rfl, h.1, hy⟩

theorem ijekjoik_put (ts : List Tok) : Put IjekSite [] ts (ijekjoik ts) := by
  unfold ijekjoik
  suffices hS : _ by
    obtain ⟨o, h1, h2⟩ := markBefore_put (m := .PRIVATE_I_JEKJOIK) (p := fun l x r => x.isSel .I && !headMkr .PRIVATE_I_BO l &&
      (headMkr .PRIVATE_START_JEK r || headMkr .PRIVATE_START_JOIK r)) (S := IjekSite) hS ts [] [] rfl
    rw [h1]; simpa using h2
  · intro a l x r hl m'
    have hl' : headMkr .PRIVATE_I_BO l = true ↔ a.getLast? = some (.marker .PRIVATE_I_BO) := by
      rw [← hl]
      cases l with
      | nil => simp [headMkr]
      | cons y l => simp [headMkr, mkr]
    constructor
    · rintro ⟨rfl, h, x', y, r', e, hx, hy⟩
      simp only [List.cons.injEq] at e
      obtain ⟨rfl, rfl⟩ := e
      have h' : headMkr .PRIVATE_I_BO l = false := by
        cases hb : headMkr .PRIVATE_I_BO l with
        | false => rfl
        | true => exact absurd (hl'.1 hb) h
      refine ⟨rfl, ?_⟩
      rw [hx, h']
      rcases hy with rfl | rfl <;> simp [headMkr, mkr]
    · rintro ⟨rfl, h⟩
      simp only [Bool.and_eq_true, Bool.or_eq_true, Bool.not_eq_true'] at h
      refine ⟨rfl, ?_, ?_⟩
      · intro e
        rw [h.1.2] at hl'
        cases hl'.2 e
      · rcases h.2 with h' | h'
        · obtain ⟨w, rfl⟩ := headMkr_true h'
          exact ⟨x, _, w, rfl, h.1.1, Or.inl rfl⟩
        · obtain ⟨w, rfl⟩ := headMkr_true h'
          exact ⟨x, _, w, rfl, h.1.1, Or.inr rfl⟩

/-! ## Numbers -/

theorem isNum_iff (t : Tok) : isNum t = true ↔ NumWord t := by
  unfold NumWord
  cases t with
  | cmavo s w =>
    simp only [isNum, Tok.isSel, Bool.or_eq_true, beq_iff_eq, List.mem_cons, List.not_mem_nil, or_false, reduceCtorEq,
      exists_false]
    constructor
    · intro h
      exact ⟨s, by rcases h with ((((h | h) | h) | h) | h) | h <;> simp [h], rfl⟩
    · rintro ⟨s', h, rfl⟩
      rcases h with h | h | h | h | h | h <;> simp [h]
  | _ => simp [isNum, Tok.isSel]

theorem numRun_run {p l : List Tok} (h1 : ∀ t ∈ p, isNum t = true) (h2 : ∀ t, l.head? = some t → isNum t = false) :
    numRun (p ++ l) = p.length := by
  induction p with
  | nil =>
    cases l with
    | nil => rfl
    | cons t l => simp [numRun, h2 t rfl]
  | cons t p ih =>
    simp only [List.cons_append, numRun, h1 t (by simp), if_true, List.length_cons]
    rw [ih (fun t ht => h1 t (by simp [ht]))]

theorem numSite_mid {s n : Sel} {a b : List Tok} {t : Tok} (h : a.getLast? = some t) (ht : NumWord t) : ∀ m, ¬ NumSite s n m a b :=
  fun _ hs => hs.2.1 t h ht

/-- With the numbers `p` just passed. -/
theorem number_put {s n : Sel} (hs : ∀ t, NumWord t → t.isSel s = false) : ∀ (r p a l : List Tok),
    (∀ t, l.head? = some t → isNum t = false) → (∀ t, a.getLast? = some t → ¬ NumWord t) → (∀ t ∈ p, NumWord t) →
    ∃ o, number s n (p.reverse ++ l) r = l.reverse ++ o ∧ Put (NumSite s n) a (p ++ r) o
  | [], p, a, l, _, _, hp => by
    refine ⟨p, by simp [number], ?_⟩
    have := put_skip (S := NumSite s n) (r := []) (o := []) p a ?_ (.nil _)
    · simpa using this
    · rintro u t v rfl m ⟨_, _, q, x, w, e, _, _, hx⟩
      have : x ∈ u ++ t :: v := by
        rw [List.append_nil] at e; rw [e]; simp
      rw [hs x (hp x this)] at hx
      cases hx
  | x :: r, p, a, l, hl, ha, hp => by
    have hrun : numRun (p.reverse ++ l) = p.length := by
      rw [numRun_run (fun t ht => (isNum_iff t).2 (hp t (by simpa using ht))) hl, List.length_reverse]
    -- the same with the numbers passed over
    have skip : ∀ o, (∀ m t v, p = t :: v → ¬ NumSite s n m a (p ++ x :: r)) → Put (NumSite s n) (a ++ p) (x :: r) o →
        Put (NumSite s n) a (p ++ x :: r) (p ++ o) := by
      intro o h0 h
      refine put_skip p a ?_ h
      intro u t v e m
      cases u with
      | nil =>
        rw [List.append_nil]
        have := h0 m t v e
        rw [e] at this
        exact this
      | cons u0 u =>
        refine numSite_mid (t := ((u0 :: u).getLast (by simp))) ?_ (hp _ (by rw [e]; exact List.mem_append_left _ (List.getLast_mem _))) m
        rw [List.getLast?_append, List.getLast?_eq_some_getLast (by simp)]
        rfl
    -- a word that is no number
    have nonum : ¬ NumWord x → ∀ l', (∃ o, number s n (x :: l') r = (x :: l').reverse ++ o ∧ Put (NumSite s n) (a ++ p ++ [x]) r o) →
        ∃ o, number s n (x :: l') r = l'.reverse ++ o ∧ Put (NumSite s n) (a ++ p) (x :: r) o := by
      rintro hx l' ⟨o, h1, h2⟩
      refine ⟨x :: o, by rw [h1]; simp, .no ?_ h2⟩
      rintro m ⟨_, _, q, y, w, e, hq, hq2, _⟩
      cases q with
      | nil => exact hq rfl
      | cons q0 q =>
        simp only [List.cons_append, List.cons.injEq] at e
        exact hx (e.1 ▸ hq2 q0 (by simp))
    have num0 : ∀ l' : List Tok, ¬ NumWord x → ∀ t, (x :: l').head? = some t → isNum t = false := by
      intro l' hx t ht
      simp only [List.head?_cons, Option.some.injEq] at ht
      subst ht
      cases h : isNum x with
      | false => rfl
      | true => exact absurd ((isNum_iff _).1 h) hx
    have num1 : ¬ NumWord x → ∀ t, (a ++ p ++ [x]).getLast? = some t → ¬ NumWord t := by
      intro hx t ht
      simp at ht
      exact ht ▸ hx
    unfold number
    by_cases hx : x.isSel s = true
    · have hxn : ¬ NumWord x := by
        intro h
        rw [hs x h] at hx
        cases hx
      rw [if_pos hx]
      dsimp only
      rw [hrun]
      by_cases h0 : 0 < p.length
      · rw [if_pos h0]
        have e1 : (p.reverse ++ l).take p.length = p.reverse := by rw [List.take_left' (by simp)]
        have e2 : (p.reverse ++ l).drop p.length = l := by rw [List.drop_left' (by simp)]
        rw [e1, e2]
        obtain ⟨o, h1, h2⟩ := nonum hxn (p.reverse ++ .marker n :: l) (by
          have := number_put (n := n) hs r [] (a ++ p ++ [x]) (x :: (p.reverse ++ .marker n :: l)) (num0 _ hxn) (num1 hxn) (by simp)
          simpa using this)
        cases p with
        | nil => simp at h0
        | cons t v =>
          refine ⟨.marker n :: t :: (v ++ o), by rw [h1]; simp, ?_⟩
          rw [List.cons_append]
          refine .yes ⟨rfl, ha, t :: v, x, r, rfl, by simp, hp, hx⟩ ?_
          refine put_skip v (a ++ [t]) ?_ (by simpa using h2)
          intro u t' v' e m
          refine numSite_mid (t := ((t :: u).getLast (by simp))) ?_ (hp _ ?_) m
          · rw [List.append_assoc, List.getLast?_append, List.singleton_append, List.getLast?_eq_some_getLast (by simp)]
            rfl
          · rw [e, ← List.cons_append]; exact List.mem_append_left _ (List.getLast_mem _)
      · rw [if_neg h0]
        have : p = [] := by cases p with | nil => rfl | cons _ _ => simp at h0
        subst this
        obtain ⟨o, h1, h2⟩ := nonum hxn l (by
          have := number_put (n := n) hs r [] (a ++ [] ++ [x]) (x :: l) (num0 _ hxn) (num1 hxn) (by simp)
          simpa using this)
        exact ⟨o, by simpa using h1, by simpa using h2⟩
    · rw [if_neg hx]
      by_cases hxn : NumWord x
      · obtain ⟨o, h1, h2⟩ := number_put hs r (p ++ [x]) a l hl ha (by
          intro t ht
          rw [List.mem_append, List.mem_singleton] at ht
          rcases ht with ht | rfl
          · exact hp t ht
          · exact hxn)
        exact ⟨o, by simpa using h1, by simpa using h2⟩
      · obtain ⟨o, h1, h2⟩ := nonum hxn (p.reverse ++ l) (by
          have := number_put (n := n) hs r [] (a ++ p ++ [x]) (x :: (p.reverse ++ l)) (num0 _ hxn) (num1 hxn) (by simp)
          simpa using this)
        refine ⟨p ++ o, by rw [h1]; simp, skip o ?_ h2⟩
        rintro m t v rfl ⟨_, _, q, y, w, e, hq, hq2, hy⟩
        -- the number ends at `x`, which is not the word
        rcases List.append_eq_append_iff.1 e with ⟨z, e1, e2⟩ | ⟨z, e1, e2⟩
        · cases z with
          | nil =>
            simp at e2
            rw [← e2.1] at hy
            exact hx hy
          | cons z0 z =>
            simp only [List.cons_append, List.cons.injEq] at e2
            exact hxn (hq2 x (by rw [e1, e2.1]; simp))
        · cases z with
          | nil =>
            simp at e2
            rw [e2.1] at hy
            exact hx hy
          | cons z0 z =>
            simp only [List.cons_append, List.cons.injEq] at e2
            rw [hs y (hp y (by rw [e1, e2.1]; simp))] at hy
            cases hy

theorem number_put' {s n : Sel} (hs : s ∉ [Sel.PA, .BU, .BY, .LAU, .TEI, .FOI]) (ts : List Tok) :
    Put (NumSite s n) [] ts (number s n [] ts) := by
  obtain ⟨o, h1, h2⟩ := number_put (s := s) (n := n) (by
    rintro t (⟨s', h, h'⟩ | ⟨w, rfl⟩)
    · exact not_isSel h' (fun e => hs (e ▸ h))
    · rfl) ts [] [] [] (by simp) (by simp) (by simp)
  simp only [List.reverse_nil, List.nil_append] at h1 h2
  rw [h1]
  exact h2

/-! ## The four kinds of connective -/

theorem in_not {T : List Stag → Prop} {w : List Tok} (h : In T w) {c : Sel} (hc : mapStag c = none) : ∀ t ∈ w, t.isSel c = false := by
  intro t ht
  cases hb : t.isSel c with
  | false => rfl
  | true =>
    exfalso
    obtain ⟨v, h, hT⟩ := h
    clear hT
    induction h with
    | nil => simp at ht
    | @cons _ s _ _ h1 _ ih =>
      replace ht := List.mem_cons.1 ht
      rcases ht with rfl | ht
      · have := (stagTok_iff t s).2 h1
        cases t with
        | cmavo sel w =>
          simp only [Tok.isSel, beq_iff_eq] at hb
          subst hb
          simp [stagTok, hc] at this
        | _ => simp [Tok.isSel] at hb
      · exact ih ht

theorem ek_not {w : List Tok} {c d : Sel} (h : EkWords d w) (hc : c ∉ [Sel.NA, .SE, .NAI, d]) : ∀ t ∈ w, t.isSel c = false := by
  obtain ⟨p, x, q, rfl, h1, h2, h3⟩ := h
  intro t ht
  simp only [List.mem_append, List.mem_cons] at ht
  simp only [List.mem_cons, List.not_mem_nil, or_false, not_or] at hc
  rcases ht with ht | rfl | ht
  · obtain ⟨s, hs, ht⟩ := opts_allSel h1 t ht
    refine not_isSel ht ?_
    rintro rfl
    simp [hc] at hs
  · exact not_isSel h2 (fun e => hc.2.2.2 e.symm)
  · obtain ⟨s, hs, ht⟩ := opts_allSel h3 t ht
    refine not_isSel ht ?_
    rintro rfl
    simp [hc] at hs

theorem joik_not {w : List Tok} {c : Sel} (h : JoikWords w) (hc : c ∉ [Sel.SE, .NAI, .GAhO, .JOI, .BIhI]) :
    ∀ t ∈ w, t.isSel c = false := by
  simp only [List.mem_cons, List.not_mem_nil, or_false, not_or] at hc
  obtain ⟨p, x, q, rfl, ⟨h1, h2, h3⟩ | ⟨h1, h2, h3⟩⟩ := h
  all_goals
    intro t ht
    simp only [List.mem_append, List.mem_cons] at ht
    rcases ht with ht | rfl | ht
    · obtain ⟨s, hs, ht⟩ := opts_allSel h1 t ht
      refine not_isSel ht ?_
      rintro rfl
      simp [hc] at hs
    · exact not_isSel h2 (fun e => by simp [← e] at hc)
    · obtain ⟨s, hs, ht⟩ := opts_allSel h3 t ht
      refine not_isSel ht ?_
      rintro rfl
      simp [hc] at hs

theorem shut_strad {s e : Sel} (r : List Tok) (k : Nat) (h : straddle s e r = .ok (some k)) :
    k ≤ r.length ∧ Shut s e (r.take k) := shut_of_straddle h

theorem shut_kebo_put {T : List Stag → Prop} {L : List Tok} (hC : Known T L) {s e bo ke : Sel} (hne : s ≠ e) {K : List Tok → Prop}
    (hG : Grp s e K L)
    (hten : ∀ a g r, L = a ++ (g ++ r) → Shut .PRIVATE_START_TENSE .PRIVATE_END_TENSE g → .marker s ∉ g)
    (hcon : ∀ a c r, L = a ++ (c ++ r) → ConnG c → .marker s ∉ c ∨ Shut s e c)
    {out : List Tok} (h : kebo s bo ke (straddle s e) true L = .ok out) : Put (KeboSite (Shut s e) bo ke true) [] L out := by
  have hmid : ∀ a c r, L = a ++ (.marker s :: c ++ r) → Shut s e (.marker s :: c) → .marker s ∉ c := by
    intro a c r hL hs
    obtain ⟨w, h1, h2, _⟩ := shut_mid hne hG hs hL
    simp only [List.cons.injEq, true_and] at h1
    rw [h1, List.mem_append, List.mem_singleton]
    rintro (h3 | h3)
    · have := (h2 _ h3).1
      simp [mkr] at this
    · exact hne (by simpa using h3)
  obtain ⟨o, h1, h2⟩ := keboLoop_put (L := L) (C := Shut s e) (fun r k => shut_of_straddle) (fun c r hc _ => straddle_shut hc r)
    (fun c hc => ⟨_, hc.choose_spec.1⟩) hmid (by
      intro a g r hL hg
      refine tenseSeq_inside hten ?_ hg a r hL
      intro a c r hL hc
      rcases hcon a c r hL hc with h | h
      · exact Or.inl h
      · obtain ⟨w, rfl, _⟩ := id h
        exact Or.inr ⟨rfl, _, rfl, hmid a _ r hL h⟩) _ [] [] L out rfl rfl h
  rw [h1]; simpa using h2

theorem jek_kebo_put {T : List Stag → Prop} {L out : List Tok} (hC : Known T L) (hO : Opens .PRIVATE_START_JEK [.NA, .SE] [.JA] L)
    (h : jekKebo L = .ok out) :
    Put (KeboSite (Shut .PRIVATE_START_JEK .PRIVATE_END_JEK) .PRIVATE_JEK_BO .PRIVATE_JEK_KE true) [] L out := by
  refine shut_kebo_put hC (by decide) hC.jek ?_ ?_ h
  · intro a g r hL hs
    refine shut_inside (by decide) (by decide) (by decide) ?_ hC.tense hO hs hL
    intro w hw t ht c hc
    simp at hc; subst hc
    exact in_not hw rfl t ht
  · rintro a c r hL (hs | hs)
    · exact Or.inr hs
    · left
      refine shut_inside (by decide) (by decide) (by decide) ?_ hC.joik hO hs hL
      intro w hw t ht c hc
      simp at hc; subst hc
      exact joik_not hw (by decide) t ht

theorem joik_kebo_put {T : List Stag → Prop} {L out : List Tok} (hC : Known T L)
    (hO : Opens .PRIVATE_START_JOIK [.GAhO, .SE] [.JOI, .BIhI] L) (h : joikKebo L = .ok out) :
    Put (KeboSite (Shut .PRIVATE_START_JOIK .PRIVATE_END_JOIK) .PRIVATE_JOIK_BO .PRIVATE_JOIK_KE true) [] L out := by
  refine shut_kebo_put hC (by decide) hC.joik ?_ ?_ h
  · intro a g r hL hs
    refine shut_inside (by decide) (by decide) (by decide) ?_ hC.tense hO hs hL
    intro w hw t ht c hc
    simp at hc; rcases hc with rfl | rfl
    · exact in_not hw rfl t ht
    · exact in_not hw rfl t ht
  · rintro a c r hL (hs | hs)
    · left
      refine shut_inside (by decide) (by decide) (by decide) ?_ hC.jek hO hs hL
      intro w hw t ht c hc
      simp at hc; rcases hc with rfl | rfl
      · exact ek_not hw (by decide) t ht
      · exact ek_not hw (by decide) t ht
    · exact Or.inr hs

theorem skip_opt (s : Sel) (r : List Tok) : skip s r ≤ r.length ∧ Opts [s] (r.take (skip s r)) := by
  cases r with
  | nil => exact ⟨by simp [skip, headSel], .skip .nil⟩
  | cons t r =>
    by_cases h : t.isSel s = true
    · have : skip s (t :: r) = 1 := by simp [skip, headSel, h]
      rw [this]
      exact ⟨by simp, .take h .nil⟩
    · have : skip s (t :: r) = 0 := by simp [skip, headSel, h]
      rw [this]
      exact ⟨by omega, .skip .nil⟩

theorem opts_two {s s' : Sel} {p q : List Tok} (h : Opts [s] p) (h' : Opts [s'] q) : Opts [s, s'] (p ++ q) := by
  cases h with
  | skip h => cases h; exact .skip h'
  | take h1 h => cases h; exact .take h1 h'

theorem straddleCo_back {s c : Sel} {r : List Tok} {k : Nat} (h : straddleCo s c r = .ok (some k)) :
    k ≤ r.length ∧ CoG s c (r.take k) := by
  cases r with
  | nil => simp [straddleCo] at h
  | cons t r =>
    unfold straddleCo at h
    dsimp only at h
    by_cases ht : mkr s t = true
    · rw [if_pos ht] at h
      have ht' : t = .marker s := by simpa [mkr] using ht
      subst ht'
      have n1 := skip_opt .NA r
      have n2 := skip_opt .SE (r.drop (skip .NA r))
      generalize skip .NA r = i at h n1 n2
      generalize skip .SE (r.drop i) = j at h n2
      by_cases hc : headSel c (r.drop (i + j)) = true
      · rw [if_pos hc] at h
        obtain ⟨x, w, hd, hx⟩ := headSel_cons hc
        have hd' : r.drop (i + j + 1) = w := by rw [← List.drop_drop, hd]; rfl
        rw [hd'] at h
        have n3 := skip_opt .NAI w
        generalize skip .NAI w = m at h n3
        simp only [Except.ok.injEq, Option.some.injEq] at h
        subst h
        have hr : r = r.take (i + j) ++ x :: w := by rw [← hd, List.take_append_drop]
        have hlen : i + j ≤ r.length := by
          have := n2.1
          simp at this
          omega
        have hl2 := congrArg List.length hr
        simp only [List.length_append, List.length_take, List.length_cons] at hl2
        refine ⟨by simp; omega, r.take (i + j), x, w.take m, ?_, ?_, hx, n3.2⟩
        · rw [show 1 + (i + j) + 1 + m = (i + j + (m + 1)) + 1 by omega, List.take_succ_cons, List.take_add, hd,
            List.take_succ_cons]
        · rw [List.take_add]
          exact opts_two n1.2 n2.2
      · rw [if_neg hc] at h; cases h
    · rw [if_neg ht] at h; cases h

theorem skip_yes {s : Sel} {t : Tok} {r : List Tok} (h : t.isSel s = true) : skip s (t :: r) = 1 := by simp [skip, headSel, h]

theorem skip_no {s s' : Sel} {t : Tok} {r : List Tok} (h : t.isSel s' = true) (hn : s' ≠ s) : skip s (t :: r) = 0 := by
  have := not_isSel h hn
  simp [skip, headSel, this]

theorem straddleCo_fwd {s c : Sel} (hc1 : c ≠ .NA) (hc2 : c ≠ .SE) {g r : List Tok} (h : CoG s c g) (hr : headSel .NAI r = false) :
    straddleCo s c (g ++ r) = .ok (some g.length) := by
  obtain ⟨p, x, q, rfl, h1, h2, h3⟩ := h
  unfold straddleCo
  simp only [List.cons_append, List.append_assoc]
  rw [if_pos (by simp [mkr])]
  have hq : skip .NAI (q ++ r) = q.length := by
    cases h3 with
    | skip h => cases h; simp [skip, hr]
    | take h' h => cases h; exact skip_yes h'
  cases h1 with
  | skip h1 =>
    cases h1 with
    | skip h1 =>
      cases h1
      simp only [List.nil_append, skip_no h2 hc1, skip_no h2 hc2, List.drop_zero, headSel, h2, if_true, Nat.add_zero, Nat.zero_add,
        List.drop_succ_cons, hq]
      simp
      omega
    | take h4 h1 =>
      cases h1
      simp only [List.nil_append, List.cons_append, skip_no h4 (by decide : Sel.SE ≠ .NA), skip_yes h4, List.drop_zero, headSel, h2,
        if_true, Nat.add_zero, Nat.zero_add, List.drop_succ_cons, hq]
      simp
      omega
  | take h4 h1 =>
    cases h1 with
    | skip h1 =>
      cases h1
      simp only [List.nil_append, List.cons_append, skip_yes h4, skip_no h2 hc2, List.drop_zero, headSel, h2,
        if_true, Nat.add_zero, Nat.zero_add, List.drop_succ_cons, hq]
      simp
      omega
    | take h5 h1 =>
      cases h1
      simp only [List.nil_append, List.cons_append, skip_yes h4, skip_yes h5, List.drop_zero, headSel, h2,
        if_true, Nat.add_zero, Nat.zero_add, List.drop_succ_cons, hq]
      simp
      omega

theorem ahead_nai {s : Sel} (hs : s ≠ .NAI) {r : List Tok} (h : Ahead s r) : headSel .NAI r = false := by
  obtain ⟨g, x, w, rfl, hx, rfl | hg⟩ := h
  · exact not_isSel hx hs
  · have := tenseSeq_head (r := x :: w) hg .PRIVATE_START_TENSE
    simp only [decide_true] at this
    obtain ⟨r, hr⟩ := headMkr_true this
    rw [hr]
    rfl

theorem co_kebo_put {T : List Stag → Prop} {L out : List Tok} (hC : Known T L) {s c bo ke : Sel} (hc1 : c ∉ [Sel.NA, .SE, .NAI, .JA])
    (hc2 : c ∉ [Sel.GAhO, .JOI, .BIhI]) (hm : mapStag c = none)
    (hs : s ∉ [Sel.PRIVATE_START_TENSE, .PRIVATE_END_TENSE, .PRIVATE_START_JEK, .PRIVATE_END_JEK, .PRIVATE_START_JOIK, .PRIVATE_END_JOIK])
    (hO : CoOk s c L) (h : kebo s bo ke (straddleCo s c) false L = .ok out) :
    Put (KeboSite (CoG s c) bo ke false) [] L out := by
  simp only [List.mem_cons, List.not_mem_nil, or_false, not_or] at hc1 hc2 hs
  obtain ⟨o, h1, h2⟩ := keboLoop_put (L := L) (C := CoG s c) (fun r k => straddleCo_back) (fun g r hg hA => by
      refine straddleCo_fwd hc1.1 hc1.2.1 hg ?_
      rcases hA with hA | hA
      · exact ahead_nai (by decide) hA
      · exact ahead_nai (by decide) hA)
    (fun c hc => ⟨_, hc.choose_spec.choose_spec.choose_spec.1⟩) (by
      rintro a g r _ ⟨p, x, q, e, h1, h2, h3⟩
      simp only [List.cons.injEq, true_and] at e
      subst e
      intro hm
      simp only [List.mem_append, List.mem_cons] at hm
      rcases hm with hm | rfl | hm
      · exact allSel_word (opts_allSel h1) hm s rfl
      · cases h2
      · exact allSel_word (opts_allSel h3) hm s rfl) (by
      intro a g r hL hg u v e
      refine tenseSeq_inside (L := L) (s := s) ?_ ?_ hg a r hL u v e
      · intro a g r hL hsh
        refine shut_inside (by decide) hs.1 hs.2.1 ?_ hC.tense hO.opens hsh hL
        intro w hw t ht c' hc'
        simp at hc'; subst hc'
        exact in_not hw hm t ht
      · rintro a g r hL (hsh | hsh)
        · left
          refine shut_inside (by decide) hs.2.2.1 hs.2.2.2.1 ?_ hC.jek hO.opens hsh hL
          intro w hw t ht c' hc'
          simp at hc'; subst hc'
          exact ek_not hw (by simp [hc1]) t ht
        · left
          refine shut_inside (by decide) hs.2.2.2.2.1 hs.2.2.2.2.2 ?_ hC.joik hO.opens hsh hL
          intro w hw t ht c' hc'
          simp at hc'; subst hc'
          exact joik_not hw (by simp [hc1, hc2]) t ht) _ [] [] L out rfl rfl h
  rw [h1]; simpa using h2

/-! ## Every gek is marked -/

/-- A tense or joik just before gi. -/
def gekPair (p x : Tok) : Bool := (p == .marker .PRIVATE_END_TENSE || p == .marker .PRIVATE_END_JOIK) && x.isSel .GI

def adj : Option Tok → List Tok → Nat
  | _, [] => 0
  | none, x :: r => adj (some x) r
  | some p, x :: r => (if gekPair p x then 1 else 0) + adj (some x) r

theorem adj_zip : ∀ (r : List Tok) (p : Tok), ((p :: r).zip r).countP (fun q => gekPair q.1 q.2) = adj (some p) r
  | [], _ => rfl
  | x :: r, p => by
    rw [List.zip_cons_cons, List.countP_cons, adj_zip r x, adj]
    dsimp only
    omega

theorem seekTense_count : ∀ (n : Nat) (l l' : List Tok), seekTense n l = .ok l' →
    l'.count (.marker .PRIVATE_START_GEK) = l.count (.marker .PRIVATE_START_GEK) + 1
  | 0, _, _, h => by simp [seekTense] at h
  | n + 1, [], _, h => by simp [seekTense] at h
  | n + 1, z :: l, l', h => by
    unfold seekTense at h
    have one : (z :: Tok.marker .PRIVATE_START_GEK :: l).count (.marker .PRIVATE_START_GEK) =
        (z :: l).count (.marker .PRIVATE_START_GEK) + 1 := by
      simp only [List.count_cons, beq_self_eq_true, if_true]
      omega
    split at h
    · cases hb : backup l with
      | error c => simp [hb] at h
      | ok y =>
        cases y with
        | none =>
          simp only [hb, Except.ok.injEq] at h
          rw [← h, one]
        | some k =>
          simp only [hb] at h
          split at h
          · cases hs : seekTense n (l.drop (k + 1)) with
            | error c => simp [hs] at h
            | ok l2 =>
              simp only [hs, Except.ok.injEq] at h
              have ih := seekTense_count n _ _ hs
              have e : l.count (.marker .PRIVATE_START_GEK) = (l.take (k + 1)).count (.marker .PRIVATE_START_GEK) +
                  (l.drop (k + 1)).count (.marker .PRIVATE_START_GEK) := by
                rw [← List.count_append, List.take_append_drop]
              rw [← h, List.count_cons, List.count_append, ih, List.count_cons, e]
              omega
          · simp only [Except.ok.injEq] at h
            rw [← h, one]
    · cases hs : seekTense n l with
      | error c => simp [hs] at h
      | ok l2 =>
        simp only [hs, Except.ok.injEq] at h
        have ih := seekTense_count n _ _ hs
        rw [← h, List.count_cons, List.count_cons, ih]
        omega

theorem gekLoop_count {T : List Stag → Prop} : ∀ (r l out : List Tok), Known T (l.reverse ++ r) → gekLoop l r = .ok out →
    out.count (.marker .PRIVATE_START_GEK) = l.count (.marker .PRIVATE_START_GEK) + r.count (.marker .PRIVATE_START_GEK) +
      r.countP (·.isSel .GA) + adj l.head? r
  | [], l, out, _, h => by
    simp [gekLoop] at h
    rw [← h]
    cases l <;> simp [adj, List.count_cons]
  | x :: r, l, out, hC, h => by
    have goOn : ∀ l' (d : Nat), Ins (GekP T) (l.reverse ++ x :: r) (l'.reverse ++ x :: r) → gekLoop (x :: l') r = .ok out →
        l'.count (.marker .PRIVATE_START_GEK) = l.count (.marker .PRIVATE_START_GEK) + d →
        out.count (.marker .PRIVATE_START_GEK) = l.count (.marker .PRIVATE_START_GEK) + d +
          (x :: r).count (.marker .PRIVATE_START_GEK) + r.countP (·.isSel .GA) + adj (some x) r := by
      intro l' d hi h hd
      have ih := gekLoop_count r (x :: l') out (by simpa using hi.known gekP_closed hC) h
      rw [ih, List.head?_cons, List.count_cons, List.count_cons, hd]
      omega
    have hadj : adj l.head? (x :: r) = (match l.head? with
        | none => 0
        | some p => if gekPair p x then 1 else 0) + adj (some x) r := by
      cases l with
      | nil => simp [adj]
      | cons p l => rfl
    rw [hadj, List.countP_cons]
    unfold gekLoop at h
    by_cases hga : x.isSel .GA = true
    · rw [if_pos hga] at h
      have hgi : x.isSel .GI = false := not_isSel hga (by decide)
      obtain ⟨p, q, e1, e2, h5, _⟩ := insOpt_spec .PRIVATE_START_GEK [.SE] l
      have hi : Ins (GekP T) (l.reverse ++ x :: r) ((insOpt .PRIVATE_START_GEK [.SE] l).reverse ++ x :: r) := by
        refine ins_left (by decide) (fun p q _ hp hp' => ⟨rfl, Or.inl ⟨p.reverse, x, r, rfl, hp, hga⟩, Or.inl
          ⟨p.reverse, x, words r, ?_, hp, hga, hp'⟩⟩)
        rw [words_append, words_allSel (opts_allSel hp), words_word hga]
      have := goOn _ 1 hi h (by
          rw [e2, e1]
          simp only [List.count_append, List.count_cons, beq_self_eq_true, if_true]
          omega)
      rw [this, if_pos hga]
      cases l with
      | nil => simp; omega
      | cons y l => simp [gekPair, hgi]; omega
    · rw [if_neg hga] at h
      rw [if_neg hga]
      by_cases hgi : x.isSel .GI = true
      · rw [if_pos hgi] at h
        by_cases hh : headMkr .PRIVATE_END_TENSE l = true
        · rw [if_pos hh] at h
          obtain ⟨l', rfl⟩ := headMkr_true hh
          obtain ⟨l2, h1, h2⟩ := seekTense_ok (l'.length + 1) l' (x :: r) (by simpa using hC) (Nat.lt_succ_self _)
            ⟨[], x, words r, by rw [words_word hgi]; rfl, hgi, Or.inl rfl⟩
          have h3 := seekTense_skip [.marker .PRIVATE_END_TENSE] (l'.length + 1) l' (by simp [mkr])
          rw [h1] at h3
          have h4 : seekTense ((Tok.marker Sel.PRIVATE_END_TENSE :: l').length + 1) (Tok.marker Sel.PRIVATE_END_TENSE :: l') =
              .ok (.marker .PRIVATE_END_TENSE :: l2) := by simpa [Except.map] using h3
          simp only [h4] at h
          have := goOn _ 1 (by simpa using h2) h (seekTense_count _ _ _ h4)
          rw [this]
          simp [gekPair, hgi]
          omega
        · rw [if_neg hh] at h
          cases l with
          | nil =>
            have := goOn [] 0 (.refl _) h rfl
            rw [this]
            simp
          | cons z l' =>
            dsimp only at h
            by_cases hz : mkr .PRIVATE_END_JOIK z = true
            · rw [if_pos hz] at h
              have hz' := mkr_true.1 hz
              subst hz'
              have hC' : Known T (l'.reverse ++ .marker .PRIVATE_END_JOIK :: x :: r) := by simpa using hC
              have hi := insJoik_ins hgi hC'
              have hcount : (insJoik l').count (.marker .PRIVATE_START_GEK) = l'.count (.marker .PRIVATE_START_GEK) + 1 := by
                obtain ⟨mid, rest, e, hf, _, _⟩ := findMk_back (by decide) hC'.joik
                unfold insJoik
                rw [hf]
                dsimp only
                have : l'.count (.marker .PRIVATE_START_GEK) = (l'.take (mid.length + 1)).count (.marker .PRIVATE_START_GEK) +
                    (l'.drop (mid.length + 1)).count (.marker .PRIVATE_START_GEK) := by
                  rw [← List.count_append, List.take_append_drop]
                rw [this, List.count_append, List.count_cons_self]
                omega
              have := goOn (.marker .PRIVATE_END_JOIK :: insJoik l') 1 (by simpa using hi) h (by
                rw [List.count_cons, List.count_cons, hcount]; omega)
              rw [this]
              simp [gekPair, hgi]
              omega
            · rw [if_neg hz] at h
              have := goOn (z :: l') 0 (.refl _) h rfl
              rw [this]
              have : gekPair z x = false := by
                simp only [headMkr, mkr] at hh hz
                simp [gekPair, hh, hz]
              simp [this]
      · rw [if_neg hgi] at h
        have := goOn l 0 (.refl _) h rfl
        rw [this]
        cases l with
        | nil => simp
        | cons z l => simp [gekPair, hgi]

theorem gek_complete {T : List Stag → Prop} {ts out : List Tok} (hC : Known T ts) (hno : Tok.marker .PRIVATE_START_GEK ∉ ts)
    (h : gek ts = .ok out) : GekComplete ts out := by
  have := gekLoop_count ts [] out (by simpa using hC) h
  unfold GekComplete
  rw [this, List.count_eq_zero.2 hno]
  cases ts with
  | nil => rfl
  | cons p r =>
    have e := adj_zip r p
    simp only [gekPair] at e
    rw [List.tail_cons, e]
    simp [adj]

theorem Ins.unmark {P : Sel → List Tok → List Tok → Prop} {l l' : List Tok} (h : Ins P l l') {n : Sel}
    (hP : ∀ m a b, P m a b → m = n) (h0 : Tok.marker n ∉ l) : l'.filter (· != .marker n) = l := by
  have : l'.filter (· != .marker n) = l.filter (· != .marker n) := by
    induction h with
    | refl => rfl
    | step _ hp ih => rw [← ih, hP _ _ _ hp]; simp
  rw [this, List.filter_eq_self]
  intro t ht
  simp only [bne_iff_ne]
  rintro rfl
  exact h0 ht

/-! ## The markers are determined -/

theorem ahead_look {s : Sel} {r : List Tok} (h : Ahead s r) : ∃ q, lookahead (r.length + 1) r = .ok q := by
  obtain ⟨g, x, w, rfl, hx, rfl | hg⟩ := h
  · refine ⟨(bokeResult (x :: w), 0), ?_⟩
    unfold lookahead
    rw [if_neg (by rw [List.nil_append, headMkr_word hx]; simp)]
    rfl
  · exact ⟨_, ahead_fwd hg _ x w s (by simp; omega) hx⟩

theorem ahead_bo_ke {r : List Tok} (h : Ahead .BO r) (h' : Ahead .KE r) : False := by
  obtain ⟨⟨b, i⟩, hq⟩ := ahead_look h
  have := ahead_iff (Nat.lt_succ_self _) hq
  have h1 := this.1.2 h
  have h2 := this.2.2 h'
  rw [h1] at h2
  cases h2

theorem keboSite_fun {C : List Tok → Prop} {bo ke : Sel} {guard : Bool}
    (hC : ∀ c c' r r', C c → C c' → c ++ r = c' ++ r' → (Ahead .BO r ∨ Ahead .KE r) → (Ahead .BO r' ∨ Ahead .KE r') → c = c') :
    ∀ m m' a b, KeboSite C bo ke guard m a b → KeboSite C bo ke guard m' a b → m = m' := by
  rintro m m' a b ⟨_, c, r, rfl, hc, h⟩ ⟨_, c', r', e, hc', h'⟩
  have hA : Ahead .BO r ∨ Ahead .KE r := by
    rcases h with ⟨_, h⟩ | ⟨_, h⟩
    · exact Or.inl h
    · exact Or.inr h
  have hA' : Ahead .BO r' ∨ Ahead .KE r' := by
    rcases h' with ⟨_, h⟩ | ⟨_, h⟩
    · exact Or.inl h
    · exact Or.inr h
  have := hC c c' r r' hc hc' e hA hA'
  subst this
  have := List.append_cancel_left e
  subst this
  rcases h with ⟨rfl, h⟩ | ⟨rfl, h⟩ <;> rcases h' with ⟨rfl, h'⟩ | ⟨rfl, h'⟩
  · rfl
  · exact (ahead_bo_ke h h').elim
  · exact (ahead_bo_ke h' h).elim
  · rfl

theorem shut_fun {s e : Sel} : ∀ c c' r r', Shut s e c → Shut s e c' → c ++ r = c' ++ r' → (Ahead .BO r ∨ Ahead .KE r) →
    (Ahead .BO r' ∨ Ahead .KE r') → c = c' := by
  intro c c' r r' h h' e _ _
  have h1 := straddle_shut h r
  have h2 := straddle_shut h' r'
  rw [e, h2] at h1
  simp only [Except.ok.injEq, Option.some.injEq] at h1
  exact (List.append_inj e h1.symm).1

theorem coG_fun {s c : Sel} (hc1 : c ≠ .NA) (hc2 : c ≠ .SE) : ∀ g g' r r', CoG s c g → CoG s c g' → g ++ r = g' ++ r' →
    (Ahead .BO r ∨ Ahead .KE r) → (Ahead .BO r' ∨ Ahead .KE r') → g = g' := by
  intro g g' r r' h h' e hA hA'
  have hn : ∀ r, (Ahead .BO r ∨ Ahead .KE r) → headSel .NAI r = false := by
    rintro r (h | h)
    · exact ahead_nai (by decide) h
    · exact ahead_nai (by decide) h
  have h1 := straddleCo_fwd hc1 hc2 h (hn r hA)
  have h2 := straddleCo_fwd hc1 hc2 h' (hn r' hA')
  rw [e, h2] at h1
  simp only [Except.ok.injEq, Option.some.injEq] at h1
  exact (List.append_inj e h1.symm).1

/-- C51: from the text after the gek pass the specification leaves one result only. -/
theorem late_unique {ts o o' : List Tok} (h : Late ts o) (h' : Late ts o') : o = o' := by
  obtain ⟨t1, t2, t3, t4, t5, t6, t7, t8, t9, t10, h1, h2, h3, h4, h5, h6, h7, h8, h9, h10, h11⟩ := h
  obtain ⟨u1, u2, u3, u4, u5, u6, u7, u8, u9, u10, k1, k2, k3, k4, k5, k6, k7, k8, k9, k10, k11⟩ := h'
  cases put_unique (fun m m' a b h h' => h.1.trans h'.1.symm) h1 k1
  cases put_unique (fun m m' a b h h' => h.1.trans h'.1.symm) h2 k2
  cases put_unique (keboSite_fun shut_fun) h3 k3
  cases put_unique (keboSite_fun (coG_fun (by decide) (by decide))) h4 k4
  cases put_unique (keboSite_fun shut_fun) h5 k5
  cases put_unique (keboSite_fun (coG_fun (by decide) (by decide))) h6 k6
  cases put_unique (fun m m' a b h h' => h.1.trans h'.1.symm) h7 k7
  cases put_unique (fun m m' a b h h' => h.1.trans h'.1.symm) h8 k8
  cases put_unique (fun m m' a b h h' => h.1.trans h'.1.symm) h9 k9
  cases put_unique (fun m m' a b h h' => h.1.trans h'.1.symm) h10 k10
  exact put_unique (fun m m' a b h h' => h.1.trans h'.1.symm) h11 k11

end Jbo.Categ
