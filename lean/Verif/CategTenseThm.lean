import Verif.CategSpec
import Verif.CategPass

/-!
# The tense pass
-/

namespace Jbo.Categ
open Jbo Jbo.CategSpec

/-! ## The language and its automaton -/

namespace RE

/-- The empty word is in the language. -/
def nullable : RE → Bool
  | .void => false
  | .eps => true
  | .tok _ => false
  | .alt a b => nullable a || nullable b
  | .seq a b => nullable a && nullable b
  | .star _ => true

/-- The language is empty. -/
def isVoid : RE → Bool
  | .void => true
  | .eps => false
  | .tok _ => false
  | .alt a b => isVoid a && isVoid b
  | .seq a b => isVoid a || isVoid b
  | .star _ => false

/-- What can follow a word. -/
def deriv (t : Stag) : RE → RE
  | .void => .void
  | .eps => .void
  | .tok t' => if t = t' then .eps else .void
  | .alt a b => .alt (deriv t a) (deriv t b)
  | .seq a b => if nullable a then .alt (.seq (deriv t a) b) (deriv t b) else .seq (deriv t a) b
  | .star a => .seq (deriv t a) (.star a)

end RE

theorem nullable_iff : ∀ r : RE, RE.nullable r = true ↔ r.lang []
  | .void => by simp [RE.nullable, RE.lang]
  | .eps => by simp [RE.nullable, RE.lang]
  | .tok t => by simp [RE.nullable, RE.lang]
  | .alt a b => by simp [RE.nullable, RE.lang, nullable_iff a, nullable_iff b]
  | .seq a b => by
    simp only [RE.nullable, RE.lang, Bool.and_eq_true, nullable_iff a, nullable_iff b]
    constructor
    · rintro ⟨h1, h2⟩; exact ⟨[], [], rfl, h1, h2⟩
    · rintro ⟨u, v, h, h1, h2⟩
      have := List.append_eq_nil_iff.1 h.symm
      rw [this.1] at h1; rw [this.2] at h2
      exact ⟨h1, h2⟩
  | .star a => by simp only [RE.nullable, RE.lang, true_iff]; exact .nil

theorem isVoid_iff : ∀ r : RE, RE.isVoid r = true ↔ ∀ w, ¬ r.lang w
  | .void => by simp [RE.isVoid, RE.lang]
  | .eps => by simp [RE.isVoid, RE.lang]
  | .tok t => by simp [RE.isVoid, RE.lang]
  | .alt a b => by
    simp only [RE.isVoid, RE.lang, Bool.and_eq_true, isVoid_iff a, isVoid_iff b]
    constructor
    · rintro ⟨h1, h2⟩ w (h | h)
      · exact h1 w h
      · exact h2 w h
    · intro h; exact ⟨fun w hw => h w (Or.inl hw), fun w hw => h w (Or.inr hw)⟩
  | .seq a b => by
    simp only [RE.isVoid, RE.lang, Bool.or_eq_true, isVoid_iff a, isVoid_iff b]
    constructor
    · rintro (h | h) w ⟨u, v, _, h1, h2⟩
      · exact h u h1
      · exact h v h2
    · intro h
      apply Classical.byContradiction
      intro hn
      simp only [not_or, Classical.not_forall, Classical.not_not] at hn
      obtain ⟨⟨u, hu⟩, v, hv⟩ := hn
      exact h (u ++ v) ⟨u, v, rfl, hu, hv⟩
  | .star a => by
    simp only [RE.isVoid, RE.lang, Bool.false_eq_true, false_iff]
    intro h; exact h [] .nil

theorem star_cons {P : List Stag → Prop} {t : Stag} {w : List Stag} :
    Star P (t :: w) ↔ ∃ u v, w = u ++ v ∧ P (t :: u) ∧ Star P v := by
  constructor
  · intro h
    generalize hx : t :: w = x at h
    induction h with
    | nil => cases hx
    | @cons u v hu hv ih =>
      cases u with
      | nil => exact ih (by simpa using hx)
      | cons s u =>
        simp only [List.cons_append, List.cons.injEq] at hx
        obtain ⟨rfl, rfl⟩ := hx
        exact ⟨u, v, rfl, hu, hv⟩
  · rintro ⟨u, v, rfl, h1, h2⟩
    exact Star.cons (u := t :: u) h1 h2

theorem deriv_iff (t : Stag) : ∀ (r : RE) (w : List Stag), (RE.deriv t r).lang w ↔ r.lang (t :: w)
  | .void, w => by simp [RE.deriv, RE.lang]
  | .eps, w => by simp [RE.deriv, RE.lang]
  | .tok t', w => by
    unfold RE.deriv
    by_cases h : t = t'
    · subst h; simp [RE.lang]
    · simp [h, RE.lang]
  | .alt a b, w => by simp only [RE.deriv, RE.lang, deriv_iff t a, deriv_iff t b]
  | .seq a b, w => by
    have key : (RE.seq (RE.deriv t a) b).lang w ↔ ∃ u v, w = u ++ v ∧ a.lang (t :: u) ∧ b.lang v := by
      simp only [RE.lang, deriv_iff t a]
    unfold RE.deriv
    split
    · rename_i hn
      rw [nullable_iff] at hn
      show (RE.seq (RE.deriv t a) b).lang w ∨ (RE.deriv t b).lang w ↔ _
      rw [key, deriv_iff t b]
      constructor
      · rintro (⟨u, v, rfl, h1, h2⟩ | h)
        · exact ⟨t :: u, v, rfl, h1, h2⟩
        · exact ⟨[], t :: w, rfl, hn, h⟩
      · rintro ⟨u, v, h, h1, h2⟩
        cases u with
        | nil => right; simp at h; rw [h]; exact h2
        | cons s u =>
          simp only [List.cons_append, List.cons.injEq] at h
          obtain ⟨rfl, rfl⟩ := h
          exact Or.inl ⟨u, v, rfl, h1, h2⟩
    · rename_i hn
      rw [nullable_iff] at hn
      rw [key]
      constructor
      · rintro ⟨u, v, rfl, h1, h2⟩; exact ⟨t :: u, v, rfl, h1, h2⟩
      · rintro ⟨u, v, h, h1, h2⟩
        cases u with
        | nil => exact absurd h1 hn
        | cons s u =>
          simp only [List.cons_append, List.cons.injEq] at h
          obtain ⟨rfl, rfl⟩ := h
          exact ⟨u, v, rfl, h1, h2⟩
  | .star a, w => by
    show (∃ u v, w = u ++ v ∧ (RE.deriv t a).lang u ∧ Star a.lang v) ↔ Star a.lang (t :: w)
    rw [star_cons]
    simp only [deriv_iff t a]

/-- The state after a word. -/
def Dfa.run (A : Dfa) : A.σ → List Stag → Option A.σ
  | s, [] => some s
  | s, t :: w => match A.step s t with
    | none => none
    | some s' => A.run s' w

/-- An automaton for a language: it stops as soon as the words cannot be completed, and accepts the words of the
language. -/
structure Recognises (A : Dfa) (L : List Stag → Prop) : Prop where
  jam : ∀ w, A.run A.init w = none ↔ ¬ Beginning L w
  acc : ∀ w s, A.run A.init w = some s → (A.acc s = true ↔ L w)

/-- The automaton whose states are the regular expressions for what can still come. -/
def derivDfa (r : RE) : Dfa where
  σ := RE
  init := r
  step := fun s t => if RE.isVoid (RE.deriv t s) then none else some (RE.deriv t s)
  acc := RE.nullable

/-- The expression for what can come after a word. -/
def derivRun : RE → List Stag → Option RE
  | r, [] => some r
  | r, t :: w => if RE.isVoid (RE.deriv t r) then none else derivRun (RE.deriv t r) w

theorem derivDfa_run (r0 : RE) : ∀ (w : List Stag) (r : RE), (derivDfa r0).run r w = derivRun r w
  | [], r => rfl
  | t :: w, r => by
    have hs : (derivDfa r0).step r t = if RE.isVoid (RE.deriv t r) then none else some (RE.deriv t r) := rfl
    have hu : ∀ (A : Dfa) (s : A.σ), A.run s (t :: w) =
      (A.step s t).bind (fun s' => A.run s' w) := by
      intro A s
      rw [Dfa.run]
      cases A.step s t <;> rfl
    refine (hu (derivDfa r0) r).trans ?_
    rw [hs]
    unfold derivRun
    by_cases h : RE.isVoid (RE.deriv t r) = true
    · rw [if_pos h, if_pos h]; rfl
    · rw [if_neg h, if_neg h]; exact derivDfa_run r0 w _

theorem derivRun_spec : ∀ (w : List Stag) (r : RE),
    (derivRun r w = none → ¬ Beginning r.lang w) ∧
    ∀ s, derivRun r w = some s → (∀ c, s.lang c ↔ r.lang (w ++ c)) ∧ (w ≠ [] → RE.isVoid s = false)
  | [], r => by
    refine ⟨fun h => by simp [derivRun] at h, fun s h => ?_⟩
    simp only [derivRun, Option.some.injEq] at h
    subst h
    exact ⟨fun c => Iff.rfl, fun h => absurd rfl h⟩
  | t :: w, r => by
    obtain ⟨h1, h2⟩ := derivRun_spec w (RE.deriv t r)
    unfold derivRun
    by_cases hv : RE.isVoid (RE.deriv t r) = true
    · rw [if_pos hv]
      refine ⟨fun _ => ?_, fun s h => by cases h⟩
      rintro ⟨c, hc⟩
      rw [List.cons_append, ← deriv_iff] at hc
      exact (isVoid_iff _).1 hv _ hc
    · rw [if_neg hv]
      refine ⟨fun h => ?_, fun s h => ?_⟩
      · rintro ⟨c, hc⟩
        rw [List.cons_append, ← deriv_iff] at hc
        exact h1 h ⟨c, hc⟩
      · obtain ⟨h3, h4⟩ := h2 s h
        refine ⟨fun c => by rw [h3, deriv_iff]; rfl, fun _ => ?_⟩
        cases w with
        | nil =>
          simp only [derivRun, Option.some.injEq] at h
          rw [← h]; simpa using hv
        | cons t' w => exact h4 (by simp)

theorem derivDfa_recognises (r : RE) (h0 : RE.isVoid r = false) : Recognises (derivDfa r) r.lang := by
  constructor
  · intro w
    have e : (derivDfa r).run (derivDfa r).init w = derivRun r w := derivDfa_run r w r
    rw [e]
    refine ⟨(derivRun_spec w r).1, fun h => ?_⟩
    cases hr : derivRun r w with
    | none => rfl
    | some s =>
      exfalso
      obtain ⟨h1, h2⟩ := (derivRun_spec w r).2 s hr
      have hv : RE.isVoid s = false := by
        cases w with
        | nil => simp only [derivRun, Option.some.injEq] at hr; rw [← hr]; exact h0
        | cons t w => exact h2 (by simp)
      have : ¬ ∀ c, ¬ RE.lang s c := by
        intro hc
        rw [(isVoid_iff s).2 hc] at hv
        cases hv
      apply this
      intro c hc
      exact h ⟨c, (h1 c).1 hc⟩
  · intro w s hr
    have hr' : derivRun r w = some s := (derivDfa_run r w r).symm.trans hr
    obtain ⟨h1, _⟩ := (derivRun_spec w r).2 s hr'
    have := nullable_iff s
    rw [h1 [], List.append_nil] at this
    exact this

/-- The automaton of `stag_nfa.in`. -/
def stagDfa : Dfa := derivDfa tenseRE

theorem stagDfa_recognises : Recognises stagDfa tenseRE.lang := derivDfa_recognises _ (by decide)

theorem tense_not_nil : ¬ tenseRE.lang [] := by
  rw [← nullable_iff]; decide

/-! ## Reading tokens -/

theorem stagTok_iff (t : Tok) (s : Stag) : stagTok t = some s ↔ Reads t s := by
  constructor
  · intro h
    cases t with
    | cmavo sel w =>
      refine Or.inl ⟨sel, w, ?_, rfl⟩
      cases sel <;> simp [stagTok, mapStag] at h <;> subst h <;> rfl
    | bu w => simp [stagTok] at h; exact Or.inr ⟨h.symm, w, rfl⟩
    | _ => simp [stagTok] at h
  · rintro (⟨sel, w, h, rfl⟩ | ⟨rfl, w, rfl⟩)
    · cases s <;> simp [selOf] at h <;> subst h <;> rfl
    · rfl

theorem readsAll_unique : ∀ {ts : List Tok} {w w' : List Stag}, ReadsAll ts w → ReadsAll ts w' → w = w'
  | [], _, _, .nil, .nil => rfl
  | t :: ts, _, _, .cons h1 h2, .cons h1' h2' => by
    rw [← stagTok_iff] at h1 h1'
    rw [h1] at h1'
    cases h1'
    rw [readsAll_unique h2 h2']

theorem readsAll_append : ∀ {a b : List Tok} {w : List Stag}, ReadsAll (a ++ b) w ↔
    ∃ u v, w = u ++ v ∧ ReadsAll a u ∧ ReadsAll b v
  | [], b, w => by
    constructor
    · intro h; exact ⟨[], w, rfl, .nil, h⟩
    · rintro ⟨u, v, rfl, h1, h2⟩; cases h1; exact h2
  | t :: a, b, w => by
    constructor
    · intro h
      cases h with
      | cons h1 h2 =>
        obtain ⟨u, v, rfl, h3, h4⟩ := readsAll_append.1 h2
        exact ⟨_, v, rfl, .cons h1 h3, h4⟩
    · rintro ⟨u, v, rfl, h1, h2⟩
      cases h1 with
      | cons h3 h4 => exact .cons h3 (readsAll_append.2 ⟨_, v, rfl, h4, h2⟩)

theorem run_append_dfa (A : Dfa) : ∀ (s : A.σ) (u v : List Stag),
    A.run s (u ++ v) = (A.run s u).bind (fun s => A.run s v)
  | s, [], v => rfl
  | s, t :: u, v => by
    simp only [List.cons_append, Dfa.run]
    cases A.step s t with
    | none => rfl
    | some s' => exact run_append_dfa A s' u v

/-- What the inner loop finds. -/
theorem scan_spec {A : Dfa} {L : List Stag → Prop} (hA : Recognises A L) : ∀ (ys : List Tok) (u : List Stag)
    (s : A.σ) (n : Nat) (ok : Option Nat), A.run A.init u = some s →
    ∃ o, ((scan A s n ok ys = .jam o ∧ ¬ ∃ w, ReadsAll ys w ∧ Beginning L (u ++ w)) ∨
        (scan A s n ok ys = .atEnd o ∧ ∃ w, ReadsAll ys w ∧ Beginning L (u ++ w))) ∧
      ((o = ok ∧ ∀ g r w, ys = g ++ r → g ≠ [] → ReadsAll g w → ¬ L (u ++ w)) ∨
       (∃ g r w, ys = g ++ r ∧ g ≠ [] ∧ o = some (n + g.length) ∧ ReadsAll g w ∧ L (u ++ w) ∧
          ∀ g' r' w', r = g' ++ r' → g' ≠ [] → ReadsAll (g ++ g') w' → ¬ L (u ++ w')))
  | [], u, s, n, ok, hu => by
    refine ⟨ok, Or.inr ⟨rfl, [], .nil, ?_⟩, Or.inl ⟨rfl, ?_⟩⟩
    · apply Classical.byContradiction
      intro h
      rw [List.append_nil, ← hA.jam, hu] at h
      cases h
    · intro g r w h hg
      exact absurd (List.append_eq_nil_iff.1 h.symm).1 hg
  | y :: ys, u, s, n, ok, hu => by
    -- nothing fits at all
    have fail : (∀ t, Reads y t → ¬ Beginning L (u ++ [t])) → scan A s n ok (y :: ys) = .jam ok →
        ∃ o, ((scan A s n ok (y :: ys) = .jam o ∧ ¬ ∃ w, ReadsAll (y :: ys) w ∧ Beginning L (u ++ w)) ∨
        (scan A s n ok (y :: ys) = .atEnd o ∧ ∃ w, ReadsAll (y :: ys) w ∧ Beginning L (u ++ w))) ∧
      ((o = ok ∧ ∀ g r w, y :: ys = g ++ r → g ≠ [] → ReadsAll g w → ¬ L (u ++ w)) ∨
       (∃ g r w, y :: ys = g ++ r ∧ g ≠ [] ∧ o = some (n + g.length) ∧ ReadsAll g w ∧ L (u ++ w) ∧
          ∀ g' r' w', r = g' ++ r' → g' ≠ [] → ReadsAll (g ++ g') w' → ¬ L (u ++ w'))) := by
      intro hno hs
      refine ⟨ok, Or.inl ⟨hs, ?_⟩, Or.inl ⟨rfl, ?_⟩⟩
      · rintro ⟨w, hw, c, hc⟩
        cases hw with
        | @cons _ t _ w h1 h2 => exact hno t h1 ⟨w ++ c, by simpa using hc⟩
      · intro g r w hg hne hw hL
        cases hw with
        | nil => exact hne rfl
        | @cons y' t g' w h1 h2 =>
          simp only [List.cons_append, List.cons.injEq] at hg
          obtain ⟨rfl, _⟩ := hg
          exact hno t h1 ⟨w, by simpa using hL⟩
    cases ht : stagTok y with
    | none =>
      apply fail
      · intro t h; rw [← stagTok_iff, ht] at h; cases h
      · simp [scan, ht]
    | some t =>
      have hrun1 : A.run A.init (u ++ [t]) = A.step s t := by
        rw [run_append_dfa, hu]
        simp only [Option.bind_some, Dfa.run]
        cases A.step s t <;> rfl
      have huniq : ∀ t', Reads y t' → t' = t := by
        intro t' h; rw [← stagTok_iff, ht] at h; exact (Option.some.inj h).symm
      cases hst : A.step s t with
      | none =>
        apply fail
        · intro t' h
          rw [huniq t' h, ← hA.jam, hrun1, hst]
        · simp [scan, ht, hst]
      | some s' =>
        have hacc := hA.acc (u ++ [t]) s' (by rw [hrun1, hst])
        obtain ⟨o, h1, h2⟩ := scan_spec hA ys (u ++ [t]) s' (n + 1) (if A.acc s' then some (n + 1) else ok)
          (by rw [hrun1, hst])
        have hscan : scan A s n ok (y :: ys) =
            scan A s' (n + 1) (if A.acc s' then some (n + 1) else ok) ys := by
          simp [scan, ht, hst]
        have hy : Reads y t := (stagTok_iff y t).1 ht
        refine ⟨o, ?_, ?_⟩
        · rw [hscan]
          have hiff : (∃ w, ReadsAll (y :: ys) w ∧ Beginning L (u ++ w)) ↔
              ∃ w, ReadsAll ys w ∧ Beginning L (u ++ [t] ++ w) := by
            constructor
            · rintro ⟨w, hw, hb⟩
              cases hw with
              | @cons _ t' _ w h3 h4 =>
                have := huniq t' h3
                subst this
                exact ⟨w, h4, by simpa using hb⟩
            · rintro ⟨w, hw, hb⟩
              exact ⟨t :: w, .cons hy hw, by simpa using hb⟩
          rw [hiff]; exact h1
        · rcases h2 with ⟨ho, hnone⟩ | ⟨g, r, w, hg, hne, ho, hw, hL, hmax⟩
          · by_cases ha : A.acc s' = true
            · -- the token itself completes a word
              right
              refine ⟨[y], ys, [t], rfl, by simp, ?_, .cons hy .nil, hacc.1 ha, ?_⟩
              · rw [ho, if_pos ha]; rfl
              · intro g' r' w' hr' hne' hw' hL'
                cases hw' with
                | @cons _ t' _ w' h3 h4 =>
                  have := huniq t' h3
                  subst this
                  exact hnone g' r' w' hr' hne' h4 (by simpa using hL')
            · left
              refine ⟨by rw [ho, if_neg ha], ?_⟩
              intro g r w hg hne hw hL
              cases hw with
              | nil => exact hne rfl
              | @cons y' t' g' w h3 h4 =>
                simp only [List.cons_append, List.cons.injEq] at hg
                obtain ⟨rfl, hys⟩ := hg
                have := huniq t' h3
                subst this
                cases g' with
                | nil => cases h4; exact ha (hacc.2 hL)
                | cons z g' => exact hnone (z :: g') r w hys (by simp) h4 (by simpa using hL)
          · right
            refine ⟨y :: g, r, t :: w, by simp [hg], by simp, by rw [ho]; simp; omega, .cons hy hw,
              by simpa using hL, ?_⟩
            intro g' r' w' hr' hne' hw' hL'
            cases hw' with
            | @cons _ t' _ w' h3 h4 =>
              have := huniq t' h3
              subst this
              exact hmax g' r' w' hr' hne' h4 (by simpa using hL')

/-- C33: marking tenses.  Every text is either marked from the left with the longest tense at each place, or the
pass dereferences a null pointer, and this happens exactly when marking arrives at a place where no
complete tense begins but the rest of the text is the beginning of one. -/
theorem tenses_spec {A : Dfa} {L : List Stag → Prop} (hA : Recognises A L) (ts : List Tok) :
    (∃ out, tenses A ts = .ok out ∧ Marked L ts out) ∨ (tenses A ts = .error .nullDeref ∧ Stuck L ts) := by
  have key : ∀ (n : Nat) (l r : List Tok), r.length < n →
      (∃ out, tenseLoop A n l r = .ok (l.reverse ++ out) ∧ Marked L r out) ∨
      (tenseLoop A n l r = .error .nullDeref ∧ Stuck L r) := by
    intro n
    induction n with
    | zero => intro l r h; omega
    | succ n ih =>
      intro l r h
      cases r with
      | nil => exact Or.inl ⟨[], by simp [tenseLoop], .nil⟩
      | cons x r =>
        by_cases hinit : Beginning L []
        · have hrun : A.run A.init [] = some A.init := rfl
          obtain ⟨o, h1, h2⟩ := scan_spec hA (x :: r) [] A.init 0 none hrun
          simp only [List.nil_append] at h1 h2
          have hnh : (∀ g r' w, x :: r = g ++ r' → g ≠ [] → ReadsAll g w → ¬ L w) → NoneHere L (x :: r) :=
            fun hh g r' hg hne ⟨w, hw, hL⟩ => hh g r' w hg hne hw hL
          -- a tense was found
          have found : ∀ g r' w, x :: r = g ++ r' → g ≠ [] → ReadsAll g w → L w →
              (∀ g' r'' w', r' = g' ++ r'' → g' ≠ [] → ReadsAll (g ++ g') w' → ¬ L w') →
              (∃ out, tenseLoop A n (.marker .PRIVATE_END_TENSE :: (((x :: r).take g.length).reverse ++
                .marker .PRIVATE_START_TENSE :: l)) ((x :: r).drop g.length) = .ok (l.reverse ++ out) ∧
                Marked L (x :: r) out) ∨
              (tenseLoop A n (.marker .PRIVATE_END_TENSE :: (((x :: r).take g.length).reverse ++
                .marker .PRIVATE_START_TENSE :: l)) ((x :: r).drop g.length) = .error .nullDeref ∧
                Stuck L (x :: r)) := by
            intro g r' w hg hne hw hL hmax
            have hlong : Longest L g r' := ⟨hne, ⟨w, hw, hL⟩, fun g' r'' hr hne' ⟨w', hw', hL'⟩ =>
              hmax g' r'' w' hr hne' hw' hL'⟩
            rw [hg, List.take_left' rfl, List.drop_left' rfl]
            have hlen := congrArg List.length hg
            have hpos : 0 < g.length := List.length_pos_iff.2 hne
            simp at hlen h
            rcases ih (.marker .PRIVATE_END_TENSE :: (g.reverse ++ .marker .PRIVATE_START_TENSE :: l)) r'
                (by omega) with ⟨out, h3, h4⟩ | ⟨h3, h4⟩
            · exact Or.inl ⟨_, by rw [h3]; simp, .tense hlong h4⟩
            · exact Or.inr ⟨h3, .tense hlong h4⟩
          simp only [List.length_cons] at h
          rcases h1 with ⟨hs, hb⟩ | ⟨hs, hb⟩
          · rcases h2 with ⟨rfl, hno⟩ | ⟨g, r', w, hg, hne, rfl, hw, hL, hmax⟩
            · simp only [tenseLoop, hs]
              have hnb : ¬ In (Beginning L) (x :: r) := fun ⟨w, hw, hb'⟩ => hb ⟨w, hw, hb'⟩
              rcases ih (x :: l) r (by omega) with ⟨out, h3, h4⟩ | ⟨h3, h4⟩
              · exact Or.inl ⟨x :: out, by rw [h3]; simp, .plain (hnh hno) hnb h4⟩
              · exact Or.inr ⟨h3, .plain (hnh hno) h4⟩
            · simp only [tenseLoop, hs, Nat.zero_add]
              exact found g r' w hg hne hw hL hmax
          · rcases h2 with ⟨rfl, hno⟩ | ⟨g, r', w, hg, hne, rfl, hw, hL, hmax⟩
            · simp only [tenseLoop, hs]
              exact Or.inr ⟨trivial, .here (hnh hno) hb⟩
            · simp only [tenseLoop, hs, Nat.zero_add]
              exact found g r' w hg hne hw hL hmax
        · have := (hA.jam []).2 hinit
          simp [Dfa.run] at this
  rcases key (ts.length + 1) [] ts (Nat.lt_succ_self _) with ⟨out, h1, h2⟩ | h
  · exact Or.inl ⟨out, by simpa [tenses] using h1, h2⟩
  · exact Or.inr h

theorem longest_unique {L : List Stag → Prop} {g r g' r' : List Tok} (h : Longest L g r) (h' : Longest L g' r')
    (e : g ++ r = g' ++ r') : g = g' ∧ r = r' := by
  rcases List.append_eq_append_iff.1 e with ⟨x, h1, h2⟩ | ⟨x, h1, h2⟩
  · cases x with
    | nil => simp at h1 h2; exact ⟨h1.symm, h2⟩
    | cons t x => exact absurd (h1 ▸ h'.2.1) (h.2.2 _ _ h2 (by simp))
  · cases x with
    | nil => simp at h1 h2; exact ⟨h1, h2.symm⟩
    | cons t x => exact absurd (h1 ▸ h.2.1) (h'.2.2 _ _ h2 (by simp))

theorem noneHere_longest {L : List Stag → Prop} {ts g r : List Tok} (h : NoneHere L ts) (h' : Longest L g r) :
    ts ≠ g ++ r := fun e => h g r e h'.1 h'.2.1

/-- The marked text is determined, and a text that can be marked is not stuck. -/
theorem marked_unique {L : List Stag → Prop} : ∀ {ts o : List Tok}, Marked L ts o →
    (∀ o', Marked L ts o' → o = o') ∧ ¬ Stuck L ts := by
  intro ts o h
  induction h with
  | nil =>
    refine ⟨?_, ?_⟩
    · intro o' h'
      generalize hx : ([] : List Tok) = t at h'
      cases h' with
      | nil => rfl
      | plain => cases hx
      | tense hl _ => exact absurd (List.append_eq_nil_iff.1 hx.symm).1 hl.1
    · intro h'
      generalize hx : ([] : List Tok) = t at h'
      cases h' with
      | here => cases hx
      | plain => cases hx
      | tense hl _ => exact absurd (List.append_eq_nil_iff.1 hx.symm).1 hl.1
  | @plain x r o hn hb hm ih =>
    refine ⟨?_, ?_⟩
    · intro o' h'
      generalize hx : x :: r = t at h'
      cases h' with
      | nil => cases hx
      | plain _ _ h2 => cases hx; rw [ih.1 _ h2]
      | tense hl _ => exact absurd hx (noneHere_longest hn hl)
    · intro h'
      generalize hx : x :: r = t at h'
      cases h' with
      | here _ h2 => cases hx; exact hb h2
      | plain _ h2 => cases hx; exact ih.2 h2
      | tense hl _ => exact absurd hx (noneHere_longest hn hl)
  | @tense g r o hl hm ih =>
    refine ⟨?_, ?_⟩
    · intro o' h'
      generalize hx : g ++ r = t at h'
      cases h' with
      | nil => exact absurd (List.append_eq_nil_iff.1 hx).1 hl.1
      | plain hn _ _ => exact absurd hx.symm (noneHere_longest hn hl)
      | tense hl' h2 =>
        obtain ⟨rfl, rfl⟩ := longest_unique hl hl' hx
        rw [ih.1 _ h2]
    · intro h'
      generalize hx : g ++ r = t at h'
      cases h' with
      | here hn _ => exact absurd hx.symm (noneHere_longest hn hl)
      | plain hn _ => exact absurd hx.symm (noneHere_longest hn hl)
      | tense hl' h2 =>
        obtain ⟨rfl, rfl⟩ := longest_unique hl hl' hx
        exact ih.2 h2

/-- C33: the null dereference happens exactly for the stuck texts. -/
theorem tenses_crash_iff {A : Dfa} {L : List Stag → Prop} (hA : Recognises A L) (ts : List Tok) :
    tenses A ts = .error .nullDeref ↔ Stuck L ts := by
  rcases tenses_spec hA ts with ⟨out, h, hm⟩ | ⟨h, hs⟩
  · rw [h]
    exact iff_of_false (fun h => by cases h) (marked_unique hm).2
  · exact iff_of_true h hs

/-- The text before a word that cannot be in a tense does not matter. -/
theorem stuck_after {L : List Stag → Prop} {t : Tok} (ht : stagTok t = none) {r : List Tok} (hr : Stuck L r) :
    ∀ (n : Nat) (a : List Tok), a.length ≤ n → Stuck L (a ++ t :: r) := by
  have hin : ∀ (P : List Stag → Prop) (g b : List Tok), t ∈ g → ¬ In P g := by
    rintro P g b hg ⟨w, hw, hP⟩
    clear b hP
    induction hw with
    | nil => simp at hg
    | @cons y s ts w h1 h2 ih =>
      replace hg := List.mem_cons.1 hg
      rcases hg with rfl | hg
      · rw [← stagTok_iff, ht] at h1; cases h1
      · exact ih hg
  intro n
  induction n with
  | zero =>
    intro a ha
    have : a = [] := List.length_eq_zero_iff.1 (by omega)
    subst this
    refine .plain ?_ hr
    intro g r' e hne
    cases g with
    | nil => exact absurd rfl hne
    | cons y g => simp at e; exact hin _ _ [] (by simp [e.1])
  | succ n ih =>
    intro a ha
    -- either no tense begins here or there is a longest one
    by_cases hnone : NoneHere L (a ++ t :: r)
    · cases a with
      | nil => exact ih [] (by simp)
      | cons x a => exact .plain hnone (ih a (by simp at ha; omega))
    · have hex : ∃ g r', a ++ t :: r = g ++ r' ∧ g ≠ [] ∧ In L g := by
        apply Classical.byContradiction
        intro h
        apply hnone
        intro g r' e hne hg
        exact h ⟨g, r', e, hne, hg⟩
      -- the longest one, by the length of what remains
      have hmax : ∀ (k : Nat) (g r' : List Tok), r'.length ≤ k → a ++ t :: r = g ++ r' → g ≠ [] → In L g →
          ∃ g r', a ++ t :: r = g ++ r' ∧ Longest L g r' := by
        intro k
        induction k with
        | zero =>
          intro g r' hk e hne hg
          have : r' = [] := List.length_eq_zero_iff.1 (by omega)
          subst this
          exact ⟨g, [], e, hne, hg, fun g' r'' h hne' => absurd (List.append_eq_nil_iff.1 h.symm).1 hne'⟩
        | succ k ihk =>
          intro g r' hk e hne hg
          by_cases hl : ∃ g' r'', r' = g' ++ r'' ∧ g' ≠ [] ∧ In L (g ++ g')
          · obtain ⟨g', r'', rfl, hne', hg'⟩ := hl
            have := List.length_pos_iff.2 hne'
            exact ihk (g ++ g') r'' (by simp at hk; omega) (by simp [e]) (by simp [hne]) hg'
          · exact ⟨g, r', e, hne, hg, fun g' r'' h hne' hg' => hl ⟨g', r'', h, hne', hg'⟩⟩
      obtain ⟨g, r', e, hne, hg⟩ := hex
      obtain ⟨g, r', e, hl⟩ := hmax _ g r' (Nat.le_refl _) e hne hg
      rcases List.append_eq_append_iff.1 e with ⟨x, h1, h2⟩ | ⟨x, h1, h2⟩
      · cases x with
        | nil =>
          simp at h1 h2
          rw [e, ← h2]
          refine .tense (h2 ▸ hl) (ih [] (by simp))
        | cons y x =>
          simp only [List.cons_append, List.cons.injEq] at h2
          exact absurd hl.2.1 (hin _ _ [] (by rw [h1]; simp [← h2.1]))
      · rw [e, h2]
        have := List.length_pos_iff.2 hl.1
        refine .tense (h2 ▸ hl) (ih x ?_)
        rw [h1] at ha
        simp at ha
        omega

/-- C33: every text that ends in a number, after a word that cannot be in a tense (as in "li pa"), makes the
program dereference a null pointer. -/
theorem number_at_end_crashes (a : List Tok) (t : Tok) (ht : stagTok t = none) (w : Word) :
    tenses stagDfa (a ++ [t, .cmavo .PA w]) = .error .nullDeref := by
  rw [tenses_crash_iff stagDfa_recognises]
  refine stuck_after ht ?_ _ a (Nat.le_refl _)
  have hread : ReadsAll [.cmavo .PA w] [.PA] := .cons (Or.inl ⟨.PA, w, rfl, rfl⟩) .nil
  refine .here ?_ ⟨[.PA], hread, ?_⟩
  · intro g r e hne
    cases g with
    | nil => exact absurd rfl hne
    | cons y g =>
      simp only [List.cons_append, List.cons.injEq] at e
      obtain ⟨rfl, e2⟩ := e
      have := List.append_eq_nil_iff.1 e2.symm
      obtain ⟨rfl, rfl⟩ := this
      rintro ⟨w', hw', hL⟩
      rw [← readsAll_unique hread hw'] at hL
      rw [← deriv_iff, ← nullable_iff] at hL
      exact absurd hL (by decide +kernel)
  · refine ⟨[.ROI], ?_⟩
    show tenseRE.lang [.PA, .ROI]
    rw [← deriv_iff, ← deriv_iff, ← nullable_iff]
    decide +kernel

/-! ## Examples -/

/-- `mi pu zi klama`: the tense `pu zi` is marked whole, though `pu` alone is one. -/
example : tenses stagDfa [.cmavo .KOhA "mi".toList, .cmavo .PU "pu".toList, .cmavo .ZI "zi".toList,
      .brivla "klama".toList] =
    .ok [.cmavo .KOhA "mi".toList, .marker .PRIVATE_START_TENSE, .cmavo .PU "pu".toList, .cmavo .ZI "zi".toList,
      .marker .PRIVATE_END_TENSE, .brivla "klama".toList] := by decide +kernel

/-- `re do`: a number that is no tense, but not at the end. -/
example : tenses stagDfa [.cmavo .PA "re".toList, .cmavo .KOhA "do".toList] =
    .ok [.cmavo .PA "re".toList, .cmavo .KOhA "do".toList] := by decide +kernel

/-- `li pa`. -/
example : stagTok (.cmavo .LI "li".toList) = none ∧
    tenses stagDfa [.cmavo .LI "li".toList, .cmavo .PA "pa".toList] = .error .nullDeref := by
  constructor
  · rfl
  · decide +kernel

/-- `li pa roi`: the number is completed. -/
example : tenses stagDfa [.cmavo .LI "li".toList, .cmavo .PA "pa".toList, .cmavo .ROI "roi".toList] =
    .ok [.cmavo .LI "li".toList, .marker .PRIVATE_START_TENSE, .cmavo .PA "pa".toList, .cmavo .ROI "roi".toList,
      .marker .PRIVATE_END_TENSE] := by decide +kernel

end Jbo.Categ
