import Verif.TermsPlaceThm
/-!
# The gloss of a converted selbri is that of its first place
-/

namespace Jbo.Terms
open Spec

/-- No `jai` with a tag. -/
def NoTag (lc : List LC) : Prop := ∀ t u, LC.jaiTag t u ∉ lc

theorem convLoop_append {l m : List LC} (h : NoTag l) (f : Nat → Nat) :
    convLoop (l ++ m) f = ((convLoop m (convLoop l f).1).1, (convLoop l f).2 ++ (convLoop m (convLoop l f).1).2) := by
  induction l generalizing f with
  | nil => rfl
  | cons e l ih =>
    have ih := ih (fun t u hm => h t u (List.mem_cons_of_mem _ hm))
    cases e with
    | links es => simp only [List.cons_append, convLoop]; exact ih f
    | jai => simp only [List.cons_append, convLoop]; exact ih f
    | jaiTag t u => exact absurd (List.mem_cons_self ..) (h t u)
    | se c id => simp only [List.cons_append, convLoop]; rw [ih]

theorem nojais_mem {lc : List LC} (h : jais lc = 0) : ∀ e ∈ lc, e ≠ .jai ∧ ∀ t u, e ≠ .jaiTag t u := by
  induction lc with
  | nil => intro e he; cases he
  | cons x l ih =>
    intro e he
    rcases List.mem_cons.1 he with rfl | hm
    · cases e <;> simp only [jais, Nat.add_one_ne_zero] at h <;> exact ⟨by simp, by simp⟩
    · cases x <;> simp only [jais, Nat.add_one_ne_zero] at h <;> exact ih h e hm

theorem noTag_of {lc : List LC} (h : jais lc = 0) : NoTag lc.reverse :=
  fun t u hm => (nojais_mem h _ (List.mem_reverse.1 hm)).2 t u rfl

theorem nojai_of {lc : List LC} (h : jais lc = 0) : LC.jai ∉ lc := fun hm => (nojais_mem h _ hm).1 rfl

/-- The words of SE in a chain, from the inside outwards. -/
def seWords (lc : List LC) : List Nat :=
  (lc.filterMap (fun e => match e with
    | .se _ id => some id
    | _ => none)).reverse

theorem convLoop_spec {lc : List LC} (h : jais lc = 0) :
    (∀ k, target lc (.num k) = some (.ord ((convLoop lc.reverse id).1 k))) ∧
      (convLoop lc.reverse id).2 = (seWords lc).map .dontGloss := by
  induction lc with
  | nil => exact ⟨fun k => rfl, rfl⟩
  | cons e rest ih =>
    have hn := @noTag_of
    cases e with
    | links es =>
      have hr : jais rest = 0 := h
      obtain ⟨i1, i2⟩ := ih hr
      rw [List.reverse_cons, convLoop_append (hn hr)]
      simp only [convLoop, List.append_nil]
      refine ⟨i1, ?_⟩
      rw [i2]; rfl
    | se c id' =>
      have hr : jais rest = 0 := h
      obtain ⟨i1, i2⟩ := ih hr
      rw [List.reverse_cons, convLoop_append (hn hr)]
      simp only [convLoop]
      refine ⟨fun k => ?_, ?_⟩
      · simp only [target]
        rw [i1]
        congr 2
        unfold exchange
        by_cases h1 : k = 1
        · by_cases h2 : k = c
          · rw [if_pos h1, if_pos h2, ← h2, h1]
          · rw [if_pos h1, if_neg h2, if_pos h1]
        · rw [if_neg h1]
          by_cases h2 : k = c
          · rw [if_pos h2, if_pos h2]
          · rw [if_neg h2, if_neg h2, if_neg h1]
      · rw [i2]
        simp [seWords]
    | jai => simp [jais] at h
    | jaiTag t u => simp [jais] at h

/-- **The gloss follows the conversions**: it is that of the place which the selbri as it stands has first, and
just the words of SE lose their own gloss. -/
theorem conversion_exact {lc : List LC} (h : jais lc = 0) (node : Nat) :
    ∃ p, target lc (.num 1) = some (.ord p) ∧
      assignConversion lc node = (seWords lc).map .dontGloss ++ [.conv node p] := by
  obtain ⟨h1, h2⟩ := convLoop_spec h
  exact ⟨_, h1 1, by rw [assignConversion, h2]⟩

/-- With a tagged `jai`, the gloss is that of the selbri inside the innermost one. -/
theorem conversion_jai {outer inner : List LC} {t u : Nat} (h : jais inner = 0) (node : Nat) :
    ∃ p, target inner (.num 1) = some (.ord p) ∧
      assignConversion (outer ++ .jaiTag t u :: inner) node = (seWords inner).map .dontGloss ++ [.conv node p] := by
  obtain ⟨h1, h2⟩ := convLoop_spec h
  refine ⟨_, h1 1, ?_⟩
  have hn := noTag_of h
  rw [assignConversion, List.reverse_append, List.reverse_cons, List.append_assoc, convLoop_append hn]
  simp only [List.singleton_append, convLoop, List.append_nil]
  rw [h2]

/-- Label and gloss agree: the first bare sumti before the selbri gets the place that is glossed. -/
theorem conversion_label {lc : List LC} (hlc : ∀ e ∈ lc, e.Ok) (hn : entries lc = 0) (h : jais lc = 0) (hd : Head) (id node : Nat) :
    ∃ p l, assignPlaces [.pos id] [] lc hd = .ok [.label id l] ∧ l.jai = none ∧ l.pos = p ∧ l.head = hd ∧
      assignConversion lc node = (seWords lc).map .dontGloss ++ [.conv node p] := by
  obtain ⟨p, h1, h2⟩ := conversion_exact h node
  have hjai := nojai_of h
  obtain ⟨evs, s, e1, e2, e3, e4⟩ := labels_exact hlc (clean_of_nojai h) hjai (pre := [.pos id]) (post := [])
    (by simp [Entry.Ok]) (by simp) hd (by rw [hn]; simp) (by omega)
  have e5 : s = [(id, .ord p)] := by
    have hch : ∀ lc : List LC, entries lc = 0 → ∃ s0, Chained lc s0 [] ∧ s0 = [] := by
      intro lc hn
      induction lc with
      | nil => exact ⟨[], .nil, rfl⟩
      | cons x l ih =>
        cases x with
        | se c i => obtain ⟨s0, a, b⟩ := ih hn; exact ⟨s0, .se a, b⟩
        | jai => obtain ⟨s0, a, b⟩ := ih hn; exact ⟨s0, .jai a, b⟩
        | jaiTag t u => obtain ⟨s0, a, b⟩ := ih hn; exact ⟨s0, .jaiTag a, b⟩
        | links es =>
          simp only [entries] at hn
          obtain ⟨s0, a, b⟩ := ih (by omega)
          have : es = [] := List.length_eq_zero_iff.1 (by omega)
          subst this
          exact ⟨_, .links a .nil, by rw [b]; rfl⟩
    obtain ⟨s0, c1, c2⟩ := hch lc hn
    subst c2
    refine (e3 _ ⟨[], [], [some (.ord p)], [.ord p], [], _, c1, ?_, .nil, rfl⟩).symm
    exact .pos (k := 1) (Nat.le_refl 1) h1 (by simp [faTargets]) (fun j j1 j2 => by omega) .nil
  rw [e5] at e4
  cases evs with
  | nil => simp at e4
  | cons e evs =>
    cases evs with
    | cons e' evs => simp at e4
    | nil =>
      simp only [List.map_cons, List.map_nil, List.cons.injEq, and_true] at e4
      cases e with
      | label i l =>
        simp only [Ev.seen, Option.some.injEq, Prod.mk.injEq, Target.seen] at e4
        obtain ⟨rfl, rfl, e6⟩ := e4
        cases hj : l.jai with
        | none =>
          rw [hj] at e6
          simp only [Seen.ord.injEq] at e6
          exact ⟨p, l, e1, hj, e6, rfl, h2⟩
        | some q => rw [hj] at e6; simp at e6
      | conv a b => simp [Ev.seen] at e4
      | dontGloss a => simp [Ev.seen] at e4
      | brac a => simp [Ev.seen] at e4
      | done a => simp [Ev.seen] at e4
      | vectors a b c => simp [Ev.seen] at e4

/-- `se te klama`: the first place is x2, and `se`, `te` have no gloss. -/
example : assignConversion [.se 2 5, .se 3 6] 9 = [.dontGloss 6, .dontGloss 5, .conv 9 2] := rfl
example : target [.se 2 5, .se 3 6] (.num 1) = some (.ord 2) := rfl
example : jais [.se 2 5, .links [.pos 4], .se 3 6] = 0 := rfl
example : (∀ e ∈ [LC.se 2 5, .se 3 6], e.Ok) ∧ entries [LC.se 2 5, .se 3 6] = 0 ∧ jais [.se 2 5, .se 3 6] = 0 :=
  ⟨by simp [LC.Ok], rfl, rfl⟩
example : assignConversion [.se 2 5, .jaiTag 1 2, .se 3 6] 9 = [.dontGloss 6, .conv 9 3] := rfl

end Jbo.Terms
