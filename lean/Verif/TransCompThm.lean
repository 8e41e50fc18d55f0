import Verif.Trans
import Verif.TransSpec
import Verif.LujvoCanonThm

/-!
# Conversions permute places

Property C35: `split_into_comps` and `compute_tu2_conv`.
-/

namespace Jbo.Trans

open Jbo Jbo.TransSpec

/-! ## The specification -/

theorem exch_exch (k i : Nat) : exch k (exch k i) = i := by
  unfold exch
  split <;> split <;> (try split) <;> omega

theorem exch_range {k i : Nat} (hk : 1 ≤ k ∧ k ≤ 5) (hi : 1 ≤ i ∧ i ≤ 5) : 1 ≤ exch k i ∧ exch k i ≤ 5 := by
  unfold exch
  split <;> (try split) <;> omega

theorem placeOf_append (a b : List Nat) (i : Nat) : placeOf (a ++ b) i = placeOf b (placeOf a i) := by
  induction a generalizing i with
  | nil => rfl
  | cons k a ih => exact ih (exch k i)

/-- C35: the conversions in the opposite order undo a sequence of conversions. -/
theorem placeOf_inverse (ks : List Nat) (i : Nat) : placeOf ks.reverse (placeOf ks i) = i := by
  induction ks generalizing i with
  | nil => rfl
  | cons k ks ih =>
    rw [List.reverse_cons, placeOf_append]
    show placeOf [k] (placeOf ks.reverse (placeOf ks (exch k i))) = i
    rw [ih]
    exact exch_exch k i

/-- C35: the same conversion twice is none. -/
theorem placeOf_twice (a b : List Nat) (k i : Nat) : placeOf (a ++ k :: k :: b) i = placeOf (a ++ b) i := by
  rw [placeOf_append, placeOf_append]
  show placeOf b (exch k (exch k _)) = _
  rw [exch_exch]

theorem placeOf_range {ks : List Nat} (hk : ∀ k ∈ ks, 1 ≤ k ∧ k ≤ 5) {i : Nat} (hi : 1 ≤ i ∧ i ≤ 5) :
    1 ≤ placeOf ks i ∧ placeOf ks i ≤ 5 := by
  induction ks generalizing i with
  | nil => exact hi
  | cons k ks ih => exact ih (fun x hx => hk x (by simp [hx])) (exch_range (hk k (by simp)) hi)

theorem conv_cases {w : Word} {k : Nat} (h : Conv w = some k) :
    (w = ['s', 'e'] ∧ k = 2) ∨ (w = ['t', 'e'] ∧ k = 3) ∨ (w = ['v', 'e'] ∧ k = 4) ∨ (w = ['x', 'e'] ∧ k = 5) := by
  simp only [Conv, List.findSome?_cons, List.findSome?_nil] at h
  split at h
  · rename_i h'
    split at h' <;> simp_all
  · split at h
    · rename_i h'
      split at h' <;> simp_all
    · split at h
      · rename_i h'
        split at h' <;> simp_all
      · split at h
        · rename_i h'
          split at h' <;> simp_all
        · cases h

theorem conv_range {w : Word} {k : Nat} (h : Conv w = some k) : 2 ≤ k ∧ k ≤ 5 := by
  rcases conv_cases h with ⟨_, rfl⟩ | ⟨_, rfl⟩ | ⟨_, rfl⟩ | ⟨_, rfl⟩ <;> decide

/-- The places exchanged by the conversions of a component. -/
def convPlaces (ws : List Word) : List Nat := ws.filterMap Conv

theorem convPlaces_range (ws : List Word) : ∀ k ∈ convPlaces ws, 1 ≤ k ∧ k ≤ 5 := by
  intro k hk
  obtain ⟨w, _, h⟩ := List.mem_filterMap.1 hk
  have := conv_range h
  omega

/-- The array of places for a map. -/
def table (f : Nat → Nat) : List Nat := [f 1, f 2, f 3, f 4, f 5]

theorem table_exch (f : Nat → Nat) {k : Nat} (hk : 1 ≤ k ∧ k ≤ 5) : (table (fun i => f (exch k i))).Perm (table f) := by
  have : k = 1 ∨ k = 2 ∨ k = 3 ∨ k = 4 ∨ k = 5 := by omega
  rcases this with rfl | rfl | rfl | rfl | rfl <;>
    exact List.perm_iff_count.2 (fun a => by simp [table, exch, List.count_cons]; try omega)

/-- C35: the array of places is a permutation of the five places. -/
theorem table_perm {ks : List Nat} (hk : ∀ k ∈ ks, 1 ≤ k ∧ k ≤ 5) : (table (placeOf ks)).Perm [1, 2, 3, 4, 5] := by
  induction ks with
  | nil => exact List.Perm.refl _
  | cons k ks ih =>
    exact (table_exch (placeOf ks) (hk k (by simp))).trans (ih (fun x hx => hk x (by simp [hx])))

/-! ## Components -/

theorem convOf_conv (w : Word) : convOf w = (Conv w).getD 0 := by
  have e1 : "se".toList = ['s', 'e'] := rfl
  have e2 : "te".toList = ['t', 'e'] := rfl
  have e3 : "ve".toList = ['v', 'e'] := rfl
  have e4 : "xe".toList = ['x', 'e'] := rfl
  simp only [convOf, Conv, List.findSome?_cons, List.findSome?_nil, e1, e2, e3, e4]
  by_cases h1 : w = ['s', 'e']
  · simp [h1]
  · by_cases h2 : w = ['t', 'e']
    · simp [h2]
    · by_cases h3 : w = ['v', 'e']
      · simp [h3]
      · by_cases h4 : w = ['x', 'e']
        · simp [h4]
        · simp [h1, h2, h3, h4]

theorem exchange_table (f : Nat → Nat) {k : Nat} (hk : 2 ≤ k ∧ k ≤ 5) : exchange (table f) k = table (fun i => f (exch k i)) := by
  have : k = 2 ∨ k = 3 ∨ k = 4 ∨ k = 5 := by omega
  rcases this with rfl | rfl | rfl | rfl <;> rfl

/-- The component that the code makes of a group. -/
def toComp (g : Group) : Comp :=
  ⟨(join g.before).length, (join (g.before ++ g.convs)).length, g.base, table (placeOf (convPlaces g.convs))⟩

theorem join_snoc {a : List Word} (w : Word) (h : a ≠ []) : join (a ++ [w]) = join a ++ '+' :: w := by
  induction a with
  | nil => exact absurd rfl h
  | cons x a ih =>
    cases a with
    | nil => simp [join, List.intercalate, List.intersperse]
    | cons y a =>
      have := ih (by simp)
      simp only [join, List.intercalate, List.cons_append, List.intersperse, List.flatten_cons] at this ⊢
      rw [this]
      simp

theorem join_single (w : Word) : join [w] = w := by simp [join, List.intercalate, List.intersperse]

theorem takeWhile_plus {w rest : Word} (h : '+' ∉ w) :
    (w ++ '+' :: rest).takeWhile (· != '+') = w ∧ (w ++ '+' :: rest).dropWhile (· != '+') = '+' :: rest := by
  induction w with
  | nil => simp
  | cons c w ih =>
    have hc : c ≠ '+' := fun e => h (by simp [e])
    have := ih (fun e => h (by simp [e]))
    simp [List.takeWhile_cons, List.dropWhile_cons, hc, this]

theorem takeWhile_noplus {w : Word} (h : '+' ∉ w) : w.takeWhile (· != '+') = w ∧ w.dropWhile (· != '+') = [] := by
  induction w with
  | nil => simp
  | cons c w ih =>
    have hc : c ≠ '+' := fun e => h (by simp [e])
    have := ih (fun e => h (by simp [e]))
    simp [List.takeWhile_cons, List.dropWhile_cons, hc, this]

/-- A word that stands for itself. -/
def Plain (w : Word) : Prop := w ≠ [] ∧ '+' ∉ w

theorem splitLoop_cons {rev : Word} {comp : List Comp} (h : rev ≠ []) :
    splitLoop rev comp =
      (let q := (rev.takeWhile (· != '+')).reverse
       let rest := rev.dropWhile (· != '+')
       let p := rest.length - 1
       if 0 < convOf q then
         match comp with
         | [] => splitLoop rest.tail []
         | c :: cs => splitLoop rest.tail ({ c with places := exchange c.places (convOf q), start := p } :: cs)
       else if 32 < comp.length + 1 then .error .overflow
       else if 6 < q.length + 1 then .error .overflow
       else splitLoop rest.tail (⟨p, p, q, [1, 2, 3, 4, 5]⟩ :: comp)) := by
  obtain ⟨x, xs, rfl⟩ := List.exists_cons_of_ne_nil h
  rw [splitLoop.eq_def]
  cases comp <;> rfl

/-- One round for the last word. -/
theorem splitLoop_last {a : List Word} {w : Word} (hw : Plain w) (comp : List Comp) :
    splitLoop (join (a ++ [w])).reverse comp =
      (if 0 < convOf w then
         match comp with
         | [] => splitLoop (join a).reverse []
         | c :: cs => splitLoop (join a).reverse ({ c with places := exchange c.places (convOf w), start := (join a).length } :: cs)
       else if 32 < comp.length + 1 then .error .overflow
       else if 6 < w.length + 1 then .error .overflow
       else splitLoop (join a).reverse (⟨(join a).length, (join a).length, w, [1, 2, 3, 4, 5]⟩ :: comp)) := by
  have hw' : '+' ∉ w.reverse := by simpa using hw.2
  by_cases ha : a = []
  · subst ha
    rw [List.nil_append, join_single, splitLoop_cons (by simpa using hw.1)]
    dsimp only
    rw [(takeWhile_noplus hw').1, (takeWhile_noplus hw').2, List.reverse_reverse]
    rfl
  · rw [join_snoc w ha, List.reverse_append, List.reverse_cons, List.append_assoc, splitLoop_cons (by simp)]
    dsimp only
    rw [List.singleton_append, (takeWhile_plus hw').1, (takeWhile_plus hw').2, List.reverse_reverse]
    simp

theorem groupsAt_before {a ws : List Word} {g : Group} {gs} (h : groupsAt a ws = g :: gs) : g.before = a := by
  cases ws with
  | nil => cases h
  | cons w ws =>
    unfold groupsAt at h
    split at h
    · cases h; rfl
    · split at h
      · cases h
      · cases h; rfl

/-- Every word that is no conversion makes a component, and there are no others. -/
theorem groupsAt_base (a ws : List Word) : (groupsAt a ws).map Group.base = ws.filter (fun w => (Conv w).isNone) := by
  induction ws generalizing a with
  | nil => rfl
  | cons w ws ih =>
    have := ih (a ++ [w])
    rw [groupsAt]
    cases hc : Conv w with
    | none => simp [hc, this]
    | some k =>
      dsimp only
      rw [List.filter_cons_of_neg (by simp [hc]), ← this]
      cases groupsAt (a ++ [w]) ws <;> rfl

/-- The limits of the arrays. -/
def Fits (ws : List Word) : Prop :=
  (ws.filter (fun w => (Conv w).isNone)).length ≤ 32 ∧ ∀ w ∈ ws.filter (fun w => (Conv w).isNone), w.length ≤ 5

instance (ws) : Decidable (Fits ws) := by unfold Fits; infer_instance

theorem splitLoop_spec (n : Nat) : ∀ a r : List Word, a.length = n → (∀ w ∈ a, Plain w) → Fits r →
    splitLoop (join a).reverse ((groupsAt a r).map toComp) =
      if Fits (a ++ r) then .ok ((groupsAt [] (a ++ r)).map toComp) else .error .overflow := by
  induction n with
  | zero =>
    intro a r hn _ hr
    have : a = [] := List.length_eq_zero_iff.1 hn
    subst this
    rw [List.nil_append, if_pos hr]
    rw [show (join []).reverse = [] from rfl, splitLoop]
  | succ n ih =>
    intro a r hn ha hr
    obtain ⟨b, w, rfl⟩ : ∃ b w, a = b ++ [w] :=
      ⟨a.dropLast, a.getLast (by rintro rfl; simp at hn), (List.dropLast_concat_getLast _).symm⟩
    have hb : b.length = n := by simpa using hn
    have hpw : Plain w := ha w (by simp)
    have hpb : ∀ x ∈ b, Plain x := fun x hx => ha x (by simp [hx])
    rw [splitLoop_last hpw, convOf_conv]
    rw [List.append_assoc, List.singleton_append]
    cases hc : Conv w with
    | none =>
      rw [if_neg (by simp)]
      have hlen : ((groupsAt (b ++ [w]) r).map toComp).length = (r.filter (fun w => (Conv w).isNone)).length := by
        rw [← groupsAt_base (b ++ [w]) r, List.length_map, List.length_map]
      have hf : (w :: r).filter (fun w => (Conv w).isNone) = w :: r.filter (fun w => (Conv w).isNone) := by simp [hc]
      have hfit : Fits (w :: r) ↔ (r.filter (fun w => (Conv w).isNone)).length + 1 ≤ 32 ∧ w.length ≤ 5 := by
        unfold Fits
        rw [hf]
        constructor
        · rintro ⟨h1, h2⟩
          exact ⟨by simpa using h1, h2 w (by simp)⟩
        · rintro ⟨h1, h2⟩
          refine ⟨by simpa using h1, ?_⟩
          intro x hx
          rcases List.mem_cons.1 hx with rfl | hx
          · exact h2
          · exact hr.2 x hx
      have hbig : Fits (b ++ w :: r) → Fits (w :: r) := by
        rintro ⟨h1, h2⟩
        rw [List.filter_append] at h1 h2
        refine ⟨by simp at h1 ⊢; omega, fun x hx => h2 x (by simp [hx])⟩
      rw [hlen]
      by_cases h1 : 32 < (r.filter (fun w => (Conv w).isNone)).length + 1
      · rw [if_pos h1, if_neg]
        intro h
        have := (hfit.1 (hbig h)).1
        omega
      · rw [if_neg h1]
        by_cases h2 : 6 < w.length + 1
        · rw [if_pos h2, if_neg]
          intro h
          have := (hfit.1 (hbig h)).2
          omega
        · rw [if_neg h2, ← ih b (w :: r) hb hpb (hfit.2 ⟨by omega, by omega⟩)]
          rw [groupsAt, hc]
          simp [toComp, convPlaces, table, placeOf]
    | some k =>
      have hk := conv_range hc
      have hfit : Fits (w :: r) := by
        unfold Fits
        rw [List.filter_cons_of_neg (by simp [hc])]
        exact hr
      rw [if_pos (by simp; omega), ← ih b (w :: r) hb hpb hfit, groupsAt, hc]
      dsimp only
      cases hg : groupsAt (b ++ [w]) r with
      | nil => rfl
      | cons g gs =>
        have hbf := groupsAt_before hg
        rw [List.map_cons, List.map_cons]
        dsimp only [Option.getD_some]
        have : ({ toComp g with places := exchange (toComp g).places k, start := (join b).length } : Comp) =
            toComp ⟨b, w :: g.convs, g.base⟩ := by
          simp only [toComp, hbf, exchange_table _ hk]
          simp [convPlaces, hc, placeOf, table]
        rw [← this]

/-- C35: for every sequence of words, the components are the words that are no conversions, in order, each with the
conversions before it, the position of the first of them, and the places exchanged by them one after the other; the
arrays overflow exactly for more than 32 components or a component of more than five letters. -/
theorem splitComps_spec (ws : List Word) (h : ∀ w ∈ ws, Plain w) :
    splitComps (join ws) = if Fits ws then .ok ((groupsAt [] ws).map toComp) else .error .overflow := by
  have := splitLoop_spec ws.length ws [] rfl h (by simp [Fits])
  simpa [splitComps, groupsAt] using this

/-- `te+se+klama+ve+bridi`: two components. -/
example : splitComps "te+se+klama+ve+bridi".toList =
    .ok [⟨0, 5, "klama".toList, [3, 1, 2, 4, 5]⟩, ⟨11, 14, "bridi".toList, [4, 2, 3, 1, 5]⟩] := by decide +kernel

example : groupsAt [] ["te".toList, "se".toList, "klama".toList] =
    [⟨[], ["te".toList, "se".toList], "klama".toList⟩] := by decide

example : Fits ["te".toList, "se".toList, "klama".toList] ∧ ∀ w ∈ ["te".toList, "se".toList, "klama".toList], Plain w := by
  refine ⟨by decide, ?_⟩
  intro w hw
  simp at hw
  rcases hw with rfl | rfl | rfl <;> simp [Plain]

/-! ## Components of lujvo -/

theorem r2g_values : ∀ e ∈ Lujvo.r2g, e.2 ≠ [] ∧ e.2.length ≤ 5 ∧ '+' ∉ e.2 := by decide +kernel

theorem lookup_plain (x : Word) : Plain (Lujvo.lookupComponent x) ∧ (Lujvo.lookupComponent x).length ≤ 5 := by
  unfold Lujvo.lookupComponent
  split
  · rename_i e he
    have := r2g_values e (List.mem_of_find?_eq_some he)
    exact ⟨⟨this.1, this.2.2⟩, this.2.1⟩
  · simp [Plain]

theorem splitLujvo_plain (n : Nat) : ∀ {x : Word} {ws}, x.length ≤ n → '+' ∉ x → Lujvo.splitLujvo x = some ws →
    (∀ w ∈ ws, Plain w ∧ w.length ≤ 5) ∧ 3 * ws.length ≤ x.length := by
  induction n with
  | zero =>
    intro x ws hn _ h
    rw [Lujvo.splitLujvo.eq_def] at h
    dsimp only at h
    rw [dif_pos (by omega)] at h
    cases h
  | succ n ih =>
    intro x ws hn hp h
    rw [Lujvo.splitLujvo.eq_def] at h
    dsimp only at h
    by_cases h2 : x.length ≤ 2
    · rw [dif_pos h2] at h; cases h
    rw [dif_neg h2] at h
    by_cases h4 : x.length ≤ 4
    · rw [dif_pos h4] at h
      cases h
      refine ⟨?_, by simp; omega⟩
      intro w hw
      simp at hw
      subst hw
      exact lookup_plain x
    rw [dif_neg h4] at h
    by_cases h5 : x.length = 5
    · rw [dif_pos h5] at h
      cases h
      refine ⟨?_, by simp; omega⟩
      intro w hw
      simp at hw
      subst hw
      exact ⟨⟨by rintro rfl; simp at h5, hp⟩, by omega⟩
    rw [dif_neg h5] at h
    have key : ∀ {len hy : Nat}, 3 ≤ len → (Lujvo.splitLujvo (x.drop (len + hy))).map (fun r => Lujvo.lookupComponent (x.take len) :: r) = some ws →
        (∀ w ∈ ws, Plain w ∧ w.length ≤ 5) ∧ 3 * ws.length ≤ x.length := by
      intro len hy hl h
      obtain ⟨r, hr, rfl⟩ := Option.map_eq_some_iff.1 h
      have hd : (x.drop (len + hy)).length ≤ n := by rw [List.length_drop]; omega
      have hpd : '+' ∉ x.drop (len + hy) := fun h => hp (List.mem_of_mem_drop h)
      obtain ⟨k1, k2⟩ := ih hd hpd hr
      have hne : 2 < (x.drop (len + hy)).length := by
        apply Classical.byContradiction
        intro hlt
        rw [Lujvo.splitLujvo.eq_def] at hr
        dsimp only at hr
        rw [dif_pos (by omega)] at hr
        cases hr
      refine ⟨?_, ?_⟩
      · intro w hw
        rcases List.mem_cons.1 hw with rfl | hw
        · exact lookup_plain _
        · exact k1 w hw
      · simp at k2 hne ⊢
        omega
    by_cases c0 : (Lujvo.chr x 3 == 'y') = true
    · rw [if_pos c0] at h
      exact key (by omega) h
    rw [if_neg c0] at h
    by_cases c1 : (Lujvo.chr x 4 == 'y') = true
    · rw [if_pos c1] at h
      exact key (by omega) h
    rw [if_neg c1] at h
    by_cases c2 : (Lujvo.chr x 5 == 'y') = true
    · rw [if_pos c2] at h
      exact key (by omega) h
    rw [if_neg c2] at h
    by_cases c3 : (Lujvo.chr x 6 == 'y' && Lujvo.chr x 3 == '\'') = true
    · rw [if_pos c3] at h
      exact key (by omega) h
    rw [if_neg c3] at h
    by_cases d0 : (!Lujvo.cC (Lujvo.chr x 0)) = true
    · rw [if_pos d0] at h
      cases h
    rw [if_neg d0] at h
    by_cases d1 : (Lujvo.cC (Lujvo.chr x 1) && Lujvo.cV (Lujvo.chr x 2)) = true
    · rw [if_pos d1] at h
      exact key (by omega) h
    rw [if_neg d1] at h
    by_cases d2 : (Lujvo.cV (Lujvo.chr x 1) && Lujvo.cC (Lujvo.chr x 2)) = true
    · rw [if_pos d2] at h
      exact key (by omega) h
    rw [if_neg d2] at h
    by_cases d3 : Lujvo.cV (Lujvo.chr x 1) = true
    · rw [if_pos d3] at h
      by_cases d4 : (Lujvo.chr x 2 == '\'') = true
      · rw [if_pos d4] at h
        by_cases d5 : Lujvo.cV (Lujvo.chr x 3) = true
        · rw [if_pos d5] at h
          by_cases d6 : (Lujvo.chr x 4 == 'r' && Lujvo.cC (Lujvo.chr x 5) || Lujvo.chr x 4 == 'n' && Lujvo.chr x 5 == 'r') = true
          · rw [if_pos d6] at h
            exact key (by omega) h
          · rw [if_neg d6] at h
            exact key (by omega) h
        · rw [if_neg d5] at h
          cases h
      · rw [if_neg d4] at h
        by_cases d5 : Lujvo.cV (Lujvo.chr x 2) = true
        · rw [if_pos d5] at h
          by_cases d6 : (Lujvo.chr x 3 == 'r' && Lujvo.cC (Lujvo.chr x 4) || Lujvo.chr x 3 == 'n' && Lujvo.chr x 4 == 'r') = true
          · rw [if_pos d6] at h
            exact key (by omega) h
          · rw [if_neg d6] at h
            exact key (by omega) h
        · rw [if_neg d5] at h
          exact key (by omega) h
    · rw [if_neg d3] at h
      cases h

theorem joinPlus_join (ws : List Word) : Lujvo.joinPlus ws = join ws := by
  induction ws with
  | nil => rfl
  | cons a ws ih =>
    cases ws with
    | nil => simp [Lujvo.joinPlus, join_single]
    | cons b ws =>
      rw [Lujvo.joinPlus, ih]
      · simp [join, List.intercalate, List.intersperse]
      · simp

/-- The words of a canonical form. -/
theorem canon_words {w canon : Word} (hp : '+' ∉ w) (h : Lujvo.canonLujvo w = some canon) :
    ∃ ws, canon = join ws ∧ (∀ x ∈ ws, Plain x ∧ x.length ≤ 5) ∧ 3 * ws.length ≤ w.length := by
  unfold Lujvo.canonLujvo at h
  rw [if_neg (by simpa using hp)] at h
  split at h
  · obtain ⟨ws, hw, rfl⟩ := Option.map_eq_some_iff.1 h
    obtain ⟨h1, h2⟩ := splitLujvo_plain w.length (Nat.le_refl _) hp hw
    exact ⟨ws, joinPlus_join ws, h1, h2⟩
  · cases h

/-- C35: for a word of at most 98 letters the components fit. -/
theorem canon_fits {w canon : Word} (hp : '+' ∉ w) (hl : w.length ≤ 98) (h : Lujvo.canonLujvo w = some canon) :
    ∃ ws, canon = join ws ∧ (∀ x ∈ ws, Plain x) ∧ splitComps canon = .ok ((groupsAt [] ws).map toComp) := by
  obtain ⟨ws, rfl, h1, h2⟩ := canon_words hp h
  refine ⟨ws, rfl, fun x hx => (h1 x hx).1, ?_⟩
  rw [splitComps_spec ws (fun x hx => (h1 x hx).1), if_pos]
  refine ⟨?_, fun x hx => (h1 x (List.mem_filter.1 hx).1).2⟩
  have := List.length_filter_le (fun w => (Conv w).isNone) ws
  omega

/-- C35: a lujvo of 33 parts overflows the array of 32 components. -/
theorem many_parts_overflow : ∃ canon, Lujvo.canonLujvo (((List.replicate 32 "bak".toList).flatten) ++ "bakni".toList) = some canon ∧
    splitComps canon = .error .overflow := by
  refine ⟨join (List.replicate 33 "bakni".toList), by decide +kernel, ?_⟩
  rw [splitComps_spec]
  · rw [if_neg (by decide +kernel)]
  · intro w hw
    rw [List.eq_of_mem_replicate hw]
    simp [Plain]

/-! ## Walking outward in the tree -/

/-- A node lets conversions through. -/
def Through : Kind → List Op → Prop
  | .se w, os => ∃ k, Conv w = some k ∧ os = [.conv k]
  | .jai, os => os = [.jai]
  | .pass, os => os = []
  | .selbri3, os => os = []
  | .selbri4, os => os = []
  | .selbri2, _ => False
  | .other, _ => False

/-- The walk stops here. -/
def Stops : List Kind → Prop
  | .selbri2 :: _ => True
  | .selbri4 :: .selbri3 :: .selbri3 :: _ => True
  | _ => False

/-- The operators met on the way, from the inside to the outside. -/
inductive Met : List Kind → List Op → Prop
  | stop {up : List Kind} : Stops up → Met up []
  | step {k : Kind} {up : List Kind} {os os' : List Op} : ¬ Stops (k :: up) → Through k os → Met up os' → Met (k :: up) (os ++ os')

theorem converted_conv (w : Word) : convertedPlace w = Conv w := by
  have h := convOf_conv w
  unfold convOf at h
  unfold convertedPlace
  cases hc : Conv w with
  | none =>
    rw [hc] at h
    repeat' split at h
    all_goals simp_all
  | some k =>
    have := conv_range hc
    rw [hc] at h
    repeat' split at h
    all_goals simp_all
    omega

theorem jai_table (f : Nat → Nat) : (table f).set 0 0 = table (fun i => if i = 1 then 0 else f i) := rfl

/-- C35: the place that the code computes is the first place of the whole, followed through the operators met. -/
theorem walk_met {up : List Kind} {os : List Op} (h : Met up os) : ∀ inner : List Op,
    walk up (table (placeThrough inner)) = some (placeThrough (os.reverse ++ inner) 1) := by
  induction h with
  | @stop up h =>
    intro inner
    match up, h with
    | .selbri2 :: _, _ => rfl
    | .selbri4 :: .selbri3 :: .selbri3 :: _, _ => rfl
  | @step k up os os' hs ht hm ih =>
    intro inner
    have hne : up ≠ [] := by
      rintro rfl
      cases hm with
      | stop h => exact h
    cases k with
    | se w =>
      obtain ⟨p, hp, rfl⟩ := ht
      rw [walk, converted_conv, hp]
      dsimp only
      rw [exchange_table _ (conv_range hp)]
      have := ih (.conv p :: inner)
      simpa [placeThrough] using this
    | jai =>
      cases ht
      rw [walk, jai_table]
      have := ih (.jai :: inner)
      simpa [placeThrough] using this
    | pass =>
      cases ht
      rw [walk]
      exact ih inner
    | selbri3 =>
      cases ht
      rw [walk]
      exact ih inner
    | selbri4 =>
      cases ht
      have e : walk (.selbri4 :: up) (table (placeThrough inner)) = walk up (table (placeThrough inner)) := by
        rw [walk.eq_def]
        dsimp only
        split
        · exact absurd trivial hs
        · cases hm with
          | stop h => exact absurd h (by simp [Stops])
          | step _ _ hm => cases hm with
            | stop h => exact absurd h (by simp [Stops])
        · exact absurd rfl hne
        · rfl
      rw [e]
      exact ih inner
    | selbri2 => exact absurd ht (by simp [Through])
    | other => exact absurd ht (by simp [Through])

/-- C35: what `compute_tu2_conv` computes. -/
theorem tu2Conv_spec {up : List Kind} {os : List Op} (h : Met up os) : tu2Conv up = some (placeThrough os.reverse 1) := by
  have := walk_met h []
  simpa [placeThrough, table, tu2Conv] using this

/-- C35: when it computes something, the walk was of this form. -/
theorem tu2Conv_met {up : List Kind} {n : Nat} (h : tu2Conv up = some n) : ∃ os, Met up os := by
  have key : ∀ (up : List Kind) (ps : List Nat), walk up ps = some n → ∃ os, Met up os := by
    intro up
    induction up with
    | nil => intro ps h; cases h
    | cons k up ih =>
      intro ps h
      by_cases hs : Stops (k :: up)
      · exact ⟨[], .stop hs⟩
      cases k with
      | se w =>
        rw [walk, converted_conv] at h
        split at h
        · rename_i p hp
          obtain ⟨os, ho⟩ := ih _ h
          exact ⟨_, .step hs ⟨p, hp, rfl⟩ ho⟩
        · cases h
      | jai =>
        obtain ⟨os, ho⟩ := ih _ h
        exact ⟨_, .step hs rfl ho⟩
      | pass =>
        obtain ⟨os, ho⟩ := ih _ h
        exact ⟨_, .step hs rfl ho⟩
      | selbri3 =>
        obtain ⟨os, ho⟩ := ih _ h
        exact ⟨_, .step hs rfl ho⟩
      | selbri4 =>
        rw [walk.eq_def] at h
        dsimp only at h
        split at h
        · exact absurd trivial hs
        · cases h
        · cases h
        · obtain ⟨os, ho⟩ := ih _ h
          exact ⟨_, .step hs rfl ho⟩
      | selbri2 => exact absurd trivial hs
      | other => cases h
  exact key up _ h

/-- C35: without jai, the conversions alone decide. -/
theorem placeThrough_convs (ks : List Nat) (i : Nat) : placeThrough (ks.map .conv) i = placeOf ks i := by
  induction ks generalizing i with
  | nil => rfl
  | cons k ks ih => exact ih _

/-- `se` inside, `te` outside: the first place is the third of the word. -/
example : tu2Conv [.pass, .se "se".toList, .pass, .se "te".toList, .pass, .selbri4, .selbri3, .selbri2] = some 3 := by decide

example : Met [.pass, .se "se".toList, .pass, .selbri4, .selbri3, .selbri3] [.conv 2] :=
  .step (os := []) (by simp [Stops]) rfl (.step (os := [.conv 2]) (by simp [Stops]) ⟨2, by decide, rfl⟩
    (.step (os := []) (by simp [Stops]) rfl (.stop trivial)))

/-- jai outside: the first place is none of the word. -/
example : tu2Conv [.se "se".toList, .jai, .selbri2] = some 0 := by decide

end Jbo.Trans
