import Verif.TermsPlace
import Batteries.Data.List.Perm
import Mathlib.Data.List.Nodup
/-!
# Which place each sumti fills
-/

namespace Jbo.Terms
open Spec

/-- The linked terms of a chain. -/
def entries : List LC → Nat
  | [] => 0
  | .links es :: rest => entries rest + es.length
  | _ :: rest => entries rest

/-- The bare sumti among terms. -/
def bare : List Entry → Nat
  | [] => 0
  | .pos _ :: es => bare es + 1
  | _ :: es => bare es

theorem seated_length {T : Surf → Option Target} {F b es ts F'} (h : Seated T F b es ts F') : F'.length = F.length + bare es := by
  induction h with
  | nil => rfl
  | pos _ _ _ _ _ ih => rw [ih]; simp only [List.length_cons, bare]; omega
  | fa _ _ ih => exact ih
  | fai _ _ ih => exact ih
  | fiha _ ih => exact ih
  | tag _ ih => exact ih

theorem faTargets_length (T : Surf → Option Target) (es : List Entry) : (faTargets T es).length + bare es ≤ es.length := by
  induction es with
  | nil => simp [faTargets, bare]
  | cons e es ih =>
    unfold faTargets at *
    cases e with
    | fa p id =>
      simp only [List.filterMap_cons, bare, List.length_cons]
      split <;> (try simp only [List.length_cons]) <;> omega
    | pos id => simp only [List.filterMap_cons, bare, List.length_cons]; omega
    | fiha id => simp only [List.filterMap_cons, bare, List.length_cons]; omega
    | tag id => simp only [List.filterMap_cons, bare, List.length_cons]; omega

theorem firstFree_err {f : Nat → Place} {b : Nat} {x : Crash} (h : firstFree f b = .error x) :
    x = .bounds ∧ ∀ j, b ≤ j → j < 20 → (f j).taken = true := by
  rw [firstFree_eq] at h
  split at h
  · split at h
    · rename_i h1 h2
      obtain ⟨a1, a2⟩ := firstFree_err h
      refine ⟨a1, fun j hj1 hj2 => ?_⟩
      by_cases hj : j = b
      · rw [hj]; exact h2
      · exact a2 j (by omega) hj2
    · cases h
  · rename_i h1
    cases h
    refine ⟨rfl, fun j hj1 hj2 => ?_⟩
    unfold maxPos at h1; omega
termination_by 20 - b
decreasing_by unfold maxPos at *; omega

theorem firstFree_total {lc : List LC} (hlc : ∀ e ∈ lc, e.Ok) {F : List Target} {a : Arrays} (hi : Inv lc F a) {b : Nat}
    (hF : F.length < 14) (hp : ∀ j, 6 ≤ j → j < b → j < 20 → (a.place j).taken = true) : ∃ k, firstFree a.place b = .ok k := by
  cases hr : firstFree a.place b with
  | ok k => exact ⟨k, rfl⟩
  | error x =>
    exfalso
    obtain ⟨_, h2⟩ := firstFree_err hr
    have all : ∀ j, 6 ≤ j → j < 20 → (a.place j).taken = true := by
      intro j j1 j2
      by_cases hj : j < b
      · exact hp j j1 hj j2
      · exact h2 j (by omega) j2
    let g : Nat → Target := fun i => (target lc (.num (i + 6))).getD (.ord 0)
    have hg : ∀ i, target lc (.num (i + 6)) = some (g i) := by
      intro i
      obtain ⟨t, ht⟩ := target_num lc (i + 6)
      simp only [g, ht, Option.getD_some]
    have nd : ((List.range 14).map g).Nodup := by
      refine List.Nodup.map_on ?_ List.nodup_range
      intro i _ j _ hij
      have := target_inj hlc (s := .num (i + 6)) (s' := .num (j + 6)) (by simp only [Surf.Pos]; omega) (by simp only [Surf.Pos]; omega)
        (hg i) (by rw [hij]; exact hg j)
      simp only [Surf.num.injEq] at this
      omega
    have sub : (List.range 14).map g ⊆ F := by
      intro t ht
      obtain ⟨i, hi1, rfl⟩ := List.mem_map.1 ht
      have hi1 := List.mem_range.1 hi1
      exact (hi.num (i + 6) (by omega) (by omega) _ (hg i)).2.1.1 (all (i + 6) (by omega) (by omega))
    have := (List.subperm_of_subset nd sub).length_le
    rw [List.length_map, List.length_range] at this
    omega

theorem assignPos_total {lc : List LC} (hlc : ∀ e ∈ lc, e.Ok) (h : Head) {es : List Entry} (hes : ∀ e ∈ es, e.Ok) {F : List Target}
    {b : Nat} (hb : 1 ≤ b) {a : Arrays} (hi : Inv lc F a) (hF : F.length + bare es ≤ 14)
    (hp : ∀ j, 6 ≤ j → j < b → j < 20 → (a.place j).taken = true) : ∃ r, assignPos h es b a = .ok r := by
  induction es generalizing F a b with
  | nil => exact ⟨_, rfl⟩
  | cons e es ih =>
    have hes' : ∀ e ∈ es, e.Ok := fun x hx => hes x (List.mem_cons_of_mem _ hx)
    cases e with
    | pos id =>
      simp only [bare] at hF
      obtain ⟨k, hk⟩ := firstFree_total hlc hi (by omega) hp
      obtain ⟨b1, b2, b3, b4⟩ := firstFree_ok hk
      obtain ⟨t, ht⟩ := target_num lc k
      obtain ⟨r, hr⟩ := ih hes' (F := t :: F) (b := k + 1) (by omega) (inv_take hlc hi (by omega) b2 ht)
        (by simp only [List.length_cons]; omega) (fun j j1 j2 j3 => by
          simp only [put]
          split
          · rfl
          · by_cases hj : j < b
            · exact hp j j1 hj j3
            · exact b4 j (by omega) (by omega))
      rw [assignPos]
      simp only [bind, Except.bind, hk, hr]
      exact ⟨_, rfl⟩
    | fa p id =>
      rw [assignPos]
      split
      · rename_i hlt
        refine ih hes' (by omega) hi hF (fun j j1 j2 j3 => ?_)
        have := hes _ (List.mem_cons_self ..)
        simp only [Entry.Ok] at this
        unfold faiOffset at *
        omega
      · exact ih hes' hb hi hF hp
    | fiha id => exact ih hes' hb hi hF hp
    | tag id => exact ih hes' hb hi hF hp

theorem assignTerms_total {lc : List LC} (hlc : ∀ e ∈ lc, e.Ok) (h : Head) {es : List Entry} (hes : ∀ e ∈ es, e.Ok) {F : List Target}
    {b : Nat} (hb : 1 ≤ b) (hb6 : b ≤ 6) {a : Arrays} (hi : Inv lc F a) (hF : F.length + es.length ≤ 14) :
    ∃ r, assignTerms h es b a = .ok r := by
  obtain ⟨a1, e1, f1, f2, f3⟩ := assignFa_ok hlc h hes hi
  have := faTargets_length (target lc) es
  obtain ⟨r, hr⟩ := assignPos_total hlc h hes hb f2 (by rw [List.length_append]; omega) (fun j _ _ => by omega)
  rw [assignTerms, f1]
  simp only [bind, Except.bind, hr]
  exact ⟨_, rfl⟩

theorem chained_length {lc : List LC} {s F} (h : Chained lc s F) : F.length ≤ entries lc := by
  induction h with
  | nil => simp
  | se _ ih => exact ih
  | jai _ ih => exact ih
  | jaiTag _ ih => exact ih
  | @links es rest s F ts F' _ hs ih =>
    rw [seated_length hs, List.length_append]
    have := faTargets_length (target rest) es
    simp only [entries]; omega

theorem faiShift_total {lc : List LC} {F : List Target} {a : Arrays} (hi : Inv lc F a) (hj : jais lc ≤ 18) : ∃ f, faiShift a = .ok f := by
  rw [faiShift, firstInvalid_eq (fun k k1 k2 => (hi.fai k k1 k2).1) 1 (Nat.le_refl 1) (by omega), if_pos (by omega)]
  exact ⟨_, rfl⟩

theorem chain_total {lc : List LC} (hlc : ∀ e ∈ lc, e.Ok) (hc : Clean lc) (h : Head) (hn : entries lc ≤ 14) (hj : jais lc ≤ 19) :
    ∃ r, chain h lc .init = .ok r := by
  induction lc with
  | nil => exact ⟨_, rfl⟩
  | cons e rest ih =>
    have hr' : ∀ e ∈ rest, e.Ok := fun x hx => hlc x (List.mem_cons_of_mem _ hx)
    have he := hlc e (List.mem_cons_self ..)
    have step : entries rest ≤ 14 → jais rest ≤ 19 → (∀ a s F, Chained rest s F → Inv rest F a → ∃ r, chainStep h a e = .ok r) →
        ∃ r, chain h (e :: rest) .init = .ok r := by
      intro h1 h2 h3
      obtain ⟨⟨a, evs⟩, hr⟩ := ih hr' hc.tail h1 h2
      obtain ⟨s, F, c1, c2, _⟩ := chain_ok hr' hc.tail h hr
      obtain ⟨q, hq⟩ := h3 a s F c1 c2
      rw [chain]
      simp only [bind, Except.bind, hr, hq]
      exact ⟨_, rfl⟩
    cases e with
    | links es =>
      simp only [entries, jais] at hn hj
      refine step (by omega) hj (fun a s F c1 c2 => assignTerms_total hr' h he (by omega) (by omega) c2 ?_)
      have := chained_length c1
      omega
    | se c id => exact step hn hj (fun a s F c1 c2 => ⟨_, rfl⟩)
    | jaiTag t u =>
      simp only [entries, jais] at hn hj
      refine step hn (by omega) (fun a s F c1 c2 => ?_)
      obtain ⟨f, hf⟩ := faiShift_total c2 (by omega)
      simp only [chainStep, bind, Except.bind, hf]
      exact ⟨_, rfl⟩
    | jai =>
      simp only [entries, jais] at hn hj
      refine step hn (by omega) (fun a s F c1 c2 => ?_)
      obtain ⟨f, hf⟩ := faiShift_total c2 (by omega)
      simp only [chainStep, bind, Except.bind, hf]
      exact ⟨_, rfl⟩

/-- **No overrun**: up to 14 terms and 19 `jai` stay inside the arrays. -/
theorem places_total {lc : List LC} (hlc : ∀ e ∈ lc, e.Ok) (hc : Clean lc) {pre post : List Entry} (hpre : ∀ e ∈ pre, e.Ok)
    (hpost : ∀ e ∈ post, e.Ok) (h : Head) (hn : entries lc + pre.length + post.length ≤ 14) (hj : jais lc ≤ 19) :
    ∃ evs, assignPlaces pre post lc h = .ok evs := by
  obtain ⟨⟨a, e1⟩, hr⟩ := chain_total hlc hc h (by omega) hj
  obtain ⟨s, F, c1, c2, _⟩ := chain_ok hlc hc h hr
  have l1 := chained_length c1
  obtain ⟨⟨a1, e2⟩, hr1⟩ := assignTerms_total hlc h hpre (Nat.le_refl 1) (by omega) c2 (by omega)
  obtain ⟨t1, F1, g1, g2, _⟩ := assignTerms_ok hlc h hpre (by omega) c2 hr1
  have l2 := faTargets_length (target lc) pre
  have l3 := seated_length g1
  rw [List.length_append] at l3
  obtain ⟨⟨a2, e3⟩, hr2⟩ := assignTerms_total hlc h hpost (b := 2) (by omega) (by omega) g2 (by omega)
  rw [assignPlaces]
  simp only [bind, Except.bind, hr, hr1, hr2]
  exact ⟨_, rfl⟩

/-! ## The specification has one answer -/

theorem seated_det {T : Surf → Option Target} {F b es ts F' ts' F''} (h : Seated T F b es ts F') (h' : Seated T F b es ts' F'') :
    ts = ts' ∧ F' = F'' := by
  induction h generalizing ts' F'' with
  | nil => cases h'; exact ⟨rfl, rfl⟩
  | @pos F b k t id es ts F' h1 h2 h3 h4 _ ih =>
    cases h' with
    | @pos _ _ k' t' _ _ ts' _ g1 g2 g3 g4 g5 =>
      have hk : k = k' := by
        rcases Nat.lt_trichotomy k k' with hlt | rfl | hgt
        · obtain ⟨u, hu, hT⟩ := g4 k h1 hlt
          rw [hT] at h2; cases h2; exact absurd hu h3
        · rfl
        · obtain ⟨u, hu, hT⟩ := h4 k' g1 hgt
          rw [hT] at g2; cases g2; exact absurd hu g3
      subst hk
      rw [h2] at g2; cases g2
      obtain ⟨r1, r2⟩ := ih g5
      exact ⟨by rw [r1], r2⟩
  | fa hp _ ih =>
    cases h' with
    | fa _ g => obtain ⟨r1, r2⟩ := ih g; exact ⟨by rw [r1], r2⟩
    | fai hq _ => omega
  | fai hp _ ih =>
    cases h' with
    | fa hq _ => omega
    | fai _ g => obtain ⟨r1, r2⟩ := ih g; exact ⟨by rw [r1], r2⟩
  | fiha _ ih => cases h' with | fiha g => obtain ⟨r1, r2⟩ := ih g; exact ⟨by rw [r1], r2⟩
  | tag _ ih => cases h' with | tag g => obtain ⟨r1, r2⟩ := ih g; exact ⟨by rw [r1], r2⟩

theorem chained_det {lc : List LC} {s F s' F'} (h : Chained lc s F) (h' : Chained lc s' F') : s = s' ∧ F = F' := by
  induction h generalizing s' F' with
  | nil => cases h'; exact ⟨rfl, rfl⟩
  | se _ ih => cases h' with | se g => exact ih g
  | jai _ ih => cases h' with | jai g => exact ih g
  | jaiTag _ ih => cases h' with | jaiTag g => exact ih g
  | links _ hs ih =>
    cases h' with
    | links g gs =>
      obtain ⟨r1, r2⟩ := ih g
      subst r1 r2
      obtain ⟨r3, r4⟩ := seated_det hs gs
      exact ⟨by rw [r3], r4⟩

/-- The rules leave no choice. -/
theorem places_det {lc : List LC} {pre post : List Entry} {s s'} (h : Places lc pre post s) (h' : Places lc pre post s') : s = s' := by
  obtain ⟨s0, F0, t1, F1, t2, F2, a1, a2, a3, rfl⟩ := h
  obtain ⟨s0', F0', t1', F1', t2', F2', b1, b2, b3, rfl⟩ := h'
  obtain ⟨rfl, rfl⟩ := chained_det a1 b1
  obtain ⟨rfl, rfl⟩ := seated_det a2 b2
  obtain ⟨rfl, rfl⟩ := seated_det a3 b3
  rfl

/-- No sumti without FA gets a place that was held before, and no two of them get the same. -/
theorem bare_distinct {T : Surf → Option Target} {F b es ts F'} (h : Seated T F b es ts F') :
    ((shownPos es ts).map Prod.snd).Nodup ∧ ∀ p ∈ shownPos es ts, p.2 ∉ F := by
  induction h with
  | nil => exact ⟨List.nodup_nil, fun p hp => by cases hp⟩
  | pos _ _ h3 _ _ ih =>
    simp only [shownPos, List.map_cons, List.nodup_cons]
    refine ⟨⟨?_, ih.1⟩, ?_⟩
    · intro hm
      obtain ⟨p, hp, rfl⟩ := List.mem_map.1 hm
      exact ih.2 p hp (List.mem_cons_self ..)
    · intro p hp
      rcases List.mem_cons.1 hp with rfl | hp
      · exact h3
      · exact fun hm => ih.2 p hp (List.mem_cons_of_mem _ hm)
  | fa _ _ ih => exact ih
  | fai _ _ ih => exact ih
  | fiha _ ih => exact ih
  | tag _ ih => exact ih

/-- **Every term is labelled with its place.** -/
theorem places_exact {lc : List LC} (hlc : ∀ e ∈ lc, e.Ok) (hc : Clean lc) {pre post : List Entry} (hpre : ∀ e ∈ pre, e.Ok)
    (hpost : ∀ e ∈ post, e.Ok) (h : Head) (hn : entries lc + pre.length + post.length ≤ 14) (hj : jais lc ≤ 19) :
    ∃ evs s, assignPlaces pre post lc h = .ok evs ∧ Places lc pre post s ∧ (∀ s', Places lc pre post s' → s' = s) ∧
      List.Forall₂ (Says h) evs s := by
  obtain ⟨evs, hr⟩ := places_total hlc hc hpre hpost h hn hj
  obtain ⟨s, h1, h2⟩ := assignPlaces_ok hlc hc hpre hpost h hr
  exact ⟨evs, s, hr, h1, fun s' h' => places_det h' h1, h2⟩

/-! ## Without a bare `jai` every label is exact -/

theorem target_event {lc : List LC} (hlc : LC.jai ∉ lc) {s : Surf} {t : Target} (h : target lc s = some t) : t.seen ≠ none := by
  induction lc generalizing s with
  | nil =>
    cases s <;> simp only [target, Option.some.injEq, reduceCtorEq] at h
    rw [← h]; simp [Target.seen]
  | cons e rest ih =>
    have ih := @ih (fun hm => hlc (List.mem_cons_of_mem _ hm))
    cases e with
    | links es => exact ih h
    | se c id => cases s <;> exact ih h
    | jai => exact absurd (List.mem_cons_self ..) hlc
    | jaiTag t u =>
      cases s with
      | num k =>
        simp only [target] at h
        split at h
        · cases h; simp [Target.seen]
        · exact ih h
      | fai k => simp only [target] at h; split at h <;> exact ih h

theorem shown_target {T : Surf → Option Target} {F b es ts F'} (h : Seated T F b es ts F') :
    ∀ p ∈ shown es ts, ∃ s, T s = some p.2 := by
  intro p hp
  rcases List.mem_append.1 hp with hp | hp
  · rw [shownFa_eq h] at hp
    obtain ⟨e, _, he⟩ := List.mem_filterMap.1 hp
    cases e with
    | fa q id =>
      obtain ⟨t, ht, rfl⟩ := Option.map_eq_some_iff.1 he
      exact ⟨_, ht⟩
    | pos id => cases he
    | fiha id => cases he
    | tag id => cases he
  · induction h with
    | nil => cases hp
    | pos _ hT _ _ _ ih =>
      rcases List.mem_cons.1 hp with rfl | hp
      · exact ⟨_, hT⟩
      · exact ih (List.mem_append.2 (.inr hp)) hp
    | fa _ _ ih => exact ih (List.mem_append.2 (.inr hp)) hp
    | fai _ _ ih => exact ih (List.mem_append.2 (.inr hp)) hp
    | fiha _ ih => exact ih (List.mem_append.2 (.inr hp)) hp
    | tag _ ih => exact ih (List.mem_append.2 (.inr hp)) hp

theorem chained_seen {lc : List LC} {s F} (h : Chained lc s F) (hlc : LC.jai ∉ lc) : ∀ p ∈ s, p.2.seen ≠ none := by
  induction h with
  | nil => intro p hp; cases hp
  | se _ ih => exact ih (fun hm => hlc (List.mem_cons_of_mem _ hm))
  | jai _ ih => exact absurd (List.mem_cons_self ..) hlc
  | jaiTag _ ih => exact ih (fun hm => hlc (List.mem_cons_of_mem _ hm))
  | links _ hs ih =>
    intro p hp
    have hr := fun hm => hlc (List.mem_cons_of_mem _ hm)
    rcases List.mem_append.1 hp with hp | hp
    · exact ih hr p hp
    · obtain ⟨x, hx⟩ := shown_target hs p hp
      exact target_event hr hx

theorem places_seen {lc : List LC} {pre post : List Entry} {s} (h : Places lc pre post s) (hlc : LC.jai ∉ lc) :
    ∀ p ∈ s, p.2.seen ≠ none := by
  obtain ⟨s0, F0, t1, F1, t2, F2, a1, a2, a3, rfl⟩ := h
  intro p hp
  rcases List.mem_append.1 hp with hp | hp
  · rcases List.mem_append.1 hp with hp | hp
    · exact chained_seen a1 hlc p hp
    · obtain ⟨x, hx⟩ := shown_target a2 p hp; exact target_event hlc hx
  · obtain ⟨x, hx⟩ := shown_target a3 p hp; exact target_event hlc hx

/-- **Every label is exact** when no `jai` stands without a tag. -/
theorem labels_exact {lc : List LC} (hlc : ∀ e ∈ lc, e.Ok) (hc : Clean lc) (hjai : LC.jai ∉ lc) {pre post : List Entry}
    (hpre : ∀ e ∈ pre, e.Ok) (hpost : ∀ e ∈ post, e.Ok) (h : Head) (hn : entries lc + pre.length + post.length ≤ 14)
    (hj : jais lc ≤ 19) :
    ∃ evs s, assignPlaces pre post lc h = .ok evs ∧ Places lc pre post s ∧ (∀ s', Places lc pre post s' → s' = s) ∧
      evs.map Ev.seen = s.map (fun p => some (p.1, h, p.2.seen)) := by
  obtain ⟨evs, s, h1, h2, h3, h4⟩ := places_exact hlc hc hpre hpost h hn hj
  refine ⟨evs, s, h1, h2, h3, ?_⟩
  have h5 := places_seen h2 hjai
  clear h1 h2 h3
  induction h4 with
  | nil => rfl
  | @cons e p evs s hs _ ih =>
    obtain ⟨x, hx, hr⟩ := hs
    rcases hr with hr | hr
    · exact absurd hr (h5 p (List.mem_cons_self ..))
    · rw [List.map_cons, List.map_cons, hx, hr, ih (fun q hq => h5 q (List.mem_cons_of_mem _ hq))]

/-- A chain without `jai` is clean. -/
theorem clean_of_nojai {lc : List LC} (h : jais lc = 0) : Clean lc := by
  intro l e rest s F hl he
  exfalso
  subst hl
  induction l with
  | nil => rcases he with rfl | ⟨t, u, rfl⟩ <;> simp [jais] at h
  | cons x l ih => cases x <;> simp only [List.cons_append, jais, Nat.add_one_ne_zero] at h <;> exact ih h

/-- A chain without linked sumti is clean. -/
theorem clean_of_nolinks {lc : List LC} (h : entries lc = 0) : Clean lc := by
  intro l e rest s F hl _ hch x _
  have hr : entries rest = 0 := by
    subst hl
    induction l with
    | nil => cases e <;> simp only [List.nil_append, entries] at h <;> omega
    | cons y l ih => cases y <;> simp only [List.cons_append, entries] at h <;> exact ih (by omega)
  have := chained_length hch
  rw [hr] at this
  rw [List.length_eq_zero_iff.1 (Nat.le_zero.1 this)]
  exact List.not_mem_nil

/-! ## Cases -/

/-- `mi fo ti se klama do ta`: `mi` is x2, `ti` is x4, `do` is x1, `ta` is x3. -/
example : (assignPlaces [.pos 10, .fa 4 11] [.pos 12, .pos 13] [.se 2 7] (.brivla 3)).map (List.map Ev.seen) =
    .ok [some (11, .brivla 3, some (.ord 4)), some (10, .brivla 3, some (.ord 2)),
      some (12, .brivla 3, some (.ord 1)), some (13, .brivla 3, some (.ord 3))] := rfl

example : (∀ e ∈ [LC.se 2 7], e.Ok) ∧ Clean [.se 2 7] ∧ LC.jai ∉ [LC.se 2 7] ∧
    (∀ e ∈ [Entry.pos 10, .fa 4 11], e.Ok) ∧ (∀ e ∈ [Entry.pos 12, .pos 13], e.Ok) ∧
    entries [.se 2 7] + 2 + 2 ≤ 14 ∧ jais [.se 2 7] ≤ 19 :=
  ⟨by simp [LC.Ok], clean_of_nojai rfl, by simp, by simp [Entry.Ok], by simp [Entry.Ok], by decide, by decide⟩

/-- `mi jai gau galfi fai ti`: `mi` is the doer, `ti` the old first place. -/
example : (assignPlaces [.pos 10] [.fa faiOffset 11] [.jaiTag 5 6] (.brivla 3)).map (List.map Ev.seen) =
    .ok [some (10, .brivla 3, some (.tag 5 6)), some (11, .brivla 3, some (.ord 1))] := rfl

example : (∀ e ∈ [LC.jaiTag 5 6], e.Ok) ∧ Clean [.jaiTag 5 6] ∧ LC.jai ∉ [LC.jaiTag 5 6] ∧ jais [.jaiTag 5 6] ≤ 19 :=
  ⟨by simp [LC.Ok], clean_of_nolinks rfl, by simp, by decide⟩

/-! ## What goes wrong -/

/-- With `jai` the places are right as far as `Right` and `Clean` go.  Missing: the place of a `jai` alone is
shown as x1 (`jai_label_wrong`), and a first place that is held inside `jai` (`jai_held_wrong`). -/
theorem jai_places_partial {lc : List LC} (hlc : ∀ e ∈ lc, e.Ok) (hc : Clean lc) {pre post : List Entry} (hpre : ∀ e ∈ pre, e.Ok)
    (hpost : ∀ e ∈ post, e.Ok) (h : Head) (hn : entries lc + pre.length + post.length ≤ 14) (hj : jais lc ≤ 19) :
    ∃ evs s, assignPlaces pre post lc h = .ok evs ∧ Places lc pre post s ∧ (∀ s', Places lc pre post s' → s' = s) ∧
      List.Forall₂ (Says h) evs s := places_exact hlc hc hpre hpost h hn hj

/-- A bare `jai` does not change the label of the first place: `mi jai galfi fai ti` says that both `mi` and
`ti` are x1. -/
theorem jai_label_wrong (id id' : Nat) (h : Head) :
    (assignPlaces [.pos id] [.fa faiOffset id'] [.jai] h).map (List.map Ev.seen) =
      .ok [some (id, h, some (.ord 1)), some (id', h, some (.ord 1))] := rfl

/-- With `be fa X` inside, `jai` with a tag leaves the mark that the first place is held, so the term that
should be the tagged place is given x2. -/
theorem jai_held_wrong (id id' t u : Nat) (h : Head) :
    (assignPlaces [.pos id'] [] [.jaiTag t u, .links [.fa 1 id]] h).map (List.map Ev.seen) =
      .ok [some (id, h, some (.ord 1)), some (id', h, some (.ord 2))] ∧
    Places [.jaiTag t u, .links [.fa 1 id]] [.pos id'] [] [(id, .ord 1), (id', .tag 1 t u)] := by
  refine ⟨rfl, [(id, .ord 1)], [.ord 1], [some (.tag 1 t u)], [.tag 1 t u, .ord 1], [], _, ?_, ?_, .nil, rfl⟩
  · exact .jaiTag (.links (s := []) .nil (.fa (by decide) .nil))
  · exact .pos (k := 1) (Nat.le_refl 1) rfl (by simp [faTargets]) (fun j j1 j2 => by omega) .nil

/-- Twenty sumti read past the end of the array: the test is `base > MAX_POS` and not `base >= MAX_POS`. -/
theorem twenty_terms (id : Nat) (h : Head) : assignPlaces (List.replicate 20 (.pos id)) [] [] h = .error .bounds := rfl

/-- Nineteen do not. -/
theorem nineteen_terms (id : Nat) (h : Head) : ∃ evs, assignPlaces (List.replicate 19 (.pos id)) [] [] h = .ok evs := ⟨_, rfl⟩

/-- Twenty `jai` do so in the other array. -/
theorem twenty_jai (h : Head) : assignPlaces [] [] (List.replicate 20 .jai) h = .error .bounds := rfl

end Jbo.Terms
