import Verif.TransThm

/-!
# The recursion of the glosser ends

Property C54, continued.
-/

namespace Jbo.Trans

open Jbo Jbo.TransSpec

variable {dict : Word → Option Word} {morf : Word → Morf}

/-! ## Cuts of a canonical form -/

theorem groups_cut : ∀ {a ws : List Word} {g : Group}, g ∈ groupsAt a ws → ∃ pre post, ws = pre ++ post ∧ g.before = a ++ pre ∧ post ≠ []
  | a, [], g, h => by simp [groupsAt] at h
  | a, w :: ws, g, h => by
    have tail : g ∈ groupsAt (a ++ [w]) ws → ∃ pre post, w :: ws = pre ++ post ∧ g.before = a ++ pre ∧ post ≠ [] := by
      intro h
      obtain ⟨pre, post, rfl, hb, hp⟩ := groups_cut h
      exact ⟨w :: pre, post, rfl, by simpa using hb, hp⟩
    rw [groupsAt] at h
    split at h
    · rcases List.mem_cons.1 h with rfl | h
      · exact ⟨[], w :: ws, rfl, by simp, by simp⟩
      · exact tail h
    · split at h
      · simp at h
      · rename_i g' gs e
        rcases List.mem_cons.1 h with rfl | h
        · exact ⟨[], w :: ws, rfl, by simp, by simp⟩
        · exact tail (by rw [e]; exact List.mem_cons_of_mem _ h)

theorem groups_later : ∀ {a ws : List Word} {g0 : Group} {gs : List Group}, groupsAt a ws = g0 :: gs → ∀ g ∈ gs, a.length < g.before.length
  | a, [], g0, gs, h => by simp [groupsAt] at h
  | a, w :: ws, g0, gs, h => by
    intro g hg
    have long : g ∈ groupsAt (a ++ [w]) ws → a.length < g.before.length := by
      intro h
      obtain ⟨pre, post, _, hb, _⟩ := groups_cut h
      rw [hb]
      simp
    rw [groupsAt] at h
    split at h
    · cases h
      exact long hg
    · split at h
      · cases h
      · rename_i g' gs' e
        cases h
        exact long (by rw [e]; exact List.mem_cons_of_mem _ hg)

theorem join_append {a b : List Word} (ha : a ≠ []) (hb : b ≠ []) : join (a ++ b) = join a ++ '+' :: join b := by
  induction a with
  | nil => exact absurd rfl ha
  | cons x a ih =>
    cases a with
    | nil =>
      cases b with
      | nil => exact absurd rfl hb
      | cons y b => simp [join, List.intercalate, List.intersperse]
    | cons y a =>
      have := ih (by simp)
      simp only [join, List.intercalate, List.cons_append, List.intersperse, List.flatten_cons] at this ⊢
      rw [this]
      simp

/-- Words that a canonical form consists of. -/
def Words (ws : List Word) : Prop := ∀ x ∈ ws, Plain x ∧ x.length ≤ 5

/-- C54: the part that a template leaves is a canonical form with fewer words. -/
theorem templateCut_shorter {ws : List Word} (suffix : Bool) {g : Nat} (hg : 1 ≤ g) {p : Int} {generic specific : Word} {n : Nat}
    (h : templateCut suffix g (join ws) ((groupsAt [] ws).map toComp) p = .ok (generic, specific, n)) :
    ∃ vs, specific = join vs ∧ vs.length < ws.length ∧ ∀ x ∈ vs, x ∈ ws := by
  rw [templateCut] at h
  split at h
  · split at h
    · cases h
    · split at h
      · cases h
      · rename_i c hc
        split at h
        · cases h
        · cases h
          obtain ⟨gr, hgr, rfl⟩ := List.mem_map.1 (List.mem_of_getElem? hc)
          obtain ⟨pre, post, rfl, hb, hp⟩ := groups_cut hgr
          refine ⟨pre, ?_, ?_, fun x hx => by simp [hx]⟩
          · rw [List.nil_append] at hb
            show (join (pre ++ post)).take (join gr.before).length = join pre
            rw [hb]
            by_cases hpre : pre = []
            · subst hpre; simp [join, List.intercalate]
            · rw [join_append hpre hp, List.take_left]
          · cases post with
            | nil => exact absurd rfl hp
            | cons y post => simp
  · split at h
    · rename_i c d hc hd
      split at h
      · cases h
      · cases h
        rw [List.getElem?_map] at hc
        obtain ⟨gr, hgr, rfl⟩ := Option.map_eq_some_iff.1 hc
        obtain ⟨pre, post, rfl, hb, hp⟩ := groups_cut (List.mem_of_getElem? hgr)
        have hpre : pre ≠ [] := by
          rintro rfl
          cases hgs : groupsAt [] ([] ++ post) with
          | nil => rw [hgs] at hgr; simp at hgr
          | cons g0 gs =>
            rw [hgs] at hgr
            obtain ⟨k, rfl⟩ : ∃ k, g = k + 1 := ⟨g - 1, by omega⟩
            rw [List.getElem?_cons_succ] at hgr
            have := groups_later hgs gr (List.mem_of_getElem? hgr)
            rw [hb] at this
            simp at this
        refine ⟨post, ?_, ?_, fun x hx => by simp [hx]⟩
        · rw [List.nil_append] at hb
          show (join (pre ++ post)).drop ((join gr.before).length + 1) = join post
          rw [hb, join_append hpre hp, show (join pre).length + 1 = (join pre ++ ['+']).length by simp,
            show join pre ++ '+' :: join post = (join pre ++ ['+']) ++ join post by simp, List.drop_left]
        · cases pre with
          | nil => exact absurd rfl hpre
          | cons y pre => simp; omega
    · cases h

theorem templateCut_error {suffix : Bool} {g : Nat} {orig : Word} {comp : List Comp} {p : Int} {e : Crash}
    (h : templateCut suffix g orig comp p = .error e) : e = .outOfBounds := by
  have hplace : ∀ {c : Comp} {i : Int} {e : Crash}, c.place i = .error e → e = .outOfBounds := by
    intro c i e h
    unfold Comp.place at h
    split at h
    · cases h
    · cases h; rfl
  rw [templateCut] at h
  split at h
  · split at h
    · cases h; rfl
    · split at h
      · cases h; rfl
      · split at h
        · rename_i h'
          cases h
          exact hplace h'
        · cases h
  · split at h
    · split at h
      · rename_i h'
        cases h
        exact hplace h'
      · cases h
    · cases h; rfl

/-! ## No divergence without a diverging call -/

/-- The gloss of `w` is found, or the program crashes. -/
def Ends' (a : Adv) (w : Word) : Prop := ∀ p c, a w p c ≠ .error .diverge

theorem substBase_ends {a : Adv} {base : Word} (h : Ends' a base) : ∀ t : Word, substBase a base t ≠ .error .diverge
  | [] => by simp [substBase]
  | x :: r => by
    by_cases hx : x = '%'
    · subst hx
      match r with
      | [] => simp [substBase]
      | [_] => simp [substBase]
      | d :: k :: r =>
        rw [substBase]
        have ih := substBase_ends h r
        cases ha : a base (digitOf d) (ctxOf k) with
        | error e =>
          dsimp only
          rw [← ha]
          exact h _ _
        | ok t =>
          dsimp only
          cases hs : substBase a base r with
          | error e =>
            dsimp only
            rw [← hs]
            exact ih
          | ok u => simp
    · rw [substBase_other a base r hx]
      have ih := substBase_ends h r
      cases hs : substBase a base r with
      | error e =>
        dsimp only
        rw [← hs]
        exact ih
      | ok u => simp

theorem error_ne {α β : Type} {e : Crash} {x : Except Crash α} (h : x ≠ .error .diverge) (hx : x = .error e) :
    (.error e : Except Crash β) ≠ .error .diverge := by
  rintro h'
  cases h'
  exact h hx

theorem template_ends {a : Adv} {prec : Nat} {suffix : Bool} {g : Nat} {orig : Word} {comp : List Comp} {p : Int} {c : Ctx}
    (h : ∀ generic specific n, templateCut suffix g orig comp p = .ok (generic, specific, n) → Ends' a specific) :
    template dict a prec suffix g orig comp p c ≠ .error .diverge := by
  rw [template]
  cases hc : templateCut suffix g orig comp p with
  | error e =>
    rw [templateCut_error hc]
    simp
  | ok x =>
    obtain ⟨generic, specific, k⟩ := x
    have hs := h generic specific k hc
    dsimp only
    split
    · simp
    · rename_i trans full hf
      cases hat : atSign trans with
      | some r =>
        dsimp only
        cases ha : a specific (digitOf (r.headD '\x00')) c with
        | error e => exact error_ne (hs _ _) ha
        | ok t => simp
      | none =>
        dsimp only
        cases ha : substBase a specific trans with
        | error e => exact error_ne (substBase_ends hs trans) ha
        | ok t =>
          dsimp only
          split <;> simp

section
variable {a : Adv} {ws : List Word} (hws : Words ws) (ha : ∀ vs, vs.length < ws.length → Words vs → Ends' a (join vs))
include hws ha

theorem gathers_ends (prec : Nat) (suffix : Bool) (p : Int) (c : Ctx) : ∀ gs : List Nat, (∀ g ∈ gs, 1 ≤ g) →
    gathers dict a prec suffix (join ws) ((groupsAt [] ws).map toComp) p c gs ≠ .error .diverge
  | [], _ => by simp [gathers]
  | g :: gs, h => by
    rw [gathers]
    have ht : template dict a prec suffix g (join ws) ((groupsAt [] ws).map toComp) p c ≠ .error .diverge := by
      refine template_ends ?_
      intro generic specific n hcut
      obtain ⟨vs, rfl, hl, hm⟩ := templateCut_shorter suffix (h g (by simp)) hcut
      exact ha vs hl (fun x hx => hws x (hm x hx))
    have ih := gathers_ends prec suffix p c gs (fun g hg => h g (by simp [hg]))
    cases hs : template dict a prec suffix g (join ws) ((groupsAt [] ws).map toComp) p c with
    | error e => exact error_ne ht hs
    | ok o =>
      cases o with
      | none => simp
      | some t =>
        dsimp only
        split
        · simp
        · exact ih

theorem precs_ends (p : Int) (c : Ctx) : ∀ ps : List (Nat × Bool),
    precs dict a (join ws) ((groupsAt [] ws).map toComp) p c ps ≠ .error .diverge
  | [] => by simp [precs]
  | (q, s) :: ps => by
    rw [precs]
    have ht := gathers_ends (dict := dict) hws ha q s p c [1, 2] (by decide)
    cases hs : gathers dict a q s (join ws) ((groupsAt [] ws).map toComp) p c [1, 2] with
    | error e => exact error_ne ht hs
    | ok o =>
      cases o with
      | none => exact precs_ends p c ps
      | some t => simp

end

theorem place_ends (k : Comp) (i : Int) : k.place i ≠ .error .diverge := by
  unfold Comp.place
  split <;> simp

theorem lujvoParts_ends {a : Adv} (p : Int) : ∀ cs : List Comp, (∀ k ∈ cs, Ends' a k.text) → lujvoParts a p cs ≠ .error .diverge
  | [], _ => by simp [lujvoParts]
  | k :: cs, h => by
    rw [lujvoParts]
    have ih := lujvoParts_ends p cs (fun k hk => h k (by simp [hk]))
    cases hk : k.place (if cs = [] then p else 1) with
    | error e => exact error_ne (place_ends _ _) hk
    | ok m =>
      dsimp only
      cases ha : a k.text m (if cs = [] then .noun else .qual) with
      | error e => exact error_ne (h k (by simp) _ _) ha
      | ok t =>
        dsimp only
        cases hs : lujvoParts a p cs with
        | error e => exact error_ne ih hs
        | ok ts => simp

theorem prefixParts_ends {a : Adv} (c : Ctx) : ∀ cs : List Comp, (∀ k ∈ cs, Ends' a k.text) → prefixParts a c cs ≠ .error .diverge
  | [], _ => by simp [prefixParts]
  | k :: cs, h => by
    rw [prefixParts]
    have ih := prefixParts_ends c cs (fun k hk => h k (by simp [hk]))
    cases hk : k.place 1 with
    | error e => exact error_ne (place_ends _ _) hk
    | ok m =>
      dsimp only
      cases ha : a k.text m (if cs = [] then c else .qual) with
      | error e => exact error_ne (h k (by simp) _ _) ha
      | ok t =>
        dsimp only
        cases hs : prefixParts a c cs with
        | error e => exact error_ne ih hs
        | ok ts => simp

theorem split_text {ws : List Word} (hws : Words ws) {comp : List Comp} (h : splitComps (join ws) = .ok comp) :
    comp = (groupsAt [] ws).map toComp ∧ comp.length ≤ ws.length ∧ ∀ k ∈ comp, k.text ∈ ws := by
  rw [splitComps_spec ws (fun x hx => (hws x hx).1)] at h
  split at h
  · cases h
    have hb := groupsAt_base [] ws
    refine ⟨rfl, ?_, ?_⟩
    · have := congrArg List.length hb
      rw [List.length_map] at this
      rw [List.length_map, this]
      exact List.length_filter_le _ _
    · intro k hk
      obtain ⟨g, hg, rfl⟩ := List.mem_map.1 hk
      have : g.base ∈ (groupsAt [] ws).map Group.base := List.mem_map_of_mem hg
      rw [hb] at this
      exact (List.mem_filter.1 this).1
  · cases h

theorem split_error {ws : List Word} (hws : Words ws) {e : Crash} (h : splitComps (join ws) = .error e) : e = .overflow := by
  rw [splitComps_spec ws (fun x hx => (hws x hx).1)] at h
  split at h
  · cases h
  · cases h; rfl

theorem join_plus : ∀ {ws : List Word}, Words ws → ('+' ∈ join ws ↔ 2 ≤ ws.length)
  | [], _ => by simp [join, List.intercalate]
  | [x], h => by
    rw [join_single]
    simp [(h x (by simp)).1.2]
  | x :: y :: ws, h => by
    rw [show x :: y :: ws = [x] ++ (y :: ws) from rfl, join_append (by simp) (by simp)]
    simp

/-- The recursion of a lujvo ends when it ends for fewer words. -/
theorem lujvo_ends {a : Adv} {w : Word} {ws : List Word} (hws : Words ws) (hc : Lujvo.canonLujvo w = some (join ws))
    (ha : ∀ vs, vs.length < ws.length → Words vs → Ends' a (join vs)) (p : Int) (c : Ctx) :
    attemptPattern dict a w p c ≠ .error .diverge ∧ transLujvo a w p ≠ .error .diverge := by
  have single : 2 ≤ ws.length → ∀ x ∈ ws, Ends' a x := by
    intro hl x hx
    have := ha [x] (by simp; omega) (by intro y hy; simp at hy; subst hy; exact hws _ hx)
    rwa [join_single] at this
  constructor
  · rw [attemptPattern, hc]
    dsimp only
    by_cases hp : (!(join ws).contains '+') = true
    · rw [if_pos hp]; simp
    · rw [if_neg hp]
      have hl : 2 ≤ ws.length := by
        rw [← join_plus hws]
        simpa using hp
      cases hs : splitComps (join ws) with
      | error e => rw [split_error hws hs]; simp
      | ok comp =>
        obtain ⟨e, _, ht⟩ := split_text hws hs
        match comp, e, ht with
        | [], e, _ =>
          dsimp only
          rw [e]
          exact precs_ends hws ha p c precOrder
        | [k], _, ht =>
          dsimp only
          cases hk : k.place p with
          | error e => exact error_ne (place_ends _ _) hk
          | ok m =>
            dsimp only
            cases hq : a k.text m c with
            | error e => exact error_ne (single hl _ (ht k (by simp)) _ _) hq
            | ok t => simp
        | k :: l :: r, e, _ =>
          dsimp only
          rw [e]
          exact precs_ends hws ha p c precOrder
  · rw [transLujvo, hc]
    dsimp only
    cases hs : splitComps (join ws) with
    | error e => rw [split_error hws hs]; simp
    | ok comp =>
      obtain ⟨e, hlen, ht⟩ := split_text hws hs
      dsimp only
      by_cases hl : comp.length < 2
      · rw [if_pos hl]; simp
      · rw [if_neg hl]
        have hq := lujvoParts_ends (a := a) p comp (fun k hk => single (by omega) _ (ht k hk))
        cases hs : lujvoParts a p comp with
        | error e => exact error_ne hq hs
        | ok ts => simp

/-- No entry for any place of `w` is a redirection. -/
def NoRedirect (dict : Word → Option Word) (w : Word) : Prop := ∀ p c t, direct dict w p c = some t → t.head? ≠ some '@'

/-- Redirections lead to words of at most five letters that have no redirection. -/
def Redirects (dict : Word → Option Word) : Prop := ∀ w p c u d r, direct dict w p c = some ('@' :: (u ++ d :: r)) →
  (∀ x ∈ u, isAlpha x = true) → isDigit d = true → u.length ≤ 5 ∧ NoRedirect dict u

/-- Words of at most five letters are no fu'ivla of stage 3. -/
def ShortPlain (morf : Word → Morf) : Prop := ∀ w : Word, w.length ≤ 5 → ∀ h, morf w ≠ .fuivla h

theorem atSign_some {t r : Word} (h : atSign t = some r) : t = '@' :: r := by
  cases t with
  | nil => cases h
  | cons x t =>
    have h : (if x = '@' then some t else none) = some r := h
    by_cases hx : x = '@'
    · rw [if_pos hx] at h
      cases h
      rw [hx]
    · rw [if_neg hx] at h
      cases h

theorem adv_ends {n : Nat} {w : Word}
    (hr : NoRedirect dict w ∨ (Redirects dict ∧ ∀ u, u.length ≤ 5 → '+' ∉ u → NoRedirect dict u → Ends' (adv dict morf n) u))
    (hp : ∀ p c, attemptPattern dict (adv dict morf n) w p c ≠ .error .diverge)
    (hu : ∀ p c, transUnknown morf (adv dict morf n) w p c ≠ .error .diverge) : Ends' (adv dict morf (n + 1)) w := by
  intro p0 c0
  rw [adv]
  generalize (if p0 = 0 then (1 : Int) else p0) = p
  generalize (if p0 = 0 then Ctx.verb else c0) = c
  cases hd : direct dict w p c with
  | some t =>
    dsimp only
    cases hat : atSign t with
    | none =>
      dsimp only
      split <;> simp
    | some r =>
      dsimp only
      have ht := atSign_some hat
      subst ht
      rcases hr with hr | ⟨hr, hu⟩
      · exact absurd rfl (hr p c _ hd)
      · cases hq : r.dropWhile isAlpha with
        | nil => simp
        | cons d s =>
          dsimp only
          by_cases hdig : isDigit d = true
          · rw [if_pos hdig]
            have hal : ∀ x ∈ r.takeWhile isAlpha, isAlpha x = true := by
              intro x hx
              have := List.all_takeWhile (p := isAlpha) (l := r)
              exact List.all_eq_true.1 this x hx
            have e : r = r.takeWhile isAlpha ++ d :: s := by
              rw [← hq, List.takeWhile_append_dropWhile]
            rw [e] at hd
            obtain ⟨h1, h2⟩ := hr w p c _ d s hd hal hdig
            refine hu _ h1 ?_ h2 _ _
            intro hplus
            have := hal _ hplus
            revert this
            decide
          · rw [if_neg hdig]; simp
  | none =>
    dsimp only
    split
    · simp
    · cases ha : attemptPattern dict (adv dict morf n) w p c with
      | error e => exact error_ne (hp p c) ha
      | ok o =>
        cases o with
        | some t => simp
        | none =>
          dsimp only
          cases hb : transUnknown morf (adv dict morf n) w p c with
          | error e => exact error_ne (hu p c) hb
          | ok o => cases o <;> simp

/-- A word of at most five letters asks for nothing but a redirection. -/
theorem short_calls {a : Adv} (hm : ShortPlain morf) {w : Word} (hl : w.length ≤ 5) (hp : '+' ∉ w) (p : Int) (c : Ctx) :
    attemptPattern dict a w p c ≠ .error .diverge ∧ transUnknown morf a w p c ≠ .error .diverge := by
  have hluj : attemptPattern dict a w p c ≠ .error .diverge ∧ transLujvo a w p ≠ .error .diverge := by
    cases hc : Lujvo.canonLujvo w with
    | none =>
      rw [attemptPattern, transLujvo, hc]
      simp
    | some canon =>
      obtain ⟨ws, rfl, h1, h2⟩ := canon_words hp hc
      have hl1 : ws.length ≤ 1 := by omega
      have hnp : '+' ∉ join ws := by
        rw [join_plus h1]
        omega
      constructor
      · rw [attemptPattern, hc]
        dsimp only
        rw [if_pos (by simpa using hnp)]
        simp
      · rw [transLujvo, hc]
        dsimp only
        cases hs : splitComps (join ws) with
        | error e => rw [split_error h1 hs]; simp
        | ok comp =>
          dsimp only
          rw [if_pos (by have := (split_text h1 hs).2.1; omega)]
          simp
  refine ⟨hluj.1, ?_⟩
  rw [transUnknown, if_neg (by simpa using hp)]
  cases hq : morf w with
  | giveUp => simp
  | hopeless => simp
  | cmene => simp
  | lujvo => exact hluj.2
  | fuivla h => exact absurd hq (hm w hl h)

theorem short_ends (hr : Redirects dict) (hm : ShortPlain morf) (n : Nat) {w : Word} (hl : w.length ≤ 5) (hp : '+' ∉ w) :
    Ends' (adv dict morf (n + 2)) w :=
  adv_ends (Or.inr ⟨hr, fun _ h1 h2 h3 =>
    adv_ends (Or.inl h3) (fun p c => (short_calls hm h1 h2 p c).1) (fun p c => (short_calls (dict := dict) hm h1 h2 p c).2)⟩)
    (fun p c => (short_calls hm hl hp p c).1) (fun p c => (short_calls (dict := dict) hm hl hp p c).2)

theorem words_ends (hr : Redirects dict) (hm : ShortPlain morf) (n : Nat) : ∀ ws, ws.length ≤ n → Words ws →
    Ends' (adv dict morf (n + 2)) (join ws) := by
  induction n with
  | zero =>
    intro ws hl _
    rw [List.length_eq_zero_iff.1 (Nat.le_zero.1 hl)]
    exact short_ends hr hm 0 (by simp [join, List.intercalate]) (by simp [join, List.intercalate])
  | succ n ih =>
    intro ws hl hws
    by_cases h2 : 2 ≤ ws.length
    · have hplus : '+' ∈ join ws := (join_plus hws).2 h2
      have hc : Lujvo.canonLujvo (join ws) = some (join ws) := by
        unfold Lujvo.canonLujvo
        rw [if_pos (List.contains_iff_mem.2 hplus)]
      have hl := fun p c => lujvo_ends (dict := dict) (a := adv dict morf (n + 2)) hws hc (fun vs hv hw => ih vs (by omega) hw) p c
      refine adv_ends (Or.inr ⟨hr, fun u h1 h2 _ => short_ends hr hm n h1 h2⟩) (fun p c => (hl p c).1) ?_
      intro p c
      rw [transUnknown, if_pos (List.contains_iff_mem.2 hplus)]
      exact (hl p c).2
    · match ws, hws, h2 with
      | [], _, _ => exact short_ends hr hm (n + 1) (by simp [join, List.intercalate]) (by simp [join, List.intercalate])
      | [x], hws, _ =>
        rw [join_single]
        exact short_ends hr hm (n + 1) (hws x (by simp)).2 (hws x (by simp)).1.2
      | _ :: _ :: _, _, h2 => exact absurd (by simp) h2

/-- C54: with a dictionary whose redirections lead to words of at most five letters without redirections, the recursion for
every word ends at a depth of a third of its length and three. -/
theorem adv_terminates (hr : Redirects dict) (hm : ShortPlain morf) {w : Word} (hp : '+' ∉ w) (p : Int) (c : Ctx) {n : Nat}
    (hn : w.length / 3 + 3 ≤ n) : adv dict morf n w p c ≠ .error .diverge := by
  have base : ∀ {x : Word}, '+' ∉ x → x.length ≤ w.length → ∀ canon, Lujvo.canonLujvo x = some canon →
      ∃ ws, canon = join ws ∧ Words ws ∧ ws.length ≤ w.length / 3 := by
    intro x hx hl canon hc
    obtain ⟨ws, rfl, h1, h2⟩ := canon_words hx hc
    exact ⟨ws, rfl, h1, by omega⟩
  have key : Ends' (adv dict morf (w.length / 3 + 3)) w := by
    have hlu : ∀ p c, attemptPattern dict (adv dict morf (w.length / 3 + 2)) w p c ≠ .error .diverge ∧
        transLujvo (adv dict morf (w.length / 3 + 2)) w p ≠ .error .diverge := by
      intro p c
      cases hc : Lujvo.canonLujvo w with
      | none =>
        rw [attemptPattern, transLujvo, hc]
        simp
      | some canon =>
        obtain ⟨ws, rfl, h1, h2⟩ := base hp (Nat.le_refl _) canon hc
        exact lujvo_ends h1 hc (fun vs hv hw => words_ends hr hm _ vs (by omega) hw) p c
    refine adv_ends (Or.inr ⟨hr, fun u h1 h2 _ => short_ends hr hm _ h1 h2⟩) (fun p c => (hlu p c).1) ?_
    intro p c
    rw [transUnknown, if_neg (by simpa using hp)]
    cases hq : morf w with
    | giveUp => simp
    | hopeless => simp
    | cmene => simp
    | lujvo => exact (hlu p c).2
    | fuivla h =>
      dsimp only
      have hx : '+' ∉ (w.take h).filter (· != ',') := fun hm => hp (List.mem_of_mem_take (List.mem_filter.1 hm).1)
      have hxl : ((w.take h).filter (· != ',')).length ≤ w.length :=
        Nat.le_trans (List.length_filter_le _ _) (by rw [List.length_take]; omega)
      have : fuivlaPrefix (adv dict morf (w.length / 3 + 2)) ((w.take h).filter (· != ',')) c ≠ .error .diverge := by
        rw [fuivlaPrefix]
        cases hc : Lujvo.canonLujvo ((w.take h).filter (· != ',')) with
        | none => simp
        | some canon =>
          obtain ⟨ws, rfl, h1, _⟩ := base hx hxl canon hc
          dsimp only
          cases hs : splitComps (join ws) with
          | error e => rw [split_error h1 hs]; simp
          | ok comp =>
            dsimp only
            have ht := (split_text h1 hs).2.2
            have hq := prefixParts_ends (a := adv dict morf (w.length / 3 + 2)) c comp (fun k hk =>
              short_ends hr hm _ (h1 _ (ht k hk)).2 (h1 _ (ht k hk)).1.2)
            cases hs : prefixParts (adv dict morf (w.length / 3 + 2)) c comp with
            | error e => exact error_ne hq hs
            | ok ts => simp
      cases hs : fuivlaPrefix (adv dict morf (w.length / 3 + 2)) ((w.take h).filter (· != ',')) c with
      | error e => exact error_ne this hs
      | ok t => simp
  rw [adv_stable hn (key p c)]
  exact key p c

/-! ## Cases -/

/-- A dictionary given by a list. -/
def ofList (l : List (String × String)) (w : Word) : Option Word :=
  (l.find? (fun e => e.1.toList == w)).map (fun e => e.2.toList)

/-- `selklama1:@klama2` and `klama2:D;goal`. -/
example : adv (ofList [("selklama1", "@klama2"), ("klama2", "D;goal")]) (fun _ => .giveUp) 5 "selklama".toList 1 .noun = .ok "goal(s)".toList := by
  decide +kernel

/-- Without an entry, the conversion is resolved by the code. -/
example : adv (ofList [("klama2", "D;goal")]) (fun _ => .lujvo) 6 "selyklama".toList 1 .noun = .ok "goal(s)".toList := by
  decide +kernel

/-- A template for the last part. -/
example : adv (ofList [("*0+klama1", "A;%1q go"), ("bakni1", "D;cow")]) (fun _ => .lujvo) 6 "bakyklama".toList 1 .noun =
    .ok "cow-ish go-er(s)".toList := by decide +kernel

/-- A lujvo part by part. -/
example : adv (ofList [("klama1", "A;go"), ("bakni1", "D;cow")]) (fun _ => .lujvo) 6 "bakyklama".toList 1 .noun =
    .ok "cow-ish-go-er(s)??".toList := by decide +kernel

/-- The hypotheses of `adv_terminates` for a dictionary with a redirection. -/
example : Redirects (fun w => if w = "selklama1".toList then some "@klama2".toList else none) ∧ ShortPlain (fun _ => .giveUp) := by
  refine ⟨?_, by intro w _ h; simp⟩
  have val : ∀ w p c t, direct (fun w => if w = "selklama1".toList then some "@klama2".toList else none) w p c = some t →
      t = "@klama2".toList ∧ w.head? ≠ some 'k' := by
    intro w p c t h
    rw [direct_order] at h
    have key : ∀ x t : Word, (if x = "selklama1".toList then some "@klama2".toList else none) = some t →
        t = "@klama2".toList ∧ x = "selklama1".toList := by
      intro x t h
      by_cases hx : x = "selklama1".toList
      · rw [if_pos hx] at h
        cases h
        exact ⟨rfl, hx⟩
      · rw [if_neg hx] at h
        cases h
    have head : ∀ y, w ++ y = "selklama1".toList → w.head? ≠ some 'k' := by
      intro y h hw
      cases w with
      | nil => cases hw
      | cons a w =>
        cases hw
        have := congrArg List.head? h
        rw [show "selklama1".toList = 's' :: "elklama1".toList from rfl] at this
        simp at this
    rcases h with h | ⟨_, h⟩
    · obtain ⟨h1, h2⟩ := key _ _ h
      rw [List.append_assoc] at h2
      exact ⟨h1, head _ h2⟩
    · obtain ⟨h1, h2⟩ := key _ _ h
      exact ⟨h1, head _ h2⟩
  intro w p c u d r h hu hd
  have h1 := (val w p c _ h).1
  have h2 : u ++ d :: r = "klama2".toList := by
    have : '@' :: (u ++ d :: r) = '@' :: "klama2".toList := h1
    exact List.tail_eq_of_cons_eq this
  have hu2 : u = "klama".toList := by
    have := (redirect_parts (r := r) hu hd).1
    rw [h2] at this
    rw [← this]
    decide
  subst hu2
  refine ⟨by decide, ?_⟩
  intro p c t ht
  exact absurd rfl (val _ p c t ht).2

/-- C54: an entry that redirects to itself sends the program into a recursion without end. -/
theorem self_redirect (n : Nat) : adv (ofList [("klama1", "@klama1")]) morf n "klama".toList 1 .noun = .error .diverge := by
  refine adv_circle (S := fun w p => w = "klama".toList ∧ p = 1) ?_ n _ _ ⟨rfl, rfl⟩
  rintro w p ⟨rfl, rfl⟩
  refine ⟨by decide, "klama".toList, '1', [], by decide +kernel, by decide, by decide, rfl, by decide⟩

/-- C54: `-` in a template for the first of two parts makes the code look at a third. -/
theorem prefix_reads_out : adv (ofList [("*5bakni+1", "-")]) (fun _ => .lujvo) 6 "bakyklama".toList 1 .noun = .error .outOfBounds := by
  decide +kernel

/-- C54: a `%` at the end of a template makes the code read past the end. -/
theorem percent_reads_out : adv (ofList [("*5+klama1", "go%")]) (fun _ => .lujvo) 6 "bakyklama".toList 1 .noun = .error .outOfBounds := by
  decide +kernel

/-- C54: a redirection to a sixth place makes the code look behind the array of places. -/
theorem sixth_place_reads_out : adv (ofList [("broda1", "@selyklama6")]) (fun _ => .lujvo) 6 "broda".toList 1 .noun = .error .outOfBounds := by
  decide +kernel

/-- C54: an unknown class. -/
theorem bad_class_crashes : adv (ofList [("klama1", "X;foo")]) (fun _ => .giveUp) 3 "klama".toList 1 .noun = .error .nullDeref := by
  decide +kernel

end Jbo.Trans
