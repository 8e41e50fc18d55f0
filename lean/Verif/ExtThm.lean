import Verif.ExtSpec
import Mathlib.Data.List.Nodup
/-!
# Theorems about the records of the nodes
-/

namespace Jbo.Ext
open Spec

/-- A record: its node, its kind, its address. -/
structure Entry where
  x : Nat
  k : Kind
  p : Nat

inductive Linked (recs : Nat → Option Rec) : Option Nat → List Entry → Prop
  | nil : Linked recs none []
  | cons {e : Entry} {r : Rec} {l : List Entry} : recs e.p = some r → r.kind = e.k → Linked recs r.next l → Linked recs (some e.p) (e :: l)

structure Inv (h : Heap) (es : List Ev) (A : List Entry) : Prop where
  nodes : ∀ x, .node x ∈ es ↔ (h.ext x).isSome = true
  chain : ∀ x y, h.ext x = some y → Linked h.recs y (A.filter fun e => e.x == x)
  addrs : (A.map (·.p)).Nodup
  recs : ∀ p, (h.recs p).isSome = true ↔ p ∈ A.map (·.p)
  keys : ∀ e ∈ A, ∀ e' ∈ A, e.x = e'.x → e.k = e'.k → e = e'
  count : h.count = A.length
  of_got : ∀ x k c p, .got x k c (some p) ∈ es → ⟨x, k, p⟩ ∈ A
  got : ∀ e ∈ A, ∃ c, .got e.x e.k c (some e.p) ∈ es
  made : ∀ e ∈ A, .node e.x ∈ es
  data : ∀ p r f w, h.recs p = some r → told es p f = some w → r.data f = w

theorem set_same {α : Type} (f : Nat → α) (i : Nat) (v : α) : set f i v i = v := if_pos rfl
theorem set_other {α : Type} (f : Nat → α) {i j : Nat} (v : α) (h : j ≠ i) : set f i v j = f j := if_neg h

theorem walk_linked (h : Heap) (k : Kind) : ∀ (l : List Entry) (y : Option Nat) (n : Nat), Linked h.recs y l → l.length ≤ n →
    walk h k n y = .ok ((l.find? fun e => e.k == k).map (·.p))
  | [], _, n, hl, _ => by cases hl; cases n <;> rfl
  | e :: l, _, 0, hl, hn => by rw [List.length_cons] at hn; omega
  | e :: l, _, n + 1, hl, hn => by
    cases hl with
    | @cons _ r _ h1 h2 h3 =>
      rw [walk, h1]
      by_cases hk : e.k = k
      · rw [List.find?_cons_of_pos (by simp [hk])]
        simp [h2, hk]
      · rw [List.find?_cons_of_neg (by simp [hk])]
        simp only [h2, hk, if_false]
        exact walk_linked h k l _ n h3 (by rw [List.length_cons] at hn; omega)

theorem linked_other {recs recs' : Nat → Option Rec} {l : List Entry} : ∀ {y : Option Nat}, Linked recs y l →
    (∀ e ∈ l, ∀ r, recs e.p = some r → ∃ r', recs' e.p = some r' ∧ r'.kind = r.kind ∧ r'.next = r.next) → Linked recs' y l := by
  intro y hl
  induction hl with
  | nil => exact fun _ => .nil
  | @cons e r l h1 h2 _ ih =>
    intro hf
    obtain ⟨r', g1, g2, g3⟩ := hf e (List.mem_cons_self ..) r h1
    refine .cons g1 (g2.trans h2) ?_
    rw [g3]
    exact ih fun e' he' => hf e' (List.mem_cons_of_mem _ he')

/-- The search for a record, in terms of the entries. -/
theorem lookup_inv {h : Heap} {es : List Ev} {A : List Entry} (hi : Inv h es A) {x : Nat} (hx : .node x ∈ es) (k : Kind) :
    ∃ r, lookup h x k = .ok r ∧ (∀ p, r = some p ↔ ⟨x, k, p⟩ ∈ A) := by
  obtain ⟨y, hy⟩ := Option.isSome_iff_exists.1 ((hi.nodes x).1 hx)
  have hl := hi.chain x y hy
  refine ⟨((A.filter fun e => e.x == x).find? fun e => e.k == k).map (·.p), ?_, ?_⟩
  · rw [lookup, hy]
    exact walk_linked h k _ y h.count hl (by rw [hi.count]; exact List.length_filter_le ..)
  · intro p
    constructor
    · intro hp
      obtain ⟨e, he, rfl⟩ := Option.map_eq_some_iff.1 hp
      have hm := List.mem_of_find?_eq_some he
      have hk := List.find?_some he
      rw [List.mem_filter] at hm
      have h1 : e.x = x := by simpa using hm.2
      have h2 : e.k = k := by simpa using hk
      subst h1 h2
      exact hm.1
    · intro hp
      cases hf : (A.filter fun e => e.x == x).find? fun e => e.k == k with
      | none =>
        have := List.find?_eq_none.1 hf ⟨x, k, p⟩ (List.mem_filter.2 ⟨hp, by simp⟩)
        simp at this
      | some e =>
        have hm := List.mem_of_find?_eq_some hf
        have hk := List.find?_some hf
        rw [List.mem_filter] at hm
        have := hi.keys e hm.1 ⟨x, k, p⟩ hp (by simpa using hm.2) (by simpa using hk)
        rw [this]
        rfl

theorem told_got (x : Nat) (k : Kind) (c : Bool) (r : Option Nat) (es : List Ev) (p f : Nat) : told (.got x k c r :: es) p f =
    (told es p f).orElse fun _ => if k = .glosstype ∧ r = some p ∧ f = 1 then some 0 else none := by
  have hno : ∀ o : Option Nat, o.orElse (fun _ => none) = o := by intro o; cases o <;> rfl
  cases k <;> cases r <;> simp [told, hno]

theorem told_known {x p : Nat} {c : Bool} : ∀ {es : List Ev}, .got x .glosstype c (some p) ∈ es → told es p 1 ≠ none
  | e :: es, hm, hn => by
    rcases List.mem_cons.1 hm with rfl | hm
    · rw [told_got] at hn
      cases hs : told es p 1 <;> rw [hs] at hn <;> simp at hn
    · have ih := told_known hm
      cases e with
      | node => exact ih hn
      | saw => exact ih hn
      | got =>
        rw [told_got] at hn
        cases hs : told es p 1 with
        | none => exact ih hs
        | some w => rw [hs] at hn; cases hn
      | wrote =>
        rw [told] at hn
        split at hn
        · cases hn
        · exact ih hn

/-- A question that makes no record. -/
theorem inv_asked {h : Heap} {es : List Ev} {A : List Entry} (hi : Inv h es A) {x : Nat} {k : Kind} {c : Bool} {r : Option Nat}
    (hr : ∀ p, r = some p → ⟨x, k, p⟩ ∈ A) : Inv h (.got x k c r :: es) A where
  nodes y := by rw [← hi.nodes]; simp
  chain := hi.chain
  addrs := hi.addrs
  recs := hi.recs
  keys := hi.keys
  count := hi.count
  of_got y k' c' p hm := by
    rcases List.mem_cons.1 hm with e | hm
    · injection e with e1 e2 e3 e4
      subst e1 e2
      exact hr p e4.symm
    · exact hi.of_got y k' c' p hm
  got e he := by
    obtain ⟨c', h1⟩ := hi.got e he
    exact ⟨c', List.mem_cons_of_mem _ h1⟩
  made e he := List.mem_cons_of_mem _ (hi.made e he)
  data p q f w hp ht := by
    rw [told_got] at ht
    cases hs : told es p f with
    | some w' =>
      rw [hs] at ht
      exact hi.data p q f w hp (hs.trans ht)
    | none =>
      rw [hs] at ht
      by_cases hc : k = .glosstype ∧ r = some p ∧ f = 1
      · obtain ⟨rfl, rfl, rfl⟩ := hc
        obtain ⟨c', hg⟩ := hi.got _ (hr p rfl)
        exact absurd hs (told_known hg)
      · rw [if_neg hc] at ht
        cases ht

/-- A record that is made. -/
theorem inv_made {h : Heap} {es : List Ev} {A : List Entry} (hi : Inv h es A) {x a : Nat} {k : Kind} {c : Bool} {y : Option Nat} {g : Nat → Nat}
    (hy : h.ext x = some y) (hn : ∀ p, ⟨x, k, p⟩ ∉ A) (ha : a ∉ A.map (·.p)) (hg : k = .glosstype → g tertau = 0)
    (hf : ∀ y k c, .got y k c (some a) ∉ es) (hw : ∀ f, told es a f = none) :
    Inv ⟨set h.recs a (some ⟨k, y, g⟩), set h.ext x (some (some a)), h.count + 1⟩ (.got x k c (some a) :: es) (⟨x, k, a⟩ :: A) where
  nodes z := by
    show _ ↔ (set h.ext x (some (some a)) z).isSome = true
    by_cases hz : z = x
    · subst hz
      rw [set_same]
      have := (hi.nodes z).2 (by rw [hy]; rfl)
      simp [this]
    · rw [set_other _ _ hz, ← hi.nodes]; simp
  chain z y' hz := by
    have hz' : set h.ext x (some (some a)) z = some y' := hz
    have fr : ∀ e ∈ A, ∀ r, h.recs e.p = some r → ∃ r', set h.recs a (some ⟨k, y, g⟩) e.p = some r' ∧ r'.kind = r.kind ∧ r'.next = r.next := by
      intro e he r hr
      refine ⟨r, ?_, rfl, rfl⟩
      rw [set_other _ _ (fun e' => ha (by rw [← e']; exact List.mem_map_of_mem he)), hr]
    by_cases hzx : z = x
    · subst hzx
      rw [set_same] at hz'
      cases hz'
      rw [List.filter_cons_of_pos (by simp)]
      refine Linked.cons (e := ⟨z, k, a⟩) (set_same ..) rfl ?_
      exact linked_other (hi.chain z y hy) (fun e he => fr e (List.mem_filter.1 he).1)
    · rw [set_other _ _ hzx] at hz'
      rw [List.filter_cons_of_neg (by simpa using fun e => hzx e.symm)]
      exact linked_other (hi.chain z y' hz') (fun e he => fr e (List.mem_filter.1 he).1)
  addrs := by
    rw [List.map_cons, List.nodup_cons]
    exact ⟨ha, hi.addrs⟩
  recs p := by
    show (set h.recs a (some ⟨k, y, g⟩) p).isSome = true ↔ _
    rw [List.map_cons, List.mem_cons]
    by_cases hp : p = a
    · subst hp
      rw [set_same]; simp
    · rw [set_other _ _ hp, hi.recs]; simp [hp]
  keys e he e' he' h1 h2 := by
    rcases List.mem_cons.1 he with rfl | he <;> rcases List.mem_cons.1 he' with rfl | he'
    · rfl
    · obtain ⟨x', k', p'⟩ := e'
      cases h1; cases h2
      exact absurd he' (hn _)
    · obtain ⟨x', k', p'⟩ := e
      cases h1; cases h2
      exact absurd he (hn _)
    · exact hi.keys e he e' he' h1 h2
  count := by rw [List.length_cons, ← hi.count]
  of_got z k' c' p hm := by
    rcases List.mem_cons.1 hm with e | hm
    · injection e with e1 e2 e3 e4
      cases e1; cases e2; cases e4
      exact List.mem_cons_self ..
    · exact List.mem_cons_of_mem _ (hi.of_got z k' c' p hm)
  got e he := by
    rcases List.mem_cons.1 he with rfl | he
    · exact ⟨c, List.mem_cons_self ..⟩
    · obtain ⟨c', h1⟩ := hi.got e he
      exact ⟨c', List.mem_cons_of_mem _ h1⟩
  made e he := by
    rcases List.mem_cons.1 he with rfl | he
    · exact List.mem_cons_of_mem _ ((hi.nodes x).2 (by rw [hy]; rfl))
    · exact List.mem_cons_of_mem _ (hi.made e he)
  data p q f w hp ht := by
    have hp' : set h.recs a (some ⟨k, y, g⟩) p = some q := hp
    rw [told_got] at ht
    by_cases hpa : p = a
    · subst hpa
      rw [set_same] at hp'
      cases hp'
      rw [hw] at ht
      by_cases hc : k = .glosstype ∧ some p = some p ∧ f = 1
      · obtain ⟨hk, _, rfl⟩ := hc
        subst hk
        rw [if_pos ⟨rfl, rfl, rfl⟩] at ht
        cases ht
        exact hg rfl
      · rw [if_neg hc] at ht
        cases ht
    · rw [set_other _ _ hpa] at hp'
      rw [if_neg (by rintro ⟨_, e, _⟩; cases e; exact hpa rfl)] at ht
      refine hi.data p q f w hp' ?_
      rw [← ht]
      cases told es p f <;> rfl

/-- Nothing is known of records that were not handed out. -/
theorem told_none {h : Heap} {es : List Ev} (hr : Reach h es) {p f : Nat} : (∀ x k c, .got x k c (some p) ∉ es) → told es p f = none := by
  induction hr with
  | start => exact fun _ => rfl
  | @step h es op h' e hr hl hs ih =>
    intro hn
    have ih := ih fun x k c hm => hn x k c (List.mem_cons_of_mem _ hm)
    cases e with
    | node x => exact ih
    | saw q g v => exact ih
    | got x k c r =>
      rw [told_got, ih, if_neg (by rintro ⟨rfl, rfl, _⟩; exact hn x _ c (List.mem_cons_self ..))]
      rfl
    | wrote q g v =>
      rw [told]
      split
      · rename_i hc
        obtain ⟨rfl, rfl⟩ := hc
        cases op with
        | node x => simp [step] at hs
        | prop x k c a g' => rw [step] at hs; split at hs <;> simp at hs
        | read p' f' => rw [step] at hs; split at hs <;> simp at hs
        | write p' f' v' =>
          rw [step] at hs
          split at hs
          · cases hs
          · cases hs
            obtain ⟨x, k, c, hm⟩ := hl
            exact absurd (List.mem_cons_of_mem _ hm) (hn x k c)
      · exact ih

/-- A node that is made. -/
theorem inv_node {h : Heap} {es : List Ev} {A : List Entry} (hi : Inv h es A) {x : Nat} (hx : .node x ∉ es) :
    Inv { h with ext := set h.ext x (some none) } (.node x :: es) A where
  nodes z := by
    show _ ↔ (set h.ext x (some none) z).isSome = true
    by_cases hz : z = x
    · subst hz; rw [set_same]; simp
    · rw [set_other _ _ hz, ← hi.nodes]; simp [hz]
  chain z y hz := by
    have hz' : set h.ext x (some none) z = some y := hz
    by_cases hzx : z = x
    · subst hzx
      rw [set_same] at hz'
      cases hz'
      have : A.filter (fun e => e.x == z) = [] := by
        rw [List.filter_eq_nil_iff]
        intro e he hc
        have : e.x = z := by simpa using hc
        exact hx (this ▸ hi.made e he)
      rw [this]
      exact .nil
    · rw [set_other _ _ hzx] at hz'
      exact hi.chain z y hz'
  addrs := hi.addrs
  recs := hi.recs
  keys := hi.keys
  count := hi.count
  of_got y k c p hm := hi.of_got y k c p (by simpa using hm)
  got e he := by
    obtain ⟨c, h1⟩ := hi.got e he
    exact ⟨c, List.mem_cons_of_mem _ h1⟩
  made e he := List.mem_cons_of_mem _ (hi.made e he)
  data p q f w hp ht := hi.data p q f w hp ht

/-- A field that is read. -/
theorem inv_saw {h : Heap} {es : List Ev} {A : List Entry} (hi : Inv h es A) (p f v : Nat) : Inv h (.saw p f v :: es) A where
  nodes z := by rw [← hi.nodes]; simp
  chain := hi.chain
  addrs := hi.addrs
  recs := hi.recs
  keys := hi.keys
  count := hi.count
  of_got y k c p hm := hi.of_got y k c p (by simpa using hm)
  got e he := by
    obtain ⟨c, h1⟩ := hi.got e he
    exact ⟨c, List.mem_cons_of_mem _ h1⟩
  made e he := List.mem_cons_of_mem _ (hi.made e he)
  data p q f w hp ht := hi.data p q f w hp ht

/-- A field that is written. -/
theorem inv_wrote {h : Heap} {es : List Ev} {A : List Entry} (hi : Inv h es A) {p : Nat} {r : Rec} (hp : h.recs p = some r) (f v : Nat) :
    Inv { h with recs := set h.recs p (some { r with data := set r.data f v }) } (.wrote p f v :: es) A where
  nodes z := by rw [← hi.nodes]; simp
  chain z y hz := by
    refine linked_other (hi.chain z y hz) fun e he r' hr' => ?_
    show ∃ q, set h.recs p (some { r with data := set r.data f v }) e.p = some q ∧ _
    by_cases he : e.p = p
    · rw [he, set_same]
      rw [he, hp] at hr'
      cases hr'
      exact ⟨_, rfl, rfl, rfl⟩
    · rw [set_other _ _ he]
      exact ⟨r', hr', rfl, rfl⟩
  addrs := hi.addrs
  recs z := by
    show (set h.recs p (some { r with data := set r.data f v }) z).isSome = true ↔ _
    rw [← hi.recs]
    by_cases hz : z = p
    · rw [hz, set_same, hp]; simp
    · rw [set_other _ _ hz]
  keys := hi.keys
  count := hi.count
  of_got y k c p hm := hi.of_got y k c p (by simpa using hm)
  got e he := by
    obtain ⟨c, h1⟩ := hi.got e he
    exact ⟨c, List.mem_cons_of_mem _ h1⟩
  made e he := List.mem_cons_of_mem _ (hi.made e he)
  data z q g w hz ht := by
    have hz' : set h.recs p (some { r with data := set r.data f v }) z = some q := hz
    rw [told] at ht
    by_cases hzp : z = p
    · subst hzp
      rw [set_same] at hz'
      cases hz'
      show set r.data f v g = w
      by_cases hg : g = f
      · subst hg
        rw [if_pos ⟨rfl, rfl⟩] at ht
        cases ht
        exact set_same ..
      · rw [if_neg (fun h => hg h.2.symm)] at ht
        rw [set_other _ _ hg]
        exact hi.data z r g w hp ht
    · rw [set_other _ _ hzp] at hz'
      rw [if_neg (fun h => hzp h.1.symm)] at ht
      exact hi.data z q g w hz' ht

/-- The record that `prop_…` makes. -/
def first (k : Kind) (g : Nat → Nat) : Nat → Nat := if k = .glosstype then set g tertau 0 else g

/-- What the functions of `properties.c` do, once it is known whether the record is there. -/
theorem prop_found {h : Heap} {x : Nat} {k : Kind} {p : Nat} (hl : lookup h x k = .ok (some p)) (c : Bool) (a : Nat) (g : Nat → Nat) :
    prop h x k c a g = .ok (some p, h) := by
  unfold prop
  split
  · rename_i hk
    subst hk
    rw [glosstype, fetch, if_neg (by decide), hl]
  · rw [fetch]
    cases c
    · rw [if_neg (by decide), hl]
    · rw [if_pos rfl, obtain', hl]

theorem prop_absent {h : Heap} {x : Nat} {k : Kind} (hl : lookup h x k = .ok none) (a : Nat) (g : Nat → Nat) : prop h x k false a g = .ok (none, h) := by
  unfold prop
  split
  · rename_i hk
    subst hk
    rw [glosstype, fetch, if_neg (by decide), hl]
    rfl
  · rw [fetch, if_neg (by decide), hl]

theorem prop_makes {h : Heap} {x : Nat} {k : Kind} {y : Option Nat} (hy : h.ext x = some y) (hl : lookup h x k = .ok none) (a : Nat) (g : Nat → Nat) :
    prop h x k true a g = .ok (some a, ⟨set h.recs a (some ⟨k, y, first k g⟩), set h.ext x (some (some a)), h.count + 1⟩) := by
  unfold prop
  split
  · rename_i hk
    subst hk
    rw [glosstype, fetch, if_neg (by decide), hl]
    simp only [if_true, fetch, obtain', hl, hy, write, set_same]
    congr 3
    funext j
    by_cases hj : j = a
    · subst hj; rw [set_same, set_same]; rfl
    · rw [set_other _ _ hj, set_other _ _ hj, set_other _ _ hj]
  · rename_i hk
    rw [fetch, if_pos rfl, obtain', hl, hy, first, if_neg hk]

/-- The program goes on, the answer is right, and what held holds on. -/
theorem step_inv {h : Heap} {es : List Ev} {A : List Entry} (hr : Reach h es) (hi : Inv h es A) {op : Op} (hl : Legal es op) :
    ∃ h' e, step h op = .ok (h', e) ∧ Answers op e ∧ Right es e ∧ ∃ B, Inv h' (e :: es) B := by
  have rec_of : ∀ {x k c p}, .got x k c (some p) ∈ es → ∃ r, h.recs p = some r := fun hm =>
    Option.isSome_iff_exists.1 ((hi.recs _).2 (List.mem_map_of_mem (f := (·.p)) (hi.of_got _ _ _ _ hm)))
  cases op with
  | node x => exact ⟨_, _, rfl, rfl, trivial, A, inv_node hi hl⟩
  | write p f v =>
    obtain ⟨x, k, c, hm⟩ := hl
    obtain ⟨r, hp⟩ := rec_of hm
    refine ⟨_, _, ?_, rfl, trivial, A, inv_wrote hi hp f v⟩
    rw [step, write, hp]
  | read p f =>
    obtain ⟨x, k, c, hm⟩ := hl
    obtain ⟨r, hp⟩ := rec_of hm
    refine ⟨h, .saw p f (r.data f), ?_, ⟨_, rfl⟩, fun w hw => hi.data p r f w hp hw, A, inv_saw hi ..⟩
    rw [step, hp]
  | prop x k c a g =>
    obtain ⟨hx, ha⟩ := hl
    obtain ⟨r, hf, hs⟩ := lookup_inv hi hx k
    cases r with
    | some p =>
      have hA := (hs p).1 rfl
      refine ⟨h, .got x k c (some p), ?_, ⟨_, rfl⟩, ⟨?_, ?_⟩, A, inv_asked hi (fun q hq => by cases hq; exact hA)⟩
      · rw [step, prop_found hf]
      · intro c' q hm
        rw [(hs q).2 (hi.of_got _ _ _ _ hm)]
      · intro hn
        obtain ⟨c', hm⟩ := hi.got _ hA
        exact absurd hm (hn c' p)
    | none =>
      have hno : ∀ p, ⟨x, k, p⟩ ∉ A := fun p hp => nomatch (hs p).2 hp
      cases c with
      | false =>
        refine ⟨h, .got x k false none, ?_, ⟨_, rfl⟩, ⟨?_, fun _ => rfl⟩, A, inv_asked hi nofun⟩
        · rw [step, prop_absent hf]
        · intro c' q hm
          exact absurd (hi.of_got _ _ _ _ hm) (hno q)
      | true =>
        obtain ⟨y, hy⟩ := Option.isSome_iff_exists.1 ((hi.nodes x).1 hx)
        refine ⟨_, .got x k true (some a), ?_, ⟨_, rfl⟩, ⟨?_, fun _ => ⟨a, rfl, ha⟩⟩, _, inv_made hi (g := first k g) hy hno ?_ ?_ ha
          (fun f => told_none hr ha)⟩
        · rw [step, prop_makes hy hf]
        · intro c' q hm
          exact absurd (hi.of_got _ _ _ _ hm) (hno q)
        · intro hm
          obtain ⟨e, he, hp⟩ := List.mem_map.1 hm
          obtain ⟨c', hg⟩ := hi.got e he
          rw [hp] at hg
          exact ha _ _ _ hg
        · intro hk
          rw [first, if_pos hk, set_same]

theorem reach_inv {h : Heap} {es : List Ev} (hr : Reach h es) : ∃ A, Inv h es A := by
  induction hr with
  | start =>
    refine ⟨[], ?_⟩
    constructor
    · intro x; simp [empty]
    · intro x y h; cases h
    · exact List.nodup_nil
    · intro p; simp [empty]
    · intro e he; cases he
    · rfl
    · intro x k c p hm; cases hm
    · intro e he; cases he
    · intro e he; cases he
    · intro p r f w h; cases h
  | step hr hl hs ih =>
    obtain ⟨A, hi⟩ := ih
    obtain ⟨h1, e1, h2, _, _, h3⟩ := step_inv hr hi hl
    rw [h2] at hs
    cases hs
    exact h3

/-- **The records of the nodes**: whatever the passes have done, whatever they do next that they may do, the program neither reads outside nor loops, and its
answer is right. -/
theorem records {h : Heap} {es : List Ev} (hr : Reach h es) {op : Op} (hl : Legal es op) :
    ∃ h' e, step h op = .ok (h', e) ∧ Answers op e ∧ Right es e := by
  obtain ⟨A, hi⟩ := reach_inv hr
  obtain ⟨h', e, h1, h2, h3, _⟩ := step_inv hr hi hl
  exact ⟨h', e, h1, h2, h3⟩

/-- **Records are apart**: a record is of one node and of one kind. -/
theorem apart {h : Heap} {es : List Ev} (hr : Reach h es) {x y p : Nat} {k l : Kind} {c d : Bool} (h1 : .got x k c (some p) ∈ es)
    (h2 : .got y l d (some p) ∈ es) : x = y ∧ k = l := by
  obtain ⟨A, hi⟩ := reach_inv hr
  have g1 := hi.of_got _ _ _ _ h1
  have g2 := hi.of_got _ _ _ _ h2
  have : (⟨x, k, p⟩ : Entry) = ⟨y, l, p⟩ := List.inj_on_of_nodup_map hi.addrs g1 g2 rfl
  cases this
  exact ⟨rfl, rfl⟩

/-! ## An example -/

/-- Some steps from the beginning. -/
def steps (h : Heap) : List Op → Except Bad (List Ev)
  | [] => .ok []
  | op :: ops => match step h op with
    | .error e => .error e
    | .ok (h', e) => match steps h' ops with
      | .error e => .error e
      | .ok es => .ok (e :: es)

example : steps empty [.node 1, .node 2, .prop 1 .glosstype true 10 (fun _ => 77), .read 10 1, .read 10 0, .prop 2 .glosstype false 11 (fun _ => 77),
    .prop 1 .conv true 12 (fun _ => 78), .write 12 0 3, .prop 1 .glosstype true 13 (fun _ => 79), .write 10 1 1, .read 10 1, .read 12 0] =
    .ok [.node 1, .node 2, .got 1 .glosstype true (some 10), .saw 10 1 0, .saw 10 0 77, .got 2 .glosstype false none, .got 1 .conv true (some 12),
      .wrote 12 0 3, .got 1 .glosstype true (some 10), .wrote 10 1 1, .saw 10 1 1, .saw 12 0 3] := by rfl

/-- The states of the theorem are reached: a node with two records. -/
example : ∃ h, Reach h [.got 1 .conv true (some 12), .got 1 .glosstype true (some 10), .node 1] :=
  ⟨_, .step (op := .prop 1 .conv true 12 fun _ => 78) (.step (op := .prop 1 .glosstype true 10 fun _ => 77) (.step (op := .node 1) .start (by simp [Legal]) rfl)
    (by simp [Legal]) rfl) (by simp [Legal]) rfl⟩

end Jbo.Ext
