import Verif.Bc
import Verif.BcCert
/-!
# The generated automaton of `bctables.in` in small

A hand-made automaton with readable states, and the proof that the loop of `is_bad_cmene` on the
generated tables behaves like it.
-/

namespace Jbo.Bc
open Jbo.Dfasyn

/-- What the text read so far ends in. -/
inductive Base
  | start | v | a | c | y
deriving DecidableEq, Repr

/-- A state: the ending, how much of `la`, `lai`, `doi` has been read (1 l, 2 la, 3 lai, 4 d, 5 do,
6 doi), whether it began after a lone `y`, and whether a trap has just closed. -/
structure A where
  base : Base
  prog : Nat
  weak : Bool
  hit : Option Bool
deriving DecidableEq, Repr

def nextBase (b : Base) (t : Nat) : Option Base :=
  match b with
  | .start => if t < 5 then some .v else if t = 5 then some .y else if t < 9 then some .c else none
  | .v => if t < 6 then some .v else if t < 9 then some .c else if t = 9 then some .a else none
  | .a => if t < 6 then some .v else none
  | .c => if t < 5 then some .v else if t = 5 then some .y else if t < 9 then some .c else none
  | .y => if t < 6 then none else if t < 9 then some .c else if t = 9 then some .a else none

def opens (b : Base) : Option Bool :=
  match b with
  | .start => some false
  | .v => some false
  | .y => some true
  | _ => none

def nextProg (s : A) (t : Nat) : Nat × Bool :=
  if t = 7 ∧ (opens s.base).isSome then (1, (opens s.base).getD false)
  else if t = 6 ∧ (opens s.base).isSome then (4, (opens s.base).getD false)
  else if s.prog = 1 ∧ t = 0 then (2, s.weak)
  else if s.prog = 2 ∧ t = 2 then (3, s.weak)
  else if s.prog = 4 ∧ t = 3 then (5, s.weak)
  else if s.prog = 5 ∧ t = 2 then (6, s.weak)
  else (0, false)

def nextHit (s : A) (t : Nat) : Option Bool :=
  if (s.prog = 2 ∨ s.prog = 3 ∨ s.prog = 6) ∧ 6 ≤ t ∧ t ≤ 9 then some s.weak else none

def aStep (s : A) (t : Nat) : Option A :=
  (nextBase s.base t).map (fun b => ⟨b, (nextProg s t).1, (nextProg s t).2, nextHit s t⟩)

def aStart : A := ⟨.start, 0, false, none⟩

/-- The state that a state of the generated automaton stands for. -/
def labels : List A := [
  aStart, ⟨.v, 0, false, none⟩, ⟨.y, 0, false, none⟩, ⟨.c, 4, false, none⟩, ⟨.c, 1, false, none⟩,
  ⟨.c, 0, false, none⟩, ⟨.a, 0, false, none⟩, ⟨.c, 4, true, none⟩, ⟨.c, 1, true, none⟩, ⟨.a, 0, false, none⟩,
  ⟨.v, 5, false, none⟩, aStart, ⟨.v, 2, false, none⟩, ⟨.v, 5, true, none⟩, ⟨.v, 2, true, none⟩,
  ⟨.v, 6, false, none⟩, ⟨.v, 3, false, none⟩,
  ⟨.c, 4, false, some false⟩, ⟨.c, 1, false, some false⟩, ⟨.c, 0, false, some false⟩, ⟨.a, 0, false, some false⟩,
  ⟨.v, 6, true, none⟩, ⟨.v, 3, true, none⟩,
  ⟨.c, 4, false, some true⟩, ⟨.c, 1, false, some true⟩, ⟨.c, 0, false, some true⟩, ⟨.a, 0, false, some true⟩]

def label (i : Nat) : A := labels.getD i aStart

/-- The numbers of the results that the certificate has for a state. -/
def exitOf (s : A) : Nat :=
  match s.hit with
  | some false => 1
  | some true => 2
  | none => if s.base = .c then 3 else 0

def seen (s : A) : Bool := s.prog == 1 || s.prog == 4

theorem label_step : ∀ i < 27, i ≠ 11 → ∀ t < 10,
    (bcCert.step 11 i t).map label = aStep (label i) t ∧
    ∀ j, bcCert.step 11 i t = some j → j < 27 ∧ j ≠ 11 := by
  decide +kernel

theorem label_result : ∀ i < 27, i ≠ 11 → (bcCert.cls i).exit = exitOf (label i) ∧
    (bcCert.cls i).attr = (if seen (label i) then 1 else 0) := by
  decide +kernel

def aRun : List Nat → Option A
  | [] => some aStart
  | t :: w => (aRun w).bind (fun s => aStep s t)

theorem run_label : ∀ w : List Nat, (∀ t ∈ w, t < 10) →
    match run (bcCert.step 11) 0 w with
    | none => aRun w = none
    | some i => i < 27 ∧ i ≠ 11 ∧ aRun w = some (label i)
  | [], _ => ⟨by decide, by decide, rfl⟩
  | t :: w, h => by
    have ih := run_label w (fun x hx => h x (List.mem_cons_of_mem _ hx))
    rw [run, aRun]
    cases hr : run (bcCert.step 11) 0 w with
    | none => rw [hr] at ih; simp only at ih; rw [ih]; rfl
    | some i =>
      rw [hr] at ih
      obtain ⟨h1, h2, h3⟩ := ih
      obtain ⟨h4, h5⟩ := label_step i h1 h2 t (h t List.mem_cons_self)
      rw [h3]
      simp only [Option.bind_some]
      cases hs : bcCert.step 11 i t with
      | none => rw [hs] at h4; exact h4.symm
      | some j => rw [hs] at h4; exact ⟨(h5 j hs).1, (h5 j hs).2, h4.symm⟩

/-- The texts of the results. -/
theorem verdict_exit (s : A) : verdictOf bcNfa.exit (exitOf s) =
    (match s.hit with
    | some false => .unique ⟨nSplit, .sym c!"TAG_SPLIT", true⟩
    | some true => .unique ⟨nNosplit, .sym c!"TAG_NOSPLIT", true⟩
    | none => if s.base = .c then
        .unique ⟨nOk, .and (.sym c!"TAG_OK") (.not (.or (.sym c!"TAG_SPLIT") (.sym c!"TAG_NOSPLIT"))), false⟩
      else .none) := by
  unfold exitOf
  rcases s.hit with _ | _ | _
  · simp only
    split <;> rfl
  · rfl
  · rfl

def exitText (s : A) : Name :=
  match s.hit with
  | some false => nSplit
  | some true => nNosplit
  | none => if s.base = .c then nOk else nNotComplete

/-- The tables are made from `bctables.in`, with any sorting routine and with or without `-ud`, with
the default results of `bctables.in:75,79`. -/
def Tables (G : Generated) : Prop :=
  ∃ q ud a start nodes, bcSource.compile = some (a, start) ∧ dfasyn q ud a start = some (.ok nodes) ∧
    G = generate nNotComplete nNone a.nt nodes

/-- There are such tables. -/
theorem tables_exist (q : Sorter) (ud : Bool) : ∃ a start nodes, bcSource.compile = some (a, start) ∧
    dfasyn q ud a start = some (.ok nodes) := by
  obtain ⟨nodes, h, _⟩ := cert_tables bc_certOk (by decide) (by decide) (by decide) (by decide) (by decide) q ud
  exact ⟨_, _, nodes, bc_compiles, h⟩

def textOf (d : Name) : Verdict → Name
  | .unique r => r.result
  | _ => d

theorem entry_of {table : List Name} {d : Name} {s : Nat} {v : Verdict} (h : Entry table d s v) :
    entry table (s : Int) = .ok (textOf d v) := by
  replace h : table[s]? = some (textOf d v) := h
  unfold entry
  rw [if_neg (by omega)]
  simp only [Int.toNat_natCast, h]

/-- One step of the tables. -/
theorem tables_read {G : Generated} (hG : Tables G) (w : List Nat) (hw : ∀ t ∈ w, t < 10)
    (hopen : ∀ u t, (∃ x, w = x ++ t :: u) → ∃ s, aRun u = some s ∧ s.hit = none) :
    match aRun w with
    | none => tabRun G.tab w = some (.ok (-1))
    | some s => ∃ n : Nat, tabRun G.tab w = some (.ok n) ∧ entry G.exitval n = .ok (exitText s) ∧
        entry G.attrtab n = .ok (if seen s then nSeen else nNone) := by
  obtain ⟨q, ud, a, start, nodes, h1, h2, h3⟩ := hG
  rw [bc_compiles] at h1
  simp only [Option.some.injEq, Prod.mk.injEq] at h1
  obtain ⟨ha, hs⟩ := h1
  subst ha hs
  obtain ⟨nodes', h4, _, _, h5⟩ :=
    cert_tables bc_certOk (by decide) (by decide) (by decide) (by decide) (by decide) q ud
  rw [h2] at h4
  simp only [Option.some.injEq, Except.ok.injEq] at h4
  subst h4
  have hO : ∀ w : List Nat, (∀ t ∈ w, t < 10) →
      (∀ u t, (∃ x, w = x ++ t :: u) → ∃ s, aRun u = some s ∧ s.hit = none) → Open bcNfa 27 w := by
    intro w
    induction w with
    | nil => intro _ _; trivial
    | cons t w ih =>
      intro hw hopen
      refine ⟨Nat.lt_trans (hw t List.mem_cons_self) (by decide),
        ih (fun x hx => hw x (List.mem_cons_of_mem _ hx)) ?_, ?_⟩
      · rintro u t' ⟨x, rfl⟩
        exact hopen u t' ⟨t :: x, rfl⟩
      · rintro ⟨r, hc, hr⟩
        have hl := run_label w (fun x hx => hw x (List.mem_cons_of_mem _ hx))
        cases hrun : run (bcCert.step 11) 0 w with
        | none =>
          rw [hrun] at hl
          obtain ⟨s, hs, _⟩ := hopen w t ⟨[], rfl⟩
          rw [hl] at hs; cases hs
        | some i =>
          rw [hrun] at hl
          obtain ⟨k1, k2, k3⟩ := hl
          obtain ⟨s, hs, hh⟩ := hopen w t ⟨[], rfl⟩
          rw [k3, Option.some.injEq] at hs
          subst hs
          have hx := (bc_certOk.exit w i hrun).1
          rw [(label_result i k1 k2).1, verdict_exit, hh] at hx
          have := calls_unique hc hx
          simp only at this
          split at this <;> cases this
          cases hr
  have hread := h5 nNotComplete nNone w (hO w hw hopen)
  have hl := run_label w hw
  rw [show bcNfa.nt = 11 from rfl] at hread
  cases hrun : run (bcCert.step 11) 0 w with
  | none =>
    rw [hrun] at hl hread
    simp only at hl hread
    rw [hl]
    rw [h3]; exact hread
  | some i =>
    rw [hrun] at hl hread
    obtain ⟨k1, k2, k3⟩ := hl
    obtain ⟨n, e1, e2, e3⟩ := hread
    rw [k3]
    simp only
    rw [h3]
    refine ⟨n, e1, ?_, ?_⟩
    · rw [show bcNfa.nt = 11 from rfl]
      rw [entry_of e2, (label_result i k1 k2).1, verdict_exit]
      unfold exitText
      rcases (label i).hit with _ | _ | _
      · simp only; split <;> rfl
      · rfl
      · rfl
    · rw [show bcNfa.nt = 11 from rfl]
      rw [entry_of e3, (label_result i k1 k2).2]
      cases seen (label i) <;> rfl

/-! ## The loop -/

/-- The loop of `is_bad_cmene` on the small automaton. -/
def aLoop : List Char → Nat → A → Option A → Option Nat → Except Crash (Option A × Option (Nat × Nat))
  | [], _, _, ns, _ => .ok (ns, none)
  | c :: rest, pos, s, ns, ladoi =>
    if mapchar c = 10 then aLoop rest (pos + 1) s ns ladoi
    else match aStep s (mapchar c) with
      | none => .error .bounds
      | some s' =>
        if s'.hit.isSome then match ladoi with
          | none => .error .uninit
          | some l => .ok (some s', some (l, pos))
        else aLoop rest (pos + 1) s' (some s') (if seen s' then some pos else ladoi)

def aBad (word : List Char) : Except Crash Answer :=
  match aLoop word 0 aStart none none with
  | .error e => .error e
  | .ok (none, _) => .error .uninit
  | .ok (some s, found) => .ok ⟨!decide (s.base = .c ∧ s.hit = none), decide (s.hit = some false), found⟩

theorem exitText_bad (s : A) : (exitText s = nNosplit ∨ exitText s = nSplit) ↔ s.hit.isSome = true := by
  unfold exitText
  rcases s.hit with _ | _ | _
  · by_cases h : s.base = .c <;> simp [h] <;> decide
  · simp
  · simp

theorem exitText_ok (s : A) : exitText s = nOk ↔ (s.base = .c ∧ s.hit = none) := by
  unfold exitText
  rcases s.hit with _ | _ | _
  · by_cases h : s.base = .c <;> simp [h] <;> decide
  · simp; decide
  · simp; decide

theorem exitText_split (s : A) : exitText s = nSplit ↔ s.hit = some false := by
  unfold exitText
  rcases s.hit with _ | _ | _
  · by_cases h : s.base = .c <;> simp [h] <;> decide
  · simp
  · simp; decide

/-- What the two loops return belongs together. -/
def Same (G : Generated) (r : Except Crash (Option Int × Option (Nat × Nat)))
    (r' : Except Crash (Option A × Option (Nat × Nat))) : Prop :=
  match r, r' with
  | .error e, .error e' => e = e'
  | .ok (none, f), .ok (none, f') => f = f'
  | .ok (some n, f), .ok (some s, f') => f = f' ∧ entry G.exitval n = .ok (exitText s)
  | _, _ => False

theorem mapchar_le (c : Char) : mapchar c ≤ 11 := by
  unfold mapchar
  repeat' split
  all_goals omega

theorem aStep_11 (s : A) : aStep s 11 = none := by
  obtain ⟨b, p, k, h⟩ := s
  cases b <;> rfl

theorem foreign {G : Generated} (hG : Tables G) (w : List Nat) : tabRun G.tab (11 :: w) = some (.ok (-1)) := by
  obtain ⟨q, ud, a, start, nodes, h1, h2, h3⟩ := hG
  rw [bc_compiles] at h1
  simp only [Option.some.injEq, Prod.mk.injEq] at h1
  obtain ⟨ha, hs⟩ := h1
  subst ha hs
  obtain ⟨nodes', h4, _, h5, _⟩ :=
    cert_tables bc_certOk (by decide) (by decide) (by decide) (by decide) (by decide) q ud
  rw [h2] at h4
  simp only [Option.some.injEq, Except.ok.injEq] at h4
  subst h4
  rw [h3]
  exact h5 _ _ w 11 (by decide)

theorem loop_same {G : Generated} (hG : Tables G) (rest : List Char) :
    ∀ (pos : Nat) (w : List Nat) (cs : Int) (s : A) (ns : Option Int) (ns' : Option A) (ladoi : Option Nat),
      (∀ t ∈ w, t < 10) → (∀ u t, (∃ x, w = x ++ t :: u) → ∃ s, aRun u = some s ∧ s.hit = none) →
      aRun w = some s → s.hit = none → tabRun G.tab w = some (.ok cs) →
      Same G (.ok (ns, none)) (.ok (ns', none)) →
      Same G (loop G rest pos cs ns ladoi) (aLoop rest pos s ns' ladoi) := by
  induction rest with
  | nil => intro pos w cs s ns ns' ladoi _ _ _ _ _ h; exact h
  | cons c rest ih =>
    intro pos w cs s ns ns' ladoi hw hopen hrun hhit htab hsame
    rw [loop, aLoop]
    by_cases h10 : mapchar c = 10
    · simp only [h10, if_true]
      exact ih _ w cs s ns ns' ladoi hw hopen hrun hhit htab hsame
    · simp only [h10, if_false]
      have htab' : tabRun G.tab (mapchar c :: w) = nextState G.tab (mapchar c) 3 cs := by
        rw [tabRun, htab]
      by_cases h11 : mapchar c = 11
      · rw [h11] at htab'
        rw [h11, aStep_11]
        rw [foreign hG] at htab'
        rw [← htab']
        rfl
      · have hle := mapchar_le c
        have hw' : ∀ t ∈ mapchar c :: w, t < 10 := by
          intro t ht
          rcases List.mem_cons.1 ht with rfl | ht
          · omega
          · exact hw t ht
        have hopen' : ∀ u t, (∃ x, mapchar c :: w = x ++ t :: u) → ∃ s, aRun u = some s ∧ s.hit = none := by
          rintro u t ⟨x, hx⟩
          cases x with
          | nil =>
            simp only [List.nil_append, List.cons.injEq] at hx
            rw [← hx.2]
            exact ⟨s, hrun, hhit⟩
          | cons y x =>
            simp only [List.cons_append, List.cons.injEq] at hx
            exact hopen u t ⟨x, hx.2⟩
        have hread := tables_read hG (mapchar c :: w) hw' hopen'
        have har : aRun (mapchar c :: w) = aStep s (mapchar c) := by rw [aRun, hrun]; rfl
        rw [har] at hread
        cases hs : aStep s (mapchar c) with
        | none =>
          rw [hs] at hread
          simp only at hread
          rw [htab'] at hread
          rw [show ((mapchar c : Nat) : Int) = (mapchar c : Int) from rfl] at hread
          simp only [hread]
          rfl
        | some s' =>
          rw [hs] at hread
          obtain ⟨n, e1, e2, e3⟩ := hread
          have e1' := e1
          rw [htab'] at e1
          simp only [e1, e2, e3]
          by_cases hb : s'.hit.isSome = true
          · rw [if_pos ((exitText_bad s').2 hb), if_pos hb]
            cases ladoi with
            | none => rfl
            | some l => exact ⟨rfl, e2⟩
          · rw [if_neg (fun h => hb ((exitText_bad s').1 h)), if_neg hb]
            have hl : (if (if seen s' = true then nSeen else nNone) = nSeen then some pos else ladoi) =
                (if seen s' = true then some pos else ladoi) := by
              cases seen s'
              · rw [if_neg (by decide), if_neg (by decide)]
              · rfl
            rw [hl]
            refine ih (pos + 1) (mapchar c :: w) n s' (some n) (some s') _ hw' hopen' ?_ ?_ e1' ⟨rfl, e2⟩
            · rw [har, hs]
            · simpa using hb

theorem isBadCmene_eq {G : Generated} (hG : Tables G) (word : List Char) : isBadCmene G word = aBad word := by
  have h := loop_same hG word 0 [] 0 aStart none none none (by simp) (by simp) rfl rfl rfl rfl
  unfold isBadCmene aBad
  revert h
  generalize loop G word 0 0 none none = r
  generalize aLoop word 0 aStart none none = r'
  intro h
  match r, r', h with
  | .error _, .error _, h => simp only [Same] at h; rw [h]
  | .ok (none, _), .ok (none, _), _ => rfl
  | .ok (some n, f), .ok (some s, f'), h =>
    obtain ⟨h1, h2⟩ := h
    simp only [h2, exitText_ok, exitText_split, h1]

end Jbo.Bc
