import Verif.StagBisim
import Verif.StagText
import Verif.CategThm
/-!
# The tables for tenses accept the tenses

From the bytes of `stag_nfa.in` through scanner, parser, blocks, subset construction and table compression to the
automaton that `categorize_tenses` runs.
-/

namespace Jbo.Stag
open Jbo.Categ Jbo.CategSpec Jbo.Dfasyn
set_option maxRecDepth 100000

/-- `G` is what `dfasyn` makes of the text of `stag_nfa.in`, with any sorting routine and with or without `-ud`; the
default result is that of `stag_nfa.in:130`, the default attribute is not used. -/
def Made (G : Generated) : Prop :=
  ∃ src q ud a start nodes d, DfaSrc.ofText text = some src ∧ src.compile = some (a, start) ∧
    dfasyn q ud a start = some (.ok nodes) ∧ G = generate c!"FAILURE" d a.nt nodes

/-- What `categorize_tenses` sees (`categ.c:357-367`): state 0, `stag_next_state` with an answer that is not
negative, and the exit value, which is 1 for `SUCCESS` and 0 for `FAILURE` (`stag_nfa.in:12-13`).  A crash of the
tables counts as no answer here; `tables_safe` excludes it. -/
def tableDfa (G : Generated) : Dfa where
  σ := Nat
  init := 0
  step := fun s t => match nextState G.tab (code t) 3 s with
    | some (.ok v) => if v < 0 then none else some v.toNat
    | _ => none
  acc := fun s => decide (G.exitval[s]? = some c!"SUCCESS")

theorem no_early (w : List Nat) : ¬ EarlyAt stagNfa 0 w := by
  rintro ⟨r, hc, hr⟩
  have hm : r ∈ stagNfa.exit.results := by
    generalize hv : Verdict.unique r = v at hc
    generalize stagNfa.exit.results = rs at hc
    cases hc with
    | none => cases hv
    | unique => cases hv; simp
    | ambiguous => cases hv
  have hall : ∀ r ∈ stagNfa.exit.results, r.early = false := by decide
  rw [hall r hm] at hr
  cases hr

theorem open_codes : ∀ w : List Nat, (∀ t ∈ w, t < 25) → Open stagNfa 0 w
  | [], _ => trivial
  | t :: w, h => ⟨h t List.mem_cons_self, open_codes w (fun x hx => h x (List.mem_cons_of_mem _ hx)), no_early w⟩

theorem snoc_ind {α : Type} {P : List α → Prop} (h0 : P []) (h1 : ∀ w t, P w → P (w ++ [t])) (w : List α) : P w := by
  have : ∀ v : List α, P v.reverse := by
    intro v
    induction v with
    | nil => exact h0
    | cons t v ih => rw [List.reverse_cons]; exact h1 _ _ ih
  simpa using this w.reverse

theorem run_append (A : Dfa) : ∀ (w : List Categ.Stag) (s : A.σ) (t : Categ.Stag),
    A.run s (w ++ [t]) = (A.run s w).bind (fun s' => A.step s' t)
  | [], s, t => by
    rw [List.nil_append, run_cons]
    show _ = A.step s t
    cases A.step s t <;> rfl
  | x :: w, s, t => by
    rw [List.cons_append, run_cons, run_cons]
    cases A.step s x with
    | none => rfl
    | some s' => exact run_append A w s' t

/-- The two ways to run the automaton of the certificate. -/
theorem run_rev (step : Nat → Nat → Option Nat) (acc : Nat → Bool) (w : List Categ.Stag) :
    Dfasyn.run step 0 (w.map code).reverse = (numDfa step acc).run (numDfa step acc).init w := by
  induction w using snoc_ind with
  | h0 => rfl
  | h1 w t ih =>
    rw [run_append, ← ih, List.map_append, List.reverse_append]
    rfl

/-- The tables on a word of tenses. -/
theorem made_reads {G : Generated} (h : Made G) (w : List Categ.Stag) :
    (¬ Beginning tenseRE.lang w → tabRun G.tab (w.map code).reverse = some (.ok (-1))) ∧
    (Beginning tenseRE.lang w → ∃ s : Nat, tabRun G.tab (w.map code).reverse = some (.ok s) ∧
      ((tenseRE.lang w ∧ G.exitval[s]? = some c!"SUCCESS") ∨ (¬ tenseRE.lang w ∧ G.exitval[s]? = some c!"FAILURE"))) := by
  obtain ⟨src, q, ud, a, start, nodes, d, h1, h2, h3, rfl⟩ := h
  rw [text_source] at h1
  cases h1
  rw [stag_compiles] at h2
  cases h2
  obtain ⟨nodes', h4, _, _, h5⟩ :=
    cert_tables stag_certOk (by decide) (by decide) (by decide) (by decide) (by decide) q ud
  rw [h3] at h4
  cases h4
  have h6 := h5 c!"FAILURE" d (w.map code).reverse (open_codes _ (by
    intro t ht
    obtain ⟨x, _, rfl⟩ := List.mem_map.1 (List.mem_reverse.1 ht)
    exact code_lt x))
  rw [show stagNfa.nt = 25 from rfl, run_rev _ certAcc] at h6
  have hj := cert_recognises.jam w
  cases e : (numDfa (stagCert.step 25) certAcc).run (numDfa (stagCert.step 25) certAcc).init w with
  | none =>
    rw [e] at h6
    exact ⟨fun _ => h6, fun hb => absurd hb (hj.1 e)⟩
  | some i =>
    rw [e] at h6
    refine ⟨fun hb => ?_, fun _ => ?_⟩
    · rw [hj.2 hb] at e; cases e
    · obtain ⟨s, k1, k2, _⟩ := h6
      refine ⟨s, k1, ?_⟩
      unfold Entry at k2
      rw [show stagNfa.nt = 25 from rfl, k2]
      have hcl : ∀ k ∈ stagCert.classes ++ [⟨0, 0, 0, 0⟩], (match verdictOf stagNfa.exit k.exit with
        | .unique r => r.result | _ => c!"FAILURE") =
        if Nat.beq k.exit 0 == false then c!"SUCCESS" else c!"FAILURE" := by decide +kernel
      have hmem : stagCert.cls i ∈ stagCert.classes ++ [⟨0, 0, 0, 0⟩] := by
        unfold Cert.cls
        rw [List.getD_eq_getElem?_getD]
        cases hx : stagCert.classes[(stagCert.node i).cls]? with
        | none => simp
        | some k => exact List.mem_append.2 (.inl (List.mem_of_getElem? hx))
      have hac := cert_recognises.acc w i e
      have hx := hcl _ hmem
      have hdef : (numDfa (stagCert.step 25) certAcc).acc i = (Nat.beq (stagCert.cls i).exit 0 == false) := rfl
      rw [hdef] at hac
      by_cases hl : tenseRE.lang w
      · rw [if_pos (hac.2 hl)] at hx
        exact .inl ⟨hl, congrArg some hx⟩
      · rw [if_neg (fun hh => hl (hac.1 hh))] at hx
        exact .inr ⟨hl, congrArg some hx⟩

/-- There are such tables, whatever the sorting routine and the options. -/
theorem made (q : Sorter) (ud : Bool) : ∃ src a start nodes, DfaSrc.ofText text = some src ∧
    src.compile = some (a, start) ∧ dfasyn q ud a start = some (.ok nodes) ∧
    Made (generate c!"FAILURE" [] a.nt nodes) := by
  obtain ⟨nodes, h4, _⟩ :=
    cert_tables stag_certOk (by decide) (by decide) (by decide) (by decide) (by decide) q ud
  exact ⟨_, _, _, nodes, text_source, stag_compiles, h4, _, q, ud, _, _, nodes, _, text_source, stag_compiles, h4, rfl⟩

/-- Reading the words of a text, the tables never crash: the answer is -1 or a state with an exit value. -/
theorem tables_safe {G : Generated} (h : Made G) (w : List Categ.Stag) :
    tabRun G.tab (w.map code).reverse = some (.ok (-1)) ∨
    ∃ s : Nat, tabRun G.tab (w.map code).reverse = some (.ok s) ∧
      (G.exitval[s]? = some c!"SUCCESS" ∨ G.exitval[s]? = some c!"FAILURE") := by
  obtain ⟨h1, h2⟩ := made_reads h w
  by_cases hb : Beginning tenseRE.lang w
  · obtain ⟨s, k1, k2⟩ := h2 hb
    exact .inr ⟨s, k1, k2.imp (·.2) (·.2)⟩
  · exact .inl (h1 hb)

/-- The run of the tables in the two forms. -/
theorem table_run {G : Generated} (h : Made G) (w : List Categ.Stag) :
    (¬ Beginning tenseRE.lang w → (tableDfa G).run (tableDfa G).init w = none) ∧
    (Beginning tenseRE.lang w → ∃ s : Nat, (tableDfa G).run (tableDfa G).init w = some s ∧
      tabRun G.tab (w.map code).reverse = some (.ok s)) := by
  induction w using snoc_ind with
  | h0 => exact ⟨fun hb => absurd ⟨[.KI], by simp [tenseRE, HAdd.hAdd, Add.add, RE.lang]⟩ hb, fun _ => ⟨0, rfl, rfl⟩⟩
  | h1 w t ih =>
    obtain ⟨g1, g2⟩ := made_reads h (w ++ [t])
    have hstep : ∀ s : Nat, tabRun G.tab (w.map code).reverse = some (.ok s) →
        tabRun G.tab ((w ++ [t]).map code).reverse = nextState G.tab (code t) 3 s := by
      intro s hs
      rw [List.map_append, List.reverse_append]
      show (match tabRun G.tab (w.map code).reverse with
        | some (.ok s) => nextState G.tab (code t) 3 s
        | r => r) = _
      rw [hs]
    have happ := run_append (tableDfa G) w (tableDfa G).init t
    by_cases hb : Beginning tenseRE.lang w
    · obtain ⟨s, k1, k2⟩ := ih.2 hb
      rw [k1] at happ
      have hs := hstep s k2
      have happ' : (tableDfa G).run (tableDfa G).init (w ++ [t]) = match nextState G.tab (code t) 3 s with
        | some (.ok v) => if v < 0 then none else some v.toNat
        | _ => none := happ
      refine ⟨fun hn => ?_, fun hy => ?_⟩
      · rw [happ', ← hs, g1 hn]; rfl
      · obtain ⟨s', k3, _⟩ := g2 hy
        refine ⟨s', ?_, k3⟩
        rw [happ', ← hs, k3]
        show (if (s' : Int) < 0 then none else some (s' : Int).toNat) = some s'
        rw [if_neg (by omega), Int.toNat_natCast]
    · have hn : ¬ Beginning tenseRE.lang (w ++ [t]) := by
        rintro ⟨c, hc⟩
        exact hb ⟨t :: c, by simpa using hc⟩
      rw [ih.1 hb] at happ
      exact ⟨fun _ => happ, fun hy => absurd hy hn⟩

/-- **C117**: the automaton that `categorize_tenses` runs accepts exactly the tenses, and jams as soon as the words
cannot be completed to a tense. -/
theorem tables_recognise {G : Generated} (h : Made G) : Recognises (tableDfa G) tenseRE.lang := by
  constructor
  · intro w
    refine ⟨fun e hb => ?_, (table_run h w).1⟩
    obtain ⟨s, k, _⟩ := (table_run h w).2 hb
    rw [k] at e; cases e
  · intro w s e
    by_cases hb : Beginning tenseRE.lang w
    · obtain ⟨s', k1, k2⟩ := (table_run h w).2 hb
      rw [k1] at e
      have e : s' = s := Option.some.inj e
      subst e
      obtain ⟨s'', k3, k4⟩ := (made_reads h w).2 hb
      rw [k2] at k3
      have k5 : s' = s'' := by
        have : (s' : Int) = s'' := by simpa using k3
        omega
      subst k5
      show decide (G.exitval[s']? = some c!"SUCCESS") = true ↔ _
      rw [decide_eq_true_iff]
      rcases k4 with ⟨hl, k4⟩ | ⟨hl, k4⟩
      · exact ⟨fun _ => hl, fun _ => k4⟩
      · rw [k4]
        exact ⟨fun hh => absurd hh (by decide), fun hh => absurd hh hl⟩
    · rw [(table_run h w).1 hb] at e; cases e

/-- A word that is no word of tenses (token -1, `categ.c:361`) has no next state. -/
theorem no_token (T : Tables) : ∀ (fuel : Nat) (s v : Int), nextState T (-1) fuel s = some (.ok v) → v = -1 := by
  have hb : ∀ (token : List Nat) (n l h : Nat), h - l ≤ n → ∀ m, bisect token (-1) l h ≠ .ok (some m) := by
    intro token n
    induction n with
    | zero =>
      intro l h hn m
      unfold bisect
      rw [dif_neg (by omega)]
      simp
    | succ n ih =>
      intro l h hn m
      unfold bisect
      split
      · simp only
        cases token[(h + l) / 2]? with
        | none => simp
        | some xm =>
          simp only
          rw [if_neg (show ¬ (xm : Int) = -1 by omega)]
          split
          · simp
          · rw [if_pos (show (xm : Int) > -1 by omega)]
            exact ih _ _ (by omega) m
      · simp
  intro fuel
  induction fuel with
  | zero => intro s v h; cases h
  | succ fuel ih =>
    intro s v h
    rw [nextState] at h
    split at h
    · split at h
      · rename_i l hh d _ _ _
        split at h
        · cases h
        · exact ih _ _ h
        · rename_i m hm
          exact absurd hm (hb _ _ _ _ (Nat.le_refl _) m)
      · cases h
    · cases h; rfl

/-- C117 and C29: with these tables, what `categorize` puts around tenses is right. -/
theorem categorize_tables {G : Generated} (h : Made G) {ts out : List Tok} (hp : Plain ts)
    (hc : categorize (tableDfa G) ts = .ok out) : Exact ts out := categorize_exact (tables_recognise h) hp hc

/-- `pu nai zi` is accepted; after `pu nai nai` the tables have jammed. -/
example : ∃ G, Made G ∧
    (∃ s, (tableDfa G).run (tableDfa G).init [.PU, .NAI, .ZI] = some s ∧ (tableDfa G).acc s = true) ∧
    (tableDfa G).run (tableDfa G).init [.PU, .NAI, .NAI] = none := by
  obtain ⟨_, _, _, nodes, _, _, _, hm⟩ := made insertionSorter true
  refine ⟨_, hm, ?_, ?_⟩
  · have hl : tenseRE.lang [.PU, .NAI, .ZI] := by
      rw [← deriv_iff, ← deriv_iff, ← deriv_iff, ← nullable_iff]
      decide +kernel
    have hr := tables_recognise hm
    cases e : (tableDfa _).run (tableDfa _).init [.PU, .NAI, .ZI] with
    | none => exact absurd ⟨[], hl⟩ ((hr.jam _).1 e)
    | some s => exact ⟨s, rfl, (hr.acc _ _ e).2 hl⟩
  · rw [(tables_recognise hm).jam]
    rintro ⟨c, hc⟩
    have h : (RE.deriv .NAI (RE.deriv .NAI (RE.deriv .PU tenseRE))).lang c := by
      rw [deriv_iff, deriv_iff, deriv_iff]; exact hc
    exact (isVoid_iff _).1 (by decide +kernel) c h

end Jbo.Stag
