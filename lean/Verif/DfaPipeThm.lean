import Verif.DfaSigThm

/-!
# From the NFA to the generated tables
-/

namespace Jbo.Dfasyn

/-- A program that includes the generated file reads a word (last token first), starting in state 0;
`-1` stays `-1`. -/
def tabRun (T : Tables) : List Nat → Option (Except Crash Int)
  | [] => some (.ok 0)
  | t :: w => match tabRun T w with
    | some (.ok s) => nextState T t 3 s
    | r => r

theorem built_good (a : Nfa) (hwf : a.WF) (hnt : 0 < a.nt) (start : Nat) (hs : start < a.n)
    (e : List Nat) (he : epsilonClosure a = some e) (nodes : List Node) (amb : Bool)
    (h : buildDfa a e start (2 ^ a.n + 1) = some (.ok (nodes, amb))) :
    GoodNodes a.nt nodes ∧ 0 < nodes.length := by
  obtain ⟨e', h1, h2⟩ := buildDfa_total a hwf hnt start hs
  rw [he] at h1
  cases h1
  rcases h2 with ⟨nodes', amb', next, h2, h3, he', h4⟩ | ⟨c, h2, h3⟩
  · rw [h] at h2
    cases h2
    refine ⟨fun i hi => ⟨(h4.core.ok i hi).len, fun d hd => ?_⟩, h4.core.pos⟩
    rcases h4.done i (by omega) hi with hearly | hl
    · rw [h4.rest i hi (Or.inr hearly)] at hd
      have := List.eq_of_mem_replicate hd
      simp at this
    · obtain ⟨t, ht, htd⟩ := List.getElem_of_mem hd
      rw [(h4.core.ok i hi).len] at ht
      have hget : (nodeAt nodes i).map[t]? = some (some d) := by
        rw [← htd]; exact List.getElem?_eq_getElem _
      cases hsu : (successors a e (nodeAt nodes i).nfas t).2 with
      | false => rw [(hl t ht).1 hsu] at hget; simp at hget
      | true =>
        obtain ⟨k, hk, hkm, _⟩ := (hl t ht).2 hsu
        rw [hkm] at hget
        simp only [Option.some.injEq] at hget
        omega
  · rw [h] at h2; cases h2

theorem maps_getD (nodes : List Node) (i : Nat) (hi : i < nodes.length) :
    (nodes.map (·.map)).getD i [] = (nodeAt nodes i).map := by
  unfold nodeAt
  simp [List.getD_eq_getElem?_getD, List.getElem?_eq_getElem hi]

theorem fits_of_good {nt : Nat} {nodes : List Node} (hg : GoodNodes nt nodes) (hnt : nt ≤ 256)
    (hn : nodes.length ≤ 32768)
    (he : ((nodes.map (·.map)).map (·.countP (·.isSome))).sum ≤ 65535) :
    Fits (nodes.map (·.map)) (findDefaults (nodes.map (·.map)) nt) nt := by
  have hlen : ∀ i, i < (nodes.map (·.map)).length → ((nodes.map (·.map)).getD i []).length = nt := by
    intro i hi
    rw [List.length_map] at hi
    rw [maps_getD nodes i hi]; exact (hg i hi).1
  refine ⟨hlen, ?_, hnt, by rw [List.length_map]; exact hn, ?_⟩
  · intro i d hi hd
    rw [List.length_map] at hi ⊢
    rw [maps_getD nodes i hi] at hd
    exact (hg i hi).2 d hd
  · refine Nat.le_trans ?_ he
    generalize nodes.map (·.map) = maps at *
    rw [List.length_flatten, List.map_map]
    have h2 : maps.map (·.countP (·.isSome)) =
        (List.range maps.length).map (fun i => (maps.getD i []).countP (·.isSome)) := by
      apply List.ext_getElem
      · simp
      · intro i h1 h2
        simp only [List.length_map] at h1
        simp [List.getD_eq_getElem?_getD, List.getElem?_eq_getElem h1]
    rw [h2]
    have : ∀ l : List Nat, (∀ i ∈ l, i < maps.length) →
        (l.map (List.length ∘ rowTokens maps (findDefaults maps nt) nt)).sum ≤
        (l.map (fun i => (maps.getD i []).countP (·.isSome))).sum := by
      intro l
      induction l with
      | nil => intro _; simp
      | cons i l ih =>
        intro hl
        have h3 := ih (fun j hj => hl j (List.mem_cons_of_mem _ hj))
        have h4 := row_length maps nt hlen i (hl i List.mem_cons_self)
        have h5 : (rowTokens maps (findDefaults maps nt) nt i).length ≤ (maps.getD i []).countP (·.isSome) := by
          split at h4 <;> omega
        simp only [List.map_cons, List.sum_cons, Function.comp_apply]
        omega
    exact this _ (fun i hi => List.mem_range.1 hi)

/-- Reading with the tables is reading with the nodes. -/
theorem tabRun_eq {nt : Nat} {nodes : List Node} (hg : GoodNodes nt nodes) (hpos : 0 < nodes.length)
    (hf : Fits (nodes.map (·.map)) (findDefaults (nodes.map (·.map)) nt) nt) (w : List Nat) :
    tabRun (tables (nodes.map (·.map)) (findDefaults (nodes.map (·.map)) nt) nt) w =
      some (.ok (asInt (run (nodeStep nodes) 0 w))) := by
  induction w with
  | nil => rfl
  | cons t w ih =>
    rw [tabRun, ih, run]
    cases hr : run (nodeStep nodes) 0 w with
    | none => simp [asInt, nextState]
    | some s =>
      have hs := run_lt hg hpos w s hr
      simp only [asInt, Option.bind_some]
      rw [nextState_correct _ nt hf s (by rw [List.length_map]; exact hs)]
      unfold wanted
      rw [if_neg (by omega), maps_getD nodes s hs, Int.toNat_natCast]
      rfl

/-- What the generated file promises about a verdict: the table entry is the text of the result, or
the default if there is none. -/
def Entry (table : List Name) (deflt : Name) (s : Nat) (v : Verdict) : Prop :=
  table[s]? = some (match v with | .unique r => r.result | _ => deflt)

theorem tableEntry_text (deflt : Name) (v : Verdict) :
    tableEntry deflt v.text = match v with | .unique r => r.result | _ => deflt := by
  cases v <;> rfl

/-- **C49**: from the NFA to the generated C tables. If the builder finishes and the automaton fits
the table types, then for every word that a caller reads to its end, the iterated `next_state` never
leaves the tables; it ends in `-1` exactly when no NFA state is reachable, and otherwise in a state
whose exit value is the one (unambiguous) verdict for the tags of all reachable NFA states.  Where
there is a result, the attribute is right too; with `-ud` it is right everywhere, and without `-ud` it
is right everywhere if only states with a result have attributes. -/
theorem generated_correct (q : Sorter) (ud : Bool) (a : Nfa) (hwf : a.WF) (hnt : 0 < a.nt) (start : Nat)
    (hs : start < a.n) (nodes : List Node) (h : dfasyn q ud a start = some (.ok nodes))
    (hnt2 : a.nt ≤ 256) (hn : nodes.length ≤ 32768)
    (hent : ((nodes.map (·.map)).map (·.countP (·.isSome))).sum ≤ 65535)
    (defExit defAttr : Name) (w : List Nat) (hw : Open a start w) :
    (tabRun (generate defExit defAttr a.nt nodes).tab w = some (.ok (-1)) ∧ ∀ q, ¬ After a start w q) ∨
    (∃ s : Nat, tabRun (generate defExit defAttr a.nt nodes).tab w = some (.ok s) ∧ (∃ q, After a start w q) ∧
      ∃ v v', v ≠ .ambiguous ∧ v' ≠ .ambiguous ∧
        Calls a.exit (Tagged a (·.exits) start w) a.exit.results v ∧
        Calls a.attr (Tagged a (·.attrs) start w) a.attr.results v' ∧
        Entry (generate defExit defAttr a.nt nodes).exitval defExit s v ∧
        (ud = true ∨ v ≠ .none ∨ (v' = .none ∧ ∀ nd ∈ nodes, nd.result = none → nd.attrib = none) →
          Entry (generate defExit defAttr a.nt nodes).attrtab defAttr s v')) := by
  unfold dfasyn at h
  cases he : epsilonClosure a with
  | none => rw [he] at h; simp at h
  | some e =>
    rw [he] at h
    simp only at h
    cases hb : buildDfa a e start (2 ^ a.n + 1) with
    | none => rw [hb] at h; simp at h
    | some r =>
      rw [hb] at h
      cases r with
      | error c => simp at h
      | ok r =>
        obtain ⟨built, amb⟩ := r
        cases amb with
        | true => simp at h
        | false =>
          simp only at h
          obtain ⟨hg0, hpos0⟩ := built_good a hwf hnt start hs e he built false hb
          have hrep := buildDfa_represents a hwf hnt start hs e he built hb
          -- facts about the final nodes
          have key : GoodNodes a.nt nodes ∧ 0 < nodes.length ∧
              ∀ w, match run (nodeStep built) 0 w, run (nodeStep nodes) 0 w with
                | none, none => True
                | some s, some s' => face (nodeAt built s) = face (nodeAt nodes s') ∧
                    (ud = true → (nodeAt built s).attrib = (nodeAt nodes s').attrib)
                | _, _ => False := by
            cases ud with
            | true =>
              simp only [if_true, Option.some.injEq, Except.ok.injEq] at h
              subst h
              refine ⟨hg0, hpos0, fun w => ?_⟩
              cases run (nodeStep built) 0 w with
              | none => trivial
              | some s => exact ⟨rfl, fun _ => rfl⟩
            | false =>
              simp only [Bool.false_eq_true, if_false] at h
              obtain ⟨nodes', count, idx, hc, hcomp⟩ := compressDfa_correct_partial q a.nt built hg0 hpos0
              rw [hc] at h
              simp only [Option.some.injEq, Except.ok.injEq] at h
              subst h
              obtain ⟨hg1, hpos1⟩ := compressDfa_good q hg0 hpos0 hc
              refine ⟨hg1, hpos1, fun w => ?_⟩
              have hsame := hcomp.same 0 hpos0 w
              rw [hcomp.start] at hsame
              unfold obs at hsame
              revert hsame
              cases run (nodeStep built) 0 w with
              | none => cases run (nodeStep nodes') 0 w <;> simp
              | some s =>
                cases run (nodeStep nodes') 0 w with
                | none => simp
                | some s' => intro hsame; simp at hsame; simp [hsame]
          obtain ⟨hg, hpos, hruns⟩ := key
          have hf := fits_of_good hg hnt2 hn hent
          have htab := tabRun_eq hg hpos hf w
          have hj := hrep.jam w hw
          have hst := hrep.state w
          have hr := hruns w
          have hgen : (generate defExit defAttr a.nt nodes).tab =
            tables (nodes.map (·.map)) (findDefaults (nodes.map (·.map)) a.nt) a.nt := rfl
          rw [hgen, htab]
          cases hrb : run (nodeStep built) 0 w with
          | none =>
            rw [hrb] at hr hj
            cases hrn : run (nodeStep nodes) 0 w with
            | none => exact Or.inl ⟨rfl, hj.1 rfl⟩
            | some s' => rw [hrn] at hr; exact hr.elim
          | some s =>
            rw [hrb] at hr hj
            cases hrn : run (nodeStep nodes) 0 w with
            | none => rw [hrn] at hr; exact hr.elim
            | some s' =>
              rw [hrn] at hr
              simp only at hr
              have hs' := run_lt hg hpos w s' hrn
              obtain ⟨_, ⟨v, hv1, hv2, hv3⟩, ⟨v', hv4, hv5, hv6⟩⟩ := hst s hw hrb
              have hreach : ∃ q, After a start w q := by
                apply Classical.byContradiction
                intro hno
                have := hj.2 (fun q hq => hno ⟨q, hq⟩)
                simp at this
              refine Or.inr ⟨s', rfl, hreach, v, v', hv1, hv4, hv2, hv5, ?_, ?_⟩
              · have h1 : (nodeAt nodes s').result = v.text := by
                  have := congrArg Prod.fst hr.1
                  simp only [face] at this
                  rw [← this]; exact hv3
                unfold Entry generate
                rw [← tableEntry_text, ← h1]
                unfold nodeAt
                simp [List.getD_eq_getElem?_getD, List.getElem?_eq_getElem hs']
              · intro hcond
                have h1 : (nodeAt nodes s').attrib = v'.text := by
                  rcases hcond with hud | hne | ⟨hv', hall⟩
                  · rw [← hr.2 hud]; exact hv6
                  · have h2 : (nodeAt built s).result.isSome = true := by
                      rw [hv3]
                      cases v with
                      | none => exact absurd rfl hne
                      | ambiguous => exact absurd rfl hv1
                      | unique r => rfl
                    have h3 := congrArg Prod.fst hr.1
                    have h4 := congrArg Prod.snd hr.1
                    simp only [face] at h3 h4
                    rw [← h3, if_pos h2, if_pos h2] at h4
                    rw [← h4]; exact hv6
                  · by_cases hne : v = .none
                    · have h2 : (nodeAt nodes s').result = none := by
                        have h3 := congrArg Prod.fst hr.1
                        simp only [face] at h3
                        rw [← h3, hv3, hne]; rfl
                      have hmem : nodeAt nodes s' ∈ nodes := by
                        unfold nodeAt
                        rw [List.getD_eq_getElem?_getD, List.getElem?_eq_getElem hs']
                        exact List.getElem_mem hs'
                      rw [hall _ hmem h2, hv']; rfl
                    · have h2 : (nodeAt built s).result.isSome = true := by
                        rw [hv3]
                        cases v with
                        | none => exact absurd rfl hne
                        | ambiguous => exact absurd rfl hv1
                        | unique r => rfl
                      have h3 := congrArg Prod.fst hr.1
                      have h4 := congrArg Prod.snd hr.1
                      simp only [face] at h3 h4
                      rw [← h3, if_pos h2, if_pos h2] at h4
                      rw [← h4]; exact hv6
                unfold Entry generate
                rw [← tableEntry_text, ← h1]
                unfold nodeAt
                simp [List.getD_eq_getElem?_getD, List.getElem?_eq_getElem hs']

/-- **C49 (no third outcome)**: on every well-formed NFA the program ends, either with an automaton
or with one of the failures of `build_dfa`, or refusing an ambiguous automaton. -/
theorem dfasyn_ends (q : Sorter) (ud : Bool) (a : Nfa) (hwf : a.WF) (hnt : 0 < a.nt) (start : Nat)
    (hs : start < a.n) :
    (∃ nodes, dfasyn q ud a start = some (.ok nodes)) ∨
    (∃ c, dfasyn q ud a start = some (.error c) ∧ (Failure a start c ∨ (c = .exit2 ∧
      ∃ w, Open a start w ∧ (∃ q, After a start w q) ∧
      (Calls a.exit (Tagged a (·.exits) start w) a.exit.results .ambiguous ∨
       Calls a.attr (Tagged a (·.attrs) start w) a.attr.results .ambiguous)))) := by
  obtain ⟨e, h1, h2⟩ := buildDfa_total a hwf hnt start hs
  unfold dfasyn
  rw [h1]
  simp only
  rcases h2 with ⟨nodes, amb, next, h2, h3, he, h4⟩ | ⟨c, h2, h3⟩
  · rw [h2]
    cases amb with
    | true =>
      exact Or.inr ⟨_, rfl, Or.inr ⟨rfl, (buildDfa_ambiguous_iff a hwf hnt start hs e h1 nodes true h2).1 rfl⟩⟩
    | false =>
      simp only
      cases ud with
      | true => exact Or.inl ⟨nodes, rfl⟩
      | false =>
        obtain ⟨hg0, hpos0⟩ := built_good a hwf hnt start hs e h1 nodes false h2
        obtain ⟨nodes', count, idx, hc, hcomp⟩ := compressDfa_correct_partial q a.nt nodes hg0 hpos0
        simp only [Bool.false_eq_true, if_false]
        rw [hc]
        exact Or.inl ⟨nodes', rfl⟩
  · rw [h2]
    exact Or.inr ⟨c, rfl, Or.inl h3⟩

/-! ## Example -/

example : demoNfa.WF ∧ 0 < demoNfa.nt := ⟨wf_of_all _ (by decide +kernel), by decide⟩
/-- What comes out for `demoNfa`. -/
def demoNodes : List Node :=
  [⟨9, [some 1, some 2], none, some false, none⟩, ⟨2, [none, none], some "A".toList, some true, none⟩,
   ⟨25, [some 1, some 2], some "C".toList, some false, none⟩]

example : dfasyn insertionSorter false demoNfa 0 = some (.ok demoNodes) := by decide +kernel
example : generate "0".toList "0".toList 2 demoNodes =
    ⟨⟨[0, 1, 0, 1], [1, 2, 1, 2], [0, 2, 2, 4], [-1, -1, -1]⟩, ["0".toList, "A".toList, "C".toList],
     ["0".toList, "0".toList, "0".toList]⟩ := by decide +kernel
example : tabRun (generate "0".toList "0".toList 2 demoNodes).tab [1, 1] = some (.ok 2) := by decide +kernel
example : tabRun (generate "0".toList "0".toList 2 demoNodes).tab [0, 1, 1] = some (.ok 1) := by decide +kernel

end Jbo.Dfasyn
