import Verif.BlockWF
import Verif.BlockEval
import Verif.DfaSrc
import Verif.DfaPipeThm
import Verif.DfaMergeThm
/-!
# From the text of an input file to the tables
-/

namespace Jbo.DfaSrc
open Jbo.Dfasyn

/-- C118: for every text from which `dfasyn` makes an automaton that fits the table types, the tables say of every word
that is read to its end what the NFA of the file says. Nothing is assumed about the NFA. -/
theorem file_tables {s : List Char} {src : Source} {a : Nfa} {start : Nat} {nodes : List Node} {q : Sorter} {ud : Bool}
    (_h1 : ofText s = some src) (h2 : src.compile = some (a, start)) (h3 : dfasyn q ud a start = some (.ok nodes))
    (hnt : src.tokens ≠ []) (hnt2 : src.tokens.length ≤ 256) (hn : nodes.length ≤ 32768)
    (hent : ((nodes.map (·.map)).map (·.countP (·.isSome))).sum ≤ 65535)
    (defExit defAttr : Name) (w : List Nat) (hw : Open a start w) :
    (tabRun (generate defExit defAttr a.nt nodes).tab w = some (.ok (-1)) ∧ ∀ q, ¬ After a start w q) ∨
    (∃ s : Nat, tabRun (generate defExit defAttr a.nt nodes).tab w = some (.ok s) ∧ (∃ q, After a start w q) ∧
      ∃ v, v ≠ .ambiguous ∧ Calls a.exit (Tagged a (·.exits) start w) a.exit.results v ∧
        Entry (generate defExit defAttr a.nt nodes).exitval defExit s v) := by
  obtain ⟨k1, k2, k3⟩ := compile_wf h2
  have hpos : 0 < a.nt := by
    rw [k3]
    exact List.length_pos_iff.2 hnt
  rcases generated_correct q ud a k1 hpos start k2 nodes h3 (by omega) hn hent defExit defAttr w hw with h | h
  · exact .inl h
  · obtain ⟨s, g1, g2, v, _, g3, _, g4, _, g5, _⟩ := h
    exact .inr ⟨s, g1, g2, v, g3, g4, g5⟩

/-- A small input file. -/
def toy : List Char :=
  c!"Tokens A B\nBlock m\n State s\n  A ; B -> s\n  B -> t\n State t = YES\n State s\nEndBlock\nResult YES\n"

def toyNfa : Nfa := ⟨[⟨[(some 1, 2), (some 0, 1)], [], []⟩, ⟨[(some 1, 0)], [], []⟩, ⟨[(none, 3)], [], []⟩,
  ⟨[], [c!"YES"], []⟩], 2, ⟨[], [⟨c!"YES", .sym c!"YES", false⟩]⟩, ⟨[], []⟩⟩

def toyNodes : List Node := [⟨1, [some 1, some 2], none, some false, none⟩, ⟨2, [none, some 0], none, some false, none⟩,
  ⟨12, [none, none], some c!"YES", some false, none⟩]

def toySource : Source := ⟨[n!"A", n!"B"], [], [⟨n!"m", [], [st [n!"s"] [tr [[n!"A"], [n!"B"]] [[n!"s"]],
  tr [[n!"B"]] [[n!"t"]]], st [n!"t"] [ex [[0]] c!"YES"], st [n!"s"] []]⟩], toyNfa.exit, toyNfa.attr⟩

theorem toy_source : ofText toy = some toySource := by decide +kernel

theorem toy_compiles : toySource.compile = some (toyNfa, 0) :=
  compile_of_check (src := toySource) (l := toyNfa.states) (by decide +kernel)

/-- The tables of the file read `abb` to its end; nothing is assumed that the file does not meet. -/
example : ∃ s : Nat, tabRun (generate c!"NO" [] 2 toyNodes).tab [1, 1, 0] = some (.ok s) := by
  have hne : ∀ w, ¬ EarlyAt toyNfa 0 w := by
    rintro w ⟨r, hc, hr⟩
    have hm : r ∈ toyNfa.exit.results := by
      generalize hv : Verdict.unique r = v at hc
      generalize toyNfa.exit.results = rs at hc
      cases hc with
      | none => cases hv
      | unique => cases hv; simp
      | ambiguous => cases hv
    have hall : ∀ r ∈ toyNfa.exit.results, r.early = false := by decide
    rw [hall r hm] at hr
    cases hr
  have ha : After toyNfa 0 [1, 1, 0] 2 :=
    .read (p := 0) (d := 2) (.read (p := 1) (d := 0) (.read (p := 0) (d := 1) (.nil (.refl 0)) (by decide) (.refl 1))
      (by decide) (.refl 0)) (by decide) (.refl 2)
  have := file_tables (q := insertionSorter) (ud := true) (nodes := toyNodes) toy_source toy_compiles
    (by rfl) (by decide) (by decide) (by decide) (by decide) c!"NO" [] [1, 1, 0]
    ⟨by decide, ⟨by decide, ⟨by decide, trivial, hne _⟩, hne _⟩, hne _⟩
  rcases this with ⟨_, h⟩ | ⟨s, h, _⟩
  · exact absurd ha (h 2)
  · exact ⟨s, h⟩

end Jbo.DfaSrc
