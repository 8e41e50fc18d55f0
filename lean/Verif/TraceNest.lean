import Verif.TraceTree
/-!
# A sentence that overruns the log
-/

namespace Jbo.Trace
open Jbo.Terms Jbo.Gram Spec

theorem kids_steps {its : List Item} {cs : List Node} (h : Kids Parse its cs) (hp : ∀ t c, c ∈ cs → Parse t c → ∃ es, Built t c es) :
    ∃ es, Steps Built its cs es := by
  induction h with
  | nil => exact ⟨[], .nil⟩
  | @n t c its cs h1 _ ih =>
    obtain ⟨fs, hf⟩ := ih (fun t x hx => hp t x (List.mem_cons_of_mem _ hx))
    obtain ⟨es, he⟩ := hp t c (List.mem_cons_self ..) h1
    exact ⟨es ++ fs, .n he hf⟩
  | word h1 _ ih =>
    obtain ⟨fs, hf⟩ := ih (fun t x hx => hp t x (List.mem_cons_of_mem _ hx))
    exact ⟨_, .word h1 hf⟩
  | put h1 _ ih =>
    obtain ⟨fs, hf⟩ := ih (fun t x hx => hp t x (List.mem_cons_of_mem _ hx))
    exact ⟨_, .put h1 hf⟩
  | out _ ih =>
    obtain ⟨fs, hf⟩ := ih hp
    exact ⟨_, .out hf⟩

/-- Every tree of the grammar is built by some actions. -/
theorem parse_built : ∀ (d : Nat) (x : Node), x.depth ≤ d → ∀ t, Parse t x → ∃ es, Built t x es := by
  intro d
  induction d with
  | zero =>
    intro x hx t h
    cases h with
    | mk => rw [Node.depth] at hx; omega
  | succ d ih =>
    intro x hx t h
    cases h with
    | @mk i cs r hr hk =>
      obtain ⟨es, he⟩ := kids_steps hk (fun u c hc => ih c (by have := mem_depth (t := r.lhs) (i := i) hc; omega) u)
      exact ⟨_, .mk (m := []) (s := 0) (n := 0) hr he (.inl rfl)⟩

/-- A rule with one non-terminal, and perhaps a terminator that is left out. -/
def unit (t u : NT) : Bool := rules.any fun r => r.lhs == t && (r.rhs == [.n u] || match r.rhs with
  | [.n v, .e _] => v == u
  | _ => false)

theorem unit_parse {t u : NT} (h : unit t u = true) {i : Nat} {x : Node} (hx : Parse u x) : Parse t (.nt i t [x]) := by
  obtain ⟨r, hr, g⟩ := List.any_eq_true.1 h
  clear h
  rw [Bool.and_eq_true, beq_iff_eq] at g
  obtain ⟨rfl, h⟩ := g
  rw [Bool.or_eq_true] at h
  refine .mk hr ?_
  rcases h with h | h
  · rw [beq_iff_eq] at h
    rw [h]
    exact .n hx .nil
  · split at h
    · rename_i v s e
      rw [beq_iff_eq] at h
      rw [e, h]
      exact .n hx (.out .nil)
    · cases h

def chain : List NT → Bool
  | t :: u :: ts => unit t u && chain (u :: ts)
  | _ => true

theorem up_parse (l : NT) (cs : List Node) (h : Parse l (.nt 0 l cs)) : ∀ (ts : List NT) (t : NT), chain (t :: ts ++ [l]) = true →
    Parse t (.nt 0 t (up (ts ++ [l]) cs))
  | [], t, hc => by
    rw [List.cons_append, List.nil_append, chain, Bool.and_eq_true] at hc
    exact unit_parse hc.1 h
  | u :: ts, t, hc => by
    rw [List.cons_append, List.cons_append, chain, Bool.and_eq_true] at hc
    exact unit_parse hc.1 (up_parse l cs h ts u hc.2)

/-- From a sentence to its unit of tanru. -/
def path : List NT := [.observativeSentence, .bridiTail, .bridiTail1, .bridiTail2, .bridiTail3, .mainSelbri, .selbri, .selbri1, .selbri2, .selbri3, .selbri4, .selbri5,
  .selbri6, .tanruUnit, .tanruUnit1]

/-- What is in the unit of *nu nu … broda*, with `k` times *nu*. -/
def nuUnit : Nat → List Node
  | 0 => [.brivla 1]
  | k + 1 => [.nt 0 .abstraction [.nt 0 .nuNaiSeq [.cmavo 0 .NU "nu"], .nt 0 .subsentence (up (.sentence :: path ++ [.tanruUnit2]) (nuUnit k))]]

/-- The text *nu nu … broda*. -/
def nuText (k : Nat) : Node := .nt 0 .chunks (up ([.text, .text1, .paragraphs, .paragraph, .statement, .innerStatement, .statement1, .statement2, .statement3,
  .sentence] ++ path ++ [.tanruUnit2]) (nuUnit k))

theorem nu_unit : ∀ k, Parse .tanruUnit2 (.nt 0 .tanruUnit2 (nuUnit k))
  | 0 => parse_of (by decide +kernel)
  | k + 1 => by
    have h1 : Parse .subsentence (.nt 0 .subsentence (up (.sentence :: path ++ [.tanruUnit2]) (nuUnit k))) :=
      up_parse .tanruUnit2 _ (nu_unit k) (.sentence :: path) .subsentence (by decide +kernel)
    have h2 : Parse .nuNaiSeq (.nt 0 .nuNaiSeq [.cmavo 0 .NU "nu"]) := parse_of (by decide +kernel)
    have hr : (⟨1336, .abstraction, [.n .nuNaiSeq, .n .subsentence, .e .KEI]⟩ : Gram.Rule) ∈ rules := by decide +kernel
    exact unit_parse (by decide +kernel) (.mk hr (.n h2 (.n h1 (.out .nil))))

theorem nu_parse (k : Nat) : Parse .chunks (nuText k) :=
  up_parse .tanruUnit2 _ (nu_unit k) _ .chunks (by decide +kernel)

theorem up_spine (cs : List Node) : ∀ ts : List NT, (∀ t ∈ ts, ¬ (t ∈ closers ∨ t = .augmented)) → spineLast (up ts cs) = ts.length + spineLast cs
  | [], _ => by rw [up, List.length_nil, Nat.zero_add]
  | t :: ts, h => by
    rw [up, spineLast, spine, if_neg (h t (List.mem_cons_self ..)), up_spine cs ts (fun u hu => h u (List.mem_cons_of_mem _ hu)), List.length_cons]
    omega

theorem up_depth (cs : List Node) : ∀ ts : List NT, depthList (up ts cs) = ts.length + depthList cs
  | [] => by rw [up, List.length_nil, Nat.zero_add]
  | t :: ts => by
    rw [up, depthList, Node.depth, up_depth cs ts, depthList, List.length_cons]
    omega

theorem nu_spine : ∀ k, spineLast (nuUnit k) = 19 * k
  | 0 => rfl
  | k + 1 => by
    have h := up_spine (nuUnit k) (.sentence :: path ++ [.tanruUnit2]) (by decide)
    rw [nu_spine k] at h
    rw [nuUnit, spineLast, spine, if_neg (by decide), spineLast, spineLast, spine, if_neg (by decide), h]
    rw [show (NT.sentence :: path ++ [NT.tanruUnit2]).length = 17 from rfl]
    omega

theorem nu_depth : ∀ k, depthList (nuUnit k) = 19 * k
  | 0 => rfl
  | k + 1 => by
    have h := up_depth (nuUnit k) (.sentence :: path ++ [.tanruUnit2])
    rw [nu_depth k, show (NT.sentence :: path ++ [NT.tanruUnit2]).length = 17 from rfl] at h
    simp only [nuUnit, depthList, Node.depth, h]
    omega

theorem full_iff {i : Nat} {t : NT} {cs : List Node} : cs ≠ [] → (∀ c ∈ cs, Full c) → Full (.nt i t cs) := by
  intro h1 h2 j u hs
  cases hs with
  | refl => exact h1 rfl
  | child hc hs => exact h2 _ hc j u hs

theorem leaf_full {x : Node} (h : ∀ i t cs, x ≠ .nt i t cs) : Full x := by
  intro j u hs
  exact h j u [] (sub_leaf hs h).symm

theorem up_full (cs : List Node) (h0 : cs ≠ []) (hf : ∀ c ∈ cs, Full c) : ∀ ts : List NT, up ts cs ≠ [] ∧ ∀ c ∈ up ts cs, Full c
  | [] => ⟨h0, hf⟩
  | t :: ts => by
    obtain ⟨h1, h2⟩ := up_full cs h0 hf ts
    refine ⟨nofun, fun c hc => ?_⟩
    rw [up] at hc
    rw [List.mem_singleton.1 hc]
    exact full_iff h1 h2

theorem nu_full : ∀ k, nuUnit k ≠ [] ∧ ∀ c ∈ nuUnit k, Full c
  | 0 => ⟨nofun, fun c hc => by rw [List.mem_singleton.1 hc]; exact leaf_full nofun⟩
  | k + 1 => by
    obtain ⟨h1, h2⟩ := nu_full k
    obtain ⟨h3, h4⟩ := up_full _ h1 h2 (.sentence :: path ++ [.tanruUnit2])
    refine ⟨nofun, fun c hc => ?_⟩
    rw [nuUnit] at hc
    rw [List.mem_singleton.1 hc]
    refine full_iff nofun fun d hd => ?_
    rcases List.mem_cons.1 hd with rfl | hd
    · exact full_iff nofun (fun e he => by rw [List.mem_singleton.1 he]; exact leaf_full nofun)
    · rw [List.mem_singleton.1 hd]
      exact full_iff h3 h4

/-- **A sentence that overruns the log**: *nu nu … broda* with 53 times *nu* or more; with fewer it does not. -/
theorem nu_overruns (k : Nat) (es : List Act) (h : Built .chunks (nuText k) es) : run [] es = none ↔ 53 ≤ k := by
  have hts : ([.text, .text1, .paragraphs, .paragraph, .statement, .innerStatement, .statement1, .statement2, .statement3,
    .sentence] ++ path ++ [.tanruUnit2] : List NT).length = 26 := rfl
  constructor
  · intro hn
    refine Nat.le_of_not_lt fun hk => ?_
    have hd : (nuText k).depth ≤ 1024 := by
      rw [nuText, Node.depth, up_depth, nu_depth, hts]
      omega
    obtain ⟨h1, h2⟩ := nu_full k
    obtain ⟨h3, h4⟩ := up_full _ h1 h2 ([.text, .text1, .paragraphs, .paragraph, .statement, .innerStatement, .statement1, .statement2, .statement3,
      .sentence] ++ path ++ [.tanruUnit2])
    have := log_fits_partial h (full_iff h3 h4) hd
    rw [hn] at this
    cases this
  · intro hk
    refine deep_overruns h (x := .nt 0 .text (up ([.text1, .paragraphs, .paragraph, .statement, .innerStatement, .statement1, .statement2, .statement3,
      .sentence] ++ path ++ [.tanruUnit2]) (nuUnit k))) (.child (List.mem_singleton.2 rfl) .refl) ?_
    rw [spine, if_neg (by decide), up_spine _ _ (by decide), nu_spine]
    rw [show ([.text1, .paragraphs, .paragraph, .statement, .innerStatement, .statement1, .statement2, .statement3,
      .sentence] ++ path ++ [.tanruUnit2] : List NT).length = 25 from rfl]
    omega

example : ∃ es, Built .chunks (nuText 53) es ∧ run [] es = none := by
  obtain ⟨es, h⟩ := parse_built _ _ (Nat.le_refl _) _ (nu_parse 53)
  exact ⟨es, h, (nu_overruns 53 es h).2 (Nat.le_refl _)⟩

end Jbo.Trace
