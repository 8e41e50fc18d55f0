import Verif.ConvertSpec
import Verif.GramLook
import Verif.GramEx
/-!
# SE before BAI on every parse tree

Property C75.
-/

namespace Jbo.Convert
open Jbo.Terms Jbo.Gram Spec
open Jbo.Terms.Spec (sePlaces)

theorem seBai_rules : on .seBai (fun its => its == [.t .SE, .t .BAI]) = true := by decide +kernel
theorem bai1_rules : on .bai1 (fun its => its == [.t .BAI]) = true := by decide +kernel

theorem word_strip {x : Node} {i : Nat} {s : Terms.Sel} {w : String} (hs : s ≠ .BAhE) (h : Terms.Spec.Word x i s w) :
    stripAttitudinal x = .ok (.cmavo i s w) := by
  cases h with
  | alone => rfl
  | @marked j _ _ _ bs r hb _ =>
    rw [stripAttitudinal]
    induction bs with
    | nil =>
      rw [List.nil_append]
      cases s <;> first | exact absurd rfl hs | rfl
    | cons b bs ih =>
      obtain ⟨k, v, rfl⟩ := hb b (List.mem_cons_self ..)
      exact ih (fun b hb' => hb b (List.mem_cons_of_mem _ hb'))

theorem se_eval {x : Node} {i : Nat} {w : String} {p : Nat} (h : Terms.Spec.Word x i .SE w) (hp : (w, p) ∈ sePlaces) :
    seWord x = .ok (.cmavo i .SE w) ∧ convertedPlace (.cmavo i .SE w) = .ok p := by
  constructor
  · rw [seWord, word_strip (by decide) h]; rfl
  · simp only [sePlaces, List.mem_cons, Prod.mk.injEq, List.not_mem_nil, or_false] at hp
    rcases hp with ⟨rfl, rfl⟩ | ⟨rfl, rfl⟩ | ⟨rfl, rfl⟩ | ⟨rfl, rfl⟩ <;> rfl

/-- A word is one word. -/
theorem word_unique {x : Node} {i i' : Nat} {s s' : Terms.Sel} {w w' : String} (hs : s ≠ .BAhE) (hs' : s' ≠ .BAhE) (h : Terms.Spec.Word x i s w)
    (h' : Terms.Spec.Word x i' s' w') : i = i' ∧ s = s' ∧ w = w' := by
  have := word_strip hs h
  rw [word_strip hs' h'] at this
  cases this
  exact ⟨rfl, rfl, rfl⟩

theorem places_unique {w : String} {p q : Nat} (h : (w, p) ∈ sePlaces) (h' : (w, q) ∈ sePlaces) : p = q := by
  simp only [sePlaces, List.mem_cons, Prod.mk.injEq, List.not_mem_nil, or_false] at h h'
  rcases h with ⟨rfl, rfl⟩ | ⟨rfl, rfl⟩ | ⟨rfl, rfl⟩ | ⟨rfl, rfl⟩ <;> (simp at h'; exact h'.symm)

theorem bai_at {top : Node} (hp : Parse .chunks top) (anc : List Node) (x : Node) (ho : Occ top anc x) :
    ∃ es, baiNode anc x = .ok es ∧ ∀ e, e ∈ es ↔ BaiTold (fun b _ => b.id) x e := by
  by_cases h1 : ∃ i cs, x = .nt i .seBai cs
  · obtain ⟨i, cs, rfl⟩ := h1
    obtain ⟨_, its, _, e, hf, hk⟩ := on_use seBai_rules (occ_nt hp ho (by decide)).1
    cases e
    simp only [beq_iff_eq] at hf
    subst hf
    obtain ⟨s, ds, rfl, hs, hk⟩ := firstT hk
    obtain ⟨b, ds', rfl, hb, hk⟩ := firstT hk
    cases kids_nil hk
    obtain ⟨k, v, hv, hs⟩ := word_word hs (by decide)
    obtain ⟨j, w, _, hb⟩ := word_word hb (by decide)
    obtain ⟨p, hpl⟩ := se_words v hv
    obtain ⟨h2, h3⟩ := se_eval hs hpl
    refine ⟨[.bai b.id p, .dontGloss k], ?_, fun e => ?_⟩
    · simp [baiNode, childRef, Node.children, h2, h3, bind, Except.bind, pure, Except.pure, Node.id]
    · constructor
      · exact fun he => .se hs hpl hb he
      · intro h
        cases h with
        | se hs' hpl' hb' he =>
          obtain ⟨rfl, _, rfl⟩ := word_unique (by decide) (by decide) hs hs'
          cases places_unique hpl hpl'
          exact he
  by_cases h2 : ∃ i cs, x = .nt i .bai1 cs
  · obtain ⟨i, cs, rfl⟩ := h2
    obtain ⟨_, its, _, e, hf, hk⟩ := on_use bai1_rules (occ_nt hp ho (by decide)).1
    cases e
    simp only [beq_iff_eq] at hf
    subst hf
    obtain ⟨b, ds', rfl, hb, hk⟩ := firstT hk
    cases kids_nil hk
    obtain ⟨j, w, _, hb⟩ := word_word hb (by decide)
    refine ⟨[.bai b.id 1], rfl, fun e => ?_⟩
    constructor
    · intro he
      rw [List.mem_singleton] at he
      subst he
      exact .plain (on := fun b _ => b.id) hb
    · intro h
      cases h with
      | plain _ => exact List.mem_singleton.2 rfl
  · refine ⟨[], ?_, fun e => ⟨nofun, fun h => ?_⟩⟩
    · unfold baiNode
      split
      · exact absurd ⟨_, _, rfl⟩ h1
      · exact absurd ⟨_, _, rfl⟩ h2
      · rfl
    · cases h with
      | se _ _ _ _ => exact absurd ⟨_, _, rfl⟩ h1
      | plain _ => exact absurd ⟨_, _, rfl⟩ h2

/-- What the pass does on every tree of the grammar: the place is hung on the child, which may be a node AUGMENTED. -/
theorem se_bai_any (top : Node) (hp : Parse .chunks top) :
    ∃ log, tagSeBai top = .ok log ∧ ∀ e, e ∈ log ↔ ∃ anc x, Occ top anc x ∧ BaiTold (fun b _ => b.id) x e :=
  pass_logs (Q := fun _ x e => BaiTold (fun b _ => b.id) x e) top fun anc x ho => ⟨occ_augOk hp ho, bai_at hp anc x ho⟩

/-- **SE before BAI.**  On every tree of the grammar in which no word of BAI has an indicator or `ba'e`, every word of
BAI knows its place. -/
theorem se_bai_partial (top : Node) (hp : Parse .chunks top) (hn : NoMarkedBai top) :
    ∃ log, tagSeBai top = .ok log ∧ ∀ e, e ∈ log ↔ ∃ anc x, Occ top anc x ∧ BaiTold (fun _ j => j) x e := by
  obtain ⟨log, h1, h2⟩ := se_bai_any top hp
  refine ⟨log, h1, fun e => ?_⟩
  rw [h2]
  constructor
  · rintro ⟨anc, x, ho, h⟩
    refine ⟨anc, x, ho, ?_⟩
    cases h with
    | se hs hpl hb he =>
      have := hn _ _ _ _ _ _ _ ho (by simp) hb
      subst this
      exact .se hs hpl hb he
    | plain hb =>
      have := hn _ _ _ _ _ _ _ ho (by simp) hb
      subst this
      exact .plain (on := fun _ j => j) hb
  · rintro ⟨anc, x, ho, h⟩
    refine ⟨anc, x, ho, ?_⟩
    cases h with
    | se hs hpl hb he =>
      have := hn _ _ _ _ _ _ _ ho (by simp) hb
      subst this
      exact .se hs hpl hb he
    | plain hb =>
      have := hn _ _ _ _ _ _ _ ho (by simp) hb
      subst this
      exact .plain (on := fun b _ => b.id) hb

/-! ## Examples -/

/-- *mi broda se bau do*, with what stands for `bau`. -/
def seBau (b : Node) : Node := textOf (up [.noCuSentence] (koha 10 "mi" ++ tailOf' [.brivla 21] (up [.tailTerms, .terms, .terms1, .terms2]
  [.nt 30 .term [.nt 31 .termTaggedSumti (up [.tag, .stag, .simpleTenseModal] [.nt 32 .seBai [.cmavo 33 .SE "se", b]] ++
    up [.sumti, .sumti1, .sumti2, .sumti3, .sumti4, .sumti5, .sumti5a, .sumti6] [.cmavo 40 .KOhA "do"])]])))

mutual
/-- No nodes AUGMENTED. -/
def bare : Node → Bool
  | .nt _ t cs => t != .augmented && bares cs
  | _ => true
def bares : List Node → Bool
  | [] => true
  | c :: cs => bare c && bares cs
end

theorem bares_mem {cs : List Node} (h : bares cs = true) : ∀ c ∈ cs, bare c = true := by
  induction cs with
  | nil => simp
  | cons c cs ih =>
    rw [bares, Bool.and_eq_true] at h
    intro d hd
    rcases List.mem_cons.1 hd with rfl | hd
    · exact h.1
    · exact ih h.2 d hd

theorem occ_bare {top : Node} (h : bare top = true) {anc : List Node} {x : Node} (ho : Occ top anc x) : bare x = true := by
  have no : ∀ {i : Nat} {cs : List Node}, bare (.nt i .augmented cs) ≠ true := by intro i cs; simp [bare]
  induction ho with
  | top => exact h
  | child _ _ hc ih =>
    rw [bare, Bool.and_eq_true] at ih
    exact bares_mem ih.2 _ hc
  | word _ _ _ ih => exact absurd ih no
  | before _ _ _ ih => exact absurd ih no
  | after _ _ _ _ ih => exact absurd ih no

theorem noMarked_of {top : Node} (h : bare top = true) : NoMarkedBai top := by
  intro anc i t cs b j w ho hb hw
  have := occ_bare h ho
  rw [bare, Bool.and_eq_true] at this
  have := bares_mem this.2 _ hb
  cases hw with
  | alone => rfl
  | marked _ _ => simp [bare] at this

example : Parse .chunks (seBau (.cmavo 34 .BAI "bau")) ∧ NoMarkedBai (seBau (.cmavo 34 .BAI "bau")) ∧
    tagSeBai (seBau (.cmavo 34 .BAI "bau")) = .ok [.bai 34 2, .dontGloss 33] :=
  ⟨parse_of (by decide +kernel), noMarked_of (by decide), rfl⟩

/-- **A defect.**  In *mi broda se bau .ui do* the second place is hung on the node around `bau` and its attitudinal, where it is
not looked for, and `se` is not shown: the conversion is lost. -/
theorem marked_bai_lost :
    let top := seBau (.nt 35 .augmented [.cmavo 34 .BAI "bau", .cmavo 36 .UI "ui"])
    Parse .chunks top ∧ tagSeBai top = .ok [.bai 35 2, .dontGloss 33] ∧
      ∃ anc x, Occ top anc x ∧ BaiTold (fun _ j => j) x (.bai 34 2) := by
  intro top
  refine ⟨parse_of (by decide +kernel), rfl, ?_⟩
  have hd : (down [] top [0, 0, 0, 0, 0, 0, 0, 0, 0, 0, 0, 1, 0, 0, 0, 1, 0, 0, 0, 0, 0, 0, 0, 0, 0]).map (fun p => p.2) =
      some (.nt 32 .seBai [.cmavo 33 .SE "se", .nt 35 .augmented [.cmavo 34 .BAI "bau", .cmavo 36 .UI "ui"]]) := rfl
  obtain ⟨⟨anc, x⟩, h1, h2⟩ := Option.map_eq_some_iff.1 hd
  cases h2
  refine ⟨anc, _, down_occ _ .top h1, .se .alone (p := 2) (by decide) (j := 34) (w := "bau") ?_ (by simp)⟩
  exact .marked (bs := []) nofun (by decide)

end Jbo.Convert
