import Verif.TraceThm
import Verif.GramEx
/-!
# How the parser fills the log

An LR parser builds a tree from the left and from below: it shifts each token and reduces each node once its children are done.
-/

namespace Jbo.Trace
open Jbo.Terms Jbo.Gram Spec

/-- Non-terminals with rules that end with a marker (`rpc2x.y:240-249`, `1919-2056`, `2098-2186`). -/
def closers : List NT := [.chunks, .jek, .jekOptKe, .jekOptKebo, .joik, .joikOptKe, .joikOptKebo, .simpleTenseModal]

/-- A symbol that stands for tokens. -/
def real : Item → Bool
  | .e _ => false
  | _ => true

/-- The actions for the children of a node; `P` gives those for a non-terminal.  A word is one token, with its indicators (`lex2.c` hangs them on it).  A
terminator that was left out is none, whether it is put in or not.  Markers, which are no children, may be shifted before any of them. -/
inductive Steps (P : NT → Node → List Act → Prop) : List Item → List Node → List Act → Prop
  | nil : Steps P [] [] []
  | n {t c its cs es fs} : P t c es → Steps P its cs fs → Steps P (.n t :: its) (c :: cs) (es ++ fs)
  | word {it c its cs fs} : WordR it c → Steps P its cs fs → Steps P (it :: its) (c :: cs) (.shift :: fs)
  | put {s i w its cs fs} : w ∈ wordsOf s → Steps P its cs fs → Steps P (.e s :: its) (.cmavo i s w :: cs) fs
  | out {s its cs fs} : Steps P its cs fs → Steps P (.e s :: its) cs fs
  | marker {its cs fs} : its.any real = true → Steps P its cs fs → Steps P its cs (.shift :: fs)

/-- The actions that build a tree. -/
inductive Built : NT → Node → List Act → Prop
  | mk {i cs r es m s n} : r ∈ rules → Steps Built r.rhs cs es → m = [] ∨ r.lhs ∈ closers ∧ m = [.shift] →
      Built r.lhs (.nt i r.lhs cs) (es ++ m ++ [.reduce s n])

mutual
/-- The number of nodes from a node down along the last children. -/
def spine : Node → Nat
  | .nt _ t cs => if t ∈ closers ∨ t = .augmented then 0 else spineLast cs + 1
  | _ => 0
def spineLast : List Node → Nat
  | [] => 0
  | [c] => spine c
  | _ :: c :: cs => spineLast (c :: cs)
end

theorem word_spine {it : Item} {x : Node} (h : WordR it x) : spine x = 0 := by
  cases h with
  | alone h => cases h <;> rfl
  | marked _ _ _ => rw [spine, if_pos (.inr rfl)]

theorem reds_nil : Reds [] := nofun

theorem steps_empty {P : NT → Node → List Act → Prop} {its : List Item} {fs : List Act} (h : Steps P its [] fs) : its.any real = false ∧ fs = [] := by
  generalize e : ([] : List Node) = cs at h
  induction h with
  | nil => exact ⟨rfl, rfl⟩
  | n => cases e
  | word => cases e
  | put => cases e
  | out _ ih => obtain ⟨h1, h2⟩ := ih e; exact ⟨by rw [List.any_cons, h1]; rfl, h2⟩
  | marker hr _ ih => rw [(ih e).1] at hr; cases hr

theorem steps_tail {P : NT → Node → List Act → Prop} {its : List Item} {cs : List Node} {es : List Act}
    (hp : ∀ t c, c ∈ cs → ∀ es, P t c es → ∃ a b, es = a ++ b ∧ Reds b ∧ spine c ≤ b.length) (h : Steps P its cs es) :
    ∃ a b, es = a ++ b ∧ Reds b ∧ spineLast cs ≤ b.length := by
  induction h with
  | nil => exact ⟨[], [], rfl, reds_nil, Nat.le_refl _⟩
  | @n t c its cs es fs h1 h2 ih =>
    cases cs with
    | nil =>
      rw [(steps_empty h2).2, List.append_nil]
      exact hp t c (List.mem_cons_self ..) es h1
    | cons d cs =>
      obtain ⟨a, b, rfl, hb, hl⟩ := ih (fun t x hx => hp t x (List.mem_cons_of_mem _ hx))
      exact ⟨es ++ a, b, by rw [List.append_assoc], hb, hl⟩
  | @word it c its cs fs h1 h2 ih =>
    cases cs with
    | nil => exact ⟨.shift :: fs, [], by simp, reds_nil, by rw [spineLast, word_spine h1]; exact Nat.le_refl _⟩
    | cons d cs =>
      obtain ⟨a, b, rfl, hb, hl⟩ := ih (fun t x hx => hp t x (List.mem_cons_of_mem _ hx))
      exact ⟨.shift :: a, b, rfl, hb, hl⟩
  | @put s i w its cs fs h1 h2 ih =>
    cases cs with
    | nil => exact ⟨fs, [], by simp, reds_nil, Nat.le_refl _⟩
    | cons d cs =>
      obtain ⟨a, b, rfl, hb, hl⟩ := ih (fun t x hx => hp t x (List.mem_cons_of_mem _ hx))
      exact ⟨a, b, rfl, hb, hl⟩
  | out _ ih => exact ih hp
  | marker _ _ ih =>
    obtain ⟨a, b, rfl, hb, hl⟩ := ih hp
    exact ⟨.shift :: a, b, rfl, hb, hl⟩

/-- The tree is finished with one reduction after another along the last children. -/
theorem built_tail : ∀ (d : Nat) (x : Node), x.depth ≤ d → ∀ t es, Built t x es → ∃ a b, es = a ++ b ∧ Reds b ∧ spine x ≤ b.length := by
  intro d
  induction d with
  | zero =>
    intro x hx t es h
    cases h with
    | mk => rw [Node.depth] at hx; omega
  | succ d ih =>
    intro x hx t es h
    cases h with
    | @mk i cs r es m s n hr hs hm =>
      obtain ⟨a, b, rfl, hb, hl⟩ := steps_tail (fun u c hc => ih c (by have := mem_depth (t := r.lhs) (i := i) hc; omega) u) hs
      rw [spine]
      split
      · exact ⟨a ++ b ++ m ++ [.reduce s n], [], by simp, reds_nil, Nat.le_refl _⟩
      · rename_i hc
        rcases hm with rfl | ⟨hm, _⟩
        · refine ⟨a, b ++ [.reduce s n], by simp, ?_, by rw [List.length_append, List.length_singleton]; omega⟩
          intro y hy
          rcases List.mem_append.1 hy with hy | hy
          · exact hb y hy
          · rw [List.mem_singleton.1 hy]; exact ⟨s, n, rfl⟩
        · exact absurd (.inl hm) hc

theorem steps_mem {P : NT → Node → List Act → Prop} {its : List Item} {cs : List Node} {es : List Act} (h : Steps P its cs es) : ∀ c ∈ cs,
    (∃ t fs a b, P t c fs ∧ es = a ++ fs ++ b) ∨ (∃ it, WordR it c) ∨ ∃ i s w, c = .cmavo i s w := by
  induction h with
  | nil => nofun
  | @n t c its cs es fs h1 h2 ih =>
    intro x hx
    rcases List.mem_cons.1 hx with rfl | hx
    · exact .inl ⟨t, es, [], fs, h1, rfl⟩
    · rcases ih x hx with ⟨t, gs, a, b, h3, rfl⟩ | h
      · exact .inl ⟨t, gs, es ++ a, b, h3, by simp⟩
      · exact .inr h
  | @word it c its cs fs h1 h2 ih =>
    intro x hx
    rcases List.mem_cons.1 hx with rfl | hx
    · exact .inr (.inl ⟨it, h1⟩)
    · rcases ih x hx with ⟨t, gs, a, b, h3, rfl⟩ | h
      · exact .inl ⟨t, gs, .shift :: a, b, h3, rfl⟩
      · exact .inr h
  | @put s i w its cs fs h1 h2 ih =>
    intro x hx
    rcases List.mem_cons.1 hx with rfl | hx
    · exact .inr (.inr ⟨_, _, _, rfl⟩)
    · exact ih x hx
  | out _ ih => exact ih
  | marker _ _ ih =>
    intro x hx
    rcases ih x hx with ⟨t, gs, a, b, h3, rfl⟩ | h
    · exact .inl ⟨t, gs, .shift :: a, b, h3, rfl⟩
    · exact .inr h

theorem sub_leaf {x y : Node} (h : Sub x y) (hx : ∀ i t cs, x ≠ .nt i t cs) : y = x := by
  cases h with
  | refl => rfl
  | child => exact absurd rfl (hx _ _ _)

theorem base_sub {it : Item} {x y : Node} (hb : Base it x) (h : Sub x y) : spine y = 0 := by
  cases hb <;> (rw [sub_leaf h nofun]; rfl)

theorem word_sub {it : Item} {x y : Node} (hw : WordR it x) (h : Sub x y) : spine y = 0 := by
  cases hw with
  | alone hb => exact base_sub hb h
  | marked ha hb hr =>
    cases h with
    | refl => rw [spine, if_pos (.inr rfl)]
    | child hc hs =>
      rcases List.mem_append.1 hc with hc | hc
      · obtain ⟨k, v, rfl, _⟩ := ha _ hc
        rw [sub_leaf hs nofun]; rfl
      · rcases List.mem_cons.1 hc with rfl | hc
        · exact base_sub hb hs
        · cases hr _ hc with
          | word _ _ => rw [sub_leaf hs nofun]; rfl
          | marked ha' _ _ =>
            cases hs with
            | refl => rw [spine, if_pos (.inr rfl)]
            | child hc hs =>
              rcases List.mem_append.1 hc with hc | hc
              · obtain ⟨k, v, rfl, _⟩ := ha' _ hc
                rw [sub_leaf hs nofun]; rfl
              · rw [List.mem_singleton.1 hc] at hs
                rw [sub_leaf hs nofun]; rfl

/-- The actions for a part of a tree are a part of the actions for the tree. -/
theorem built_sub {top x : Node} (h : Sub top x) (hx : spine x ≠ 0) : ∀ t es, Built t top es → ∃ u fs a b, Built u x fs ∧ es = a ++ fs ++ b := by
  induction h with
  | refl => intro t es h; exact ⟨t, es, [], [], h, by simp⟩
  | @child i t cs c x hc hs ih =>
    intro t' es h
    cases h with
    | @mk i cs r es m s n hr hst hm =>
      rcases steps_mem hst c hc with ⟨u, gs, a, b, h1, rfl⟩ | ⟨it, h1⟩ | ⟨j, s', w, rfl⟩
      · obtain ⟨u', fs, a', b', h2, rfl⟩ := ih hx u gs h1
        exact ⟨u', fs, a ++ a', b' ++ b ++ m ++ [.reduce s n], h2, by simp⟩
      · exact absurd (word_sub h1 hs) hx
      · rw [sub_leaf hs nofun] at hx
        exact absurd rfl hx

/-- **Deep nesting overruns the log**: if from some node the last children go down for more than 1024 nodes, the program writes after the end of
`reductions`. -/
theorem deep_overruns {t : NT} {top x : Node} {es : List Act} (hb : Built t top es) (hs : Sub top x) (hx : 1024 < spine x) : run [] es = none := by
  obtain ⟨u, fs, a, b, h1, rfl⟩ := built_sub hs (by omega) t es hb
  obtain ⟨c, d, rfl, hd, hl⟩ := built_tail _ x (Nat.le_refl _) u fs h1
  have := (log_exact (a ++ (c ++ d) ++ b)).1
  rcases hr : run [] (a ++ (c ++ d) ++ b) with _ | l
  · rfl
  · rw [hr] at this
    have := this.1 rfl d ⟨hd, a ++ c, b, by simp⟩
    omega

/-! ## Shallow trees -/

/-- The reductions since the last shift, `k` before the first action. -/
def final : Nat → List Act → Nat
  | k, [] => k
  | _, .shift :: as => final 0 as
  | k, .reduce _ _ :: as => final (k + 1) as

theorem final_append (a b : List Act) : ∀ k, final k (a ++ b) = final (final k a) b := by
  induction a with
  | nil => intro k; rfl
  | cons x a ih => intro k; cases x <;> exact ih _

theorem peak_append (a b : List Act) : ∀ k, peak k (a ++ b) = max (peak k a) (peak (final k a) b) := by
  induction a with
  | nil => intro k; have := peak_le b k; simp only [List.nil_append, peak, final]; omega
  | cons x a ih =>
    intro k
    cases x with
    | shift => rw [List.cons_append, peak, ih, peak, final]; omega
    | reduce s r => exact ih _

/-- No node is empty. -/
def Full (x : Node) : Prop := ∀ i t, ¬ Sub x (.nt i t [])

/-- The actions begin with a shift. -/
def Starts (es : List Act) : Prop := ∃ fs, es = .shift :: fs

theorem rules_real : rules.all (fun r => r.rhs.any real || r.rhs.isEmpty) = true := by decide +kernel

theorem kid_full {i : Nat} {t : NT} {cs : List Node} (h : Full (.nt i t cs)) {c : Node} (hc : c ∈ cs) : Full c :=
  fun j u hs => h j u (.child hc hs)

theorem final_starts {es : List Act} (h : Starts es) (k : Nat) : final k es = final 0 es := by
  obtain ⟨fs, rfl⟩ := h; rfl

theorem peak_starts {es : List Act} (h : Starts es) (k : Nat) : peak k es = max k (peak 0 es) := by
  obtain ⟨fs, rfl⟩ := h
  have : peak 0 (.shift :: fs) = peak 0 fs := by rw [peak]; omega
  rw [this, peak]

theorem steps_flat {P : NT → Node → List Act → Prop} {its : List Item} {cs : List Node} {es : List Act} {d : Nat}
    (hp : ∀ t c, c ∈ cs → ∀ es, P t c es → Starts es ∧ peak 0 es ≤ d ∧ final 0 es ≤ d) (h : Steps P its cs es) :
    (Starts es ∨ es = [] ∧ its.any real = false) ∧ peak 0 es ≤ d ∧ final 0 es ≤ d := by
  induction h with
  | nil => exact ⟨.inr ⟨rfl, rfl⟩, Nat.zero_le _, Nat.zero_le _⟩
  | @n t c its cs es fs h1 h2 ih =>
    obtain ⟨⟨gs, rfl⟩, h4, h5⟩ := hp t c (List.mem_cons_self ..) es h1
    obtain ⟨h6, h7, h8⟩ := ih (fun t x hx => hp t x (List.mem_cons_of_mem _ hx))
    refine ⟨.inl ⟨gs ++ fs, rfl⟩, ?_, ?_⟩
    · rw [peak_append]
      rcases h6 with h6 | ⟨rfl, _⟩
      · rw [peak_starts h6]; omega
      · rw [peak]; omega
    · rw [final_append]
      rcases h6 with h6 | ⟨rfl, _⟩
      · rw [final_starts h6]; omega
      · rw [final]; omega
  | @word it c its cs fs h1 h2 ih =>
    obtain ⟨h6, h7, h8⟩ := ih (fun t x hx => hp t x (List.mem_cons_of_mem _ hx))
    refine ⟨.inl ⟨fs, rfl⟩, ?_, h8⟩
    rw [peak]; omega
  | put _ _ ih =>
    obtain ⟨h6, h7, h8⟩ := ih (fun t x hx => hp t x (List.mem_cons_of_mem _ hx))
    exact ⟨h6.imp id (fun h => ⟨h.1, by rw [List.any_cons, h.2]; rfl⟩), h7, h8⟩
  | out _ ih =>
    obtain ⟨h6, h7, h8⟩ := ih hp
    exact ⟨h6.imp id (fun h => ⟨h.1, by rw [List.any_cons, h.2]; rfl⟩), h7, h8⟩
  | @marker its cs fs hr _ ih =>
    obtain ⟨h6, h7, h8⟩ := ih hp
    refine ⟨.inl ⟨fs, rfl⟩, ?_, h8⟩
    rw [peak]; omega

theorem built_flat : ∀ (d : Nat) (x : Node), x.depth ≤ d → Full x → ∀ t es, Built t x es → Starts es ∧ peak 0 es ≤ d ∧ final 0 es ≤ d := by
  intro d
  induction d with
  | zero =>
    intro x hx _ t es h
    cases h with
    | mk => rw [Node.depth] at hx; omega
  | succ d ih =>
    intro x hx hf t es h
    cases h with
    | @mk i cs r es m s n hr hs hm =>
      obtain ⟨h1, h2, h3⟩ := steps_flat (fun u c hc => ih c (by have := mem_depth (t := r.lhs) (i := i) hc; omega) (kid_full hf hc) u) hs
      have hreal : r.rhs.any real = true := by
        have := all_mem rules_real hr
        rw [Bool.or_eq_true] at this
        rcases this with h | h
        · exact h
        · rw [List.isEmpty_iff] at h
          rw [h] at hs
          exfalso
          have : cs = [] := by
            generalize hl : ([] : List Item) = l at hs
            induction hs with
            | nil => rfl
            | n => cases hl
            | word => cases hl
            | put => cases hl
            | out => cases hl
            | marker hr _ _ => rw [← hl] at hr; cases hr
          rw [this] at hf
          exact hf _ _ .refl
      have h4 : Starts es := h1.elim id (fun h => by rw [h.2] at hreal; cases hreal)
      obtain ⟨gs, rfl⟩ := h4
      refine ⟨⟨gs ++ m ++ [.reduce s n], rfl⟩, ?_, ?_⟩
      · rw [peak_append, peak_append, final_append]
        rcases hm with rfl | ⟨_, rfl⟩
        · simp only [peak, final] at *; omega
        · simp only [peak, final] at *; omega
      · rw [final_append, final_append]
        rcases hm with rfl | ⟨_, rfl⟩
        · simp only [final] at *; omega
        · simp only [final] at *; omega

/-- **Shallow trees fit**: nothing is written after the end of the log if the tree has at most 1024 levels and no empty node. -/
theorem log_fits_partial {t : NT} {top : Node} {es : List Act} (hb : Built t top es) (hf : Full top) (hd : top.depth ≤ 1024) : (run [] es).isSome = true := by
  obtain ⟨_, h, _⟩ := built_flat 1024 top hd hf t es hb
  exact (run_peak es [] (Nat.zero_le _)).2 h

end Jbo.Trace
