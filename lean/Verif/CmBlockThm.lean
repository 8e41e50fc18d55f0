import Verif.Cm
import Verif.CmSpec

/-!
# cmafihe's blocks are aligned, complete and no wider than need be

Property C37.
-/

namespace Jbo.Cm

open Jbo.CmSpec

/-- What is put into the blocks for each call. -/
def items : Ev → List (Option Entry)
  | .item lojban trans selmao => [some ⟨lojban, selmao, trans⟩]
  | .newline => [none]
  | .paren text => [some ⟨['('], ['('], ['(']⟩, some ⟨text, [], []⟩, some ⟨[')'], [')'], [')']⟩]

/-! ## The specification -/

theorem padded_length (e : Entry) (i : Fin 3) : (padded e i).length = e.cols := by
  have : (e.row i).length ≤ e.cols := by
    match i with
    | 0 => simp [Entry.row, Entry.cols]; omega
    | 1 => simp [Entry.row, Entry.cols]; omega
    | 2 => simp [Entry.row, Entry.cols]; omega
  simp [padded]
  omega

theorem lineCols_append (a b : List Entry) : lineCols (a ++ b) = lineCols a + lineCols b := by
  simp [lineCols]

theorem rowOf_append (a b : List Entry) (i : Fin 3) : rowOf (a ++ b) i = rowOf a i ++ rowOf b i := by
  simp [rowOf]

/-- C37: the three rows of a line have the same length. -/
theorem row_length (l : List Entry) (i : Fin 3) : (rowOf l i).length = lineCols l := by
  induction l with
  | nil => rfl
  | cons e l ih =>
    have : e :: l = [e] ++ l := rfl
    rw [this, rowOf_append, lineCols_append, List.length_append, ih]
    simp [rowOf, lineCols, padded_length]

/-- C37: in each of the three rows an entry begins at the same column, is given in full and followed by a blank. -/
theorem entry_column (l r : List Entry) (e : Entry) (i : Fin 3) : ∃ k rest, 0 < k ∧
    rowOf (l ++ e :: r) i = rowOf l i ++ (e.row i ++ List.replicate k ' ' ++ rest) ∧ (rowOf l i).length = lineCols l ∧
    (e.row i ++ List.replicate k ' ').length = e.cols := by
  refine ⟨e.cols - (e.row i).length, rowOf r i, ?_, ?_, row_length l i, ?_⟩
  · match i with
    | 0 => simp [Entry.row, Entry.cols]; omega
    | 1 => simp [Entry.row, Entry.cols]; omega
    | 2 => simp [Entry.row, Entry.cols]; omega
  · rw [show l ++ e :: r = l ++ ([e] ++ r) from rfl, rowOf_append, rowOf_append]
    simp [rowOf, padded]
  · exact padded_length e i

/-- C37: no entry is lost. -/
theorem fill_flatten {w : Int} {p ls} (h : Fill w p ls) : ls.flatten = p := by
  induction h with
  | nil => rfl
  | line _ _ _ ih => simp [ih]

/-- C37: no line is wider than the width, unless it has only one entry. -/
theorem fill_width {w : Int} {p ls} (h : Fill w p ls) : ∀ l ∈ ls, (lineCols l : Int) ≤ w ∨ ∃ e, l = [e] := by
  induction h with
  | nil => simp
  | @line e l r ls h1 _ _ ih =>
    intro x hx
    rcases List.mem_cons.1 hx with rfl | hx
    · cases l with
      | nil => exact Or.inr ⟨e, rfl⟩
      | cons a l =>
        left
        have := h1 l.length (by simp)
        rwa [show (a :: l).take (l.length + 1) = a :: l by simp] at this
    · exact ih x hx

/-- C37: no line could take the entry that begins the next one. -/
theorem fill_tight {w : Int} {p ls} (h : Fill w p ls) : ∀ a l e l' b, ls = a ++ l :: (e :: l') :: b →
    w < lineCols (l ++ [e]) := by
  induction h with
  | nil => intro a l e l' b h; simp at h
  | @line e l r ls h1 h2 h3 ih =>
    intro a x y l' b hx
    cases a with
    | nil =>
      simp only [List.nil_append, List.cons.injEq] at hx
      obtain ⟨rfl, rfl⟩ := hx
      have := fill_flatten h3
      simp at this
      exact h2 y _ this.symm
    | cons z a =>
      simp only [List.cons_append, List.cons.injEq] at hx
      exact ih a x y l' b hx.2

theorem lineCols_take_le (l : List Entry) (n : Nat) : lineCols (l.take n) ≤ lineCols l := by
  have := lineCols_append (l.take n) (l.drop n)
  rw [List.take_append_drop] at this
  omega

/-- There is only one way to fill the lines. -/
theorem fill_unique {w : Int} {p ls} (h : Fill w p ls) : ∀ p' ls', p' = p → Fill w p' ls' → ls = ls' := by
  induction h with
  | nil =>
    intro p' ls' e h
    cases h with
    | nil => rfl
    | line _ _ _ => cases e
  | @line e l r ls h1 h2 _ ih =>
    intro p' ls' he h
    cases h with
    | nil => cases he
    | @line e' l' r' ls' k1 k2 k3 =>
      simp only [List.cons_append, List.cons.injEq] at he
      obtain ⟨rfl, he⟩ := he
      have key : ∀ {l r l' r' : List Entry} {e : Entry}, l' ++ r' = l ++ r →
          (∀ i, i < l'.length → (lineCols (e :: l'.take (i + 1)) : Int) ≤ w) →
          (∀ e' s, r = e' :: s → w < lineCols (e :: l ++ [e'])) → l'.length ≤ l.length := by
        intro l r l' r' e he k h
        apply Classical.byContradiction
        intro hlt
        have hr : r ≠ [] := by
          rintro rfl
          have := congrArg List.length he
          simp at this
          omega
        obtain ⟨y, s, rfl⟩ := List.exists_cons_of_ne_nil hr
        have e1 : l'.take (l.length + 1) = l ++ [y] := by
          have := congrArg (List.take (l.length + 1)) he
          rw [List.take_append_of_le_length (by omega)] at this
          rw [this, List.take_append, List.take_of_length_le (by omega)]
          simp
        have h1 := k l.length (by omega)
        have h2 := h y s rfl
        rw [e1] at h1
        simp only [List.cons_append] at h2
        omega
      have hl : l'.length = l.length := Nat.le_antisymm (key he k1 h2) (key he.symm h1 k2)
      obtain ⟨rfl, rfl⟩ := List.append_inj he hl
      rw [ih _ _ rfl k3]

/-! ## The program -/

/-- The line in progress, if there is one. -/
def close (cur : List Entry) : List (List Entry) := if cur = [] then [] else [cur]

/-- The lines of each paragraph, when `cur` is in progress. -/
def lay (w : Int) : List Entry → List (Option Entry) → List (List (List Entry))
  | cur, [] => [close cur]
  | cur, none :: r => close cur :: lay w [] r
  | cur, some e :: r =>
    if w < ((lineCols cur + e.cols : Nat) : Int) then
      match lay w [e] r with
      | [] => []
      | p :: ps => (close cur ++ p) :: ps
    else lay w (cur ++ [e]) r

theorem lay_ne (w : Int) : ∀ cur is, ∃ p ps, lay w cur is = p :: ps
  | cur, [] => ⟨_, _, rfl⟩
  | cur, none :: r => ⟨_, _, rfl⟩
  | cur, some e :: r => by
    unfold lay
    split
    · obtain ⟨p, ps, h⟩ := lay_ne w [e] r
      rw [h]
      exact ⟨_, _, rfl⟩
    · exact lay_ne w (cur ++ [e]) r

theorem paras_ne : ∀ is, ∃ p ps, paras is = p :: ps
  | [] => ⟨_, _, rfl⟩
  | none :: r => ⟨_, _, rfl⟩
  | some e :: r => by
    unfold paras
    split <;> exact ⟨_, _, rfl⟩

theorem paras_cons {e r p ps} (h : paras r = p :: ps) : paras (some e :: r) = (e :: p) :: ps := by
  rw [paras, h]

/-- The line in progress can be continued up to here. -/
def Going (w : Int) (cur : List Entry) : Prop :=
  ∀ e l, cur = e :: l → ∀ i, i < l.length → (lineCols (e :: l.take (i + 1)) : Int) ≤ w

theorem fill_close {w : Int} {cur r : List Entry} {ls} (hg : Going w cur)
    (hr : ∀ e' r', r = e' :: r' → w < ((lineCols cur + e'.cols : Nat) : Int)) (h : Fill w r ls) :
    Fill w (cur ++ r) (close cur ++ ls) := by
  cases cur with
  | nil => exact h
  | cons e l =>
    have : close (e :: l) = [e :: l] := by simp [close]
    rw [this]
    refine Fill.line (hg e l rfl) ?_ h
    intro e' r' he
    have := hr e' r' he
    rw [lineCols_append]
    simpa [lineCols] using this

theorem going_append {w : Int} {cur : List Entry} {e : Entry} (hg : Going w cur)
    (h : ¬ w < ((lineCols cur + e.cols : Nat) : Int)) : Going w (cur ++ [e]) := by
  intro a l he i hi
  cases cur with
  | nil =>
    simp at he
    obtain ⟨rfl, rfl⟩ := he
    simp at hi
  | cons b m =>
    simp only [List.cons_append, List.cons.injEq] at he
    obtain ⟨rfl, rfl⟩ := he
    by_cases hi' : i < m.length
    · rw [List.take_append_of_le_length (by omega)]
      exact hg b m rfl i hi'
    · simp at hi
      have : (m ++ [e]).take (i + 1) = m ++ [e] := List.take_of_length_le (by simp; omega)
      rw [this, show b :: (m ++ [e]) = (b :: m) ++ [e] from rfl, lineCols_append]
      simp [lineCols] at h ⊢
      omega

theorem lay_fill (w : Int) : ∀ is cur p ps q qs, Going w cur → lay w cur is = p :: ps → paras is = q :: qs →
    Fill w (cur ++ q) p ∧ ps.map List.flatten = qs ∧ ∀ ls ∈ ps, Fill w ls.flatten ls := by
  intro is
  induction is with
  | nil =>
    intro cur p ps q qs hg h1 h2
    cases h1
    cases h2
    refine ⟨?_, rfl, by simp⟩
    have := fill_close (r := []) (ls := []) hg (by simp) .nil
    simpa using this
  | cons x is ih =>
    intro cur p ps q qs hg h1 h2
    cases x with
    | none =>
      cases h1
      cases h2
      refine ⟨?_, ?_⟩
      · have := fill_close (r := []) (ls := []) hg (by simp) .nil
        simpa using this
      · obtain ⟨p', ps', e1⟩ := lay_ne w [] is
        obtain ⟨q', qs', e2⟩ := paras_ne is
        obtain ⟨h1, h2, h3⟩ := ih [] p' ps' q' qs' (by intro e l h; cases h) e1 e2
        rw [e1, e2]
        have := fill_flatten h1
        refine ⟨by simp [this, h2], ?_⟩
        intro ls hl
        rcases List.mem_cons.1 hl with rfl | hl
        · rw [this]; exact h1
        · exact h3 ls hl
    | some e =>
      obtain ⟨q', qs', e2⟩ := paras_ne is
      rw [paras_cons e2] at h2
      simp only [List.cons.injEq] at h2
      obtain ⟨rfl, rfl⟩ := h2
      unfold lay at h1
      split at h1
      · rename_i hw
        obtain ⟨p', ps', e1⟩ := lay_ne w [e] is
        rw [e1] at h1
        simp only [List.cons.injEq] at h1
        obtain ⟨rfl, rfl⟩ := h1
        obtain ⟨h1, h2, h3⟩ := ih [e] p' _ q' _ (by intro a l h i hi; cases h; simp at hi) e1 e2
        refine ⟨fill_close hg ?_ h1, h2, h3⟩
        intro e' r' he
        simp at he
        rw [← he.1]
        exact hw
      · rename_i hw
        have := ih (cur ++ [e]) p ps q' _ (going_append hg hw) h1 e2
        simpa using this

/-- The three buffers hold the line in progress. -/
structure Holds (s : St) (cur : List Entry) : Prop where
  h0 : s.l0 = rowOf cur 0
  h1 : s.l1 = rowOf cur 1
  h2 : s.l2 = rowOf cur 2
  hu : s.used = lineCols cur

theorem holds_nil (out : List Char) : Holds ⟨[], [], [], 0, out⟩ [] := ⟨rfl, rfl, rfl, rfl⟩

theorem lineCols_pos {cur : List Entry} (h : cur ≠ []) : 0 < lineCols cur := by
  obtain ⟨e, l, rfl⟩ := List.exists_cons_of_ne_nil h
  simp [lineCols, Entry.cols]
  omega

theorem blockNewline_out {s : St} {cur : List Entry} (h : Holds s cur) :
    blockNewline s = ⟨[], [], [], 0, s.out ++ ((close cur).map block).flatten⟩ := by
  unfold blockNewline close
  rw [h.h0, h.h1, h.h2, h.hu]
  by_cases hc : cur = []
  · subst hc
    simp [lineCols]
  · rw [if_pos (lineCols_pos hc), if_neg hc]
    simp [block]

theorem ml_eq (a b c : Nat) : (if (if a > b then a else b) > c then (if a > b then a else b) else c) = max a (max b c) := by
  split <;> split at * <;> omega

theorem append_row {buf : List Char} {cur : List Entry} {e : Entry} {i : Fin 3} (h : buf = rowOf cur i) {n : Nat}
    (hn : n = e.cols) :
    appendContent buf (e.row i) n = if lineCols (cur ++ [e]) ≤ 511 then .ok (rowOf (cur ++ [e]) i) else .error .overflow := by
  subst hn
  have e1 : buf ++ e.row i ++ List.replicate (e.cols - (e.row i).length) ' ' = rowOf (cur ++ [e]) i := by
    rw [rowOf_append, h]
    simp [rowOf, padded]
  unfold appendContent
  dsimp only
  rw [e1, row_length]
  by_cases hl : lineCols (cur ++ [e]) ≤ 511
  · rw [if_neg (by omega), if_pos hl]
  · rw [if_pos (by omega), if_neg hl]

theorem doBlock_eq {w : Int} {s : St} {cur : List Entry} (h : Holds s cur) (e : Entry) :
    ∃ cur' out', cur' = (if w < ((lineCols cur + e.cols : Nat) : Int) then [] else cur) ∧
      out' = (if w < ((lineCols cur + e.cols : Nat) : Int) then s.out ++ ((close cur).map block).flatten else s.out) ∧
      ((lineCols (cur' ++ [e]) ≤ 511 ∧ ∃ s', doBlock w s e.a e.b e.c = .ok s' ∧ Holds s' (cur' ++ [e]) ∧ s'.out = out') ∨
       (511 < lineCols (cur' ++ [e]) ∧ doBlock w s e.a e.b e.c = .error .overflow)) := by
  refine ⟨_, _, rfl, rfl, ?_⟩
  unfold doBlock
  dsimp only
  rw [ml_eq]
  have hm : max e.a.length (max e.b.length e.c.length) + 1 = e.cols := rfl
  have hcond : (((max e.a.length (max e.b.length e.c.length) + s.used + 1 : Nat) : Int) > w) =
      (w < ((lineCols cur + e.cols : Nat) : Int)) := by
    rw [← h.hu, ← hm]
    apply propext
    constructor <;> intro h <;> omega
  rw [hm]
  simp only [hcond]
  generalize hs : (if w < ((lineCols cur + e.cols : Nat) : Int) then blockNewline s else s) = s1
  have hs1 : Holds s1 (if w < ((lineCols cur + e.cols : Nat) : Int) then [] else cur) ∧
      s1.out = (if w < ((lineCols cur + e.cols : Nat) : Int) then s.out ++ ((close cur).map block).flatten else s.out) := by
    rw [← hs]
    split
    · rw [blockNewline_out h]
      exact ⟨holds_nil _, rfl⟩
    · exact ⟨h, rfl⟩
  obtain ⟨k, ko⟩ := hs1
  generalize (if w < ((lineCols cur + e.cols : Nat) : Int) then [] else cur) = cur' at k ⊢
  rw [show appendContent s1.l0 e.a e.cols = _ from append_row (i := 0) k.h0 rfl,
    show appendContent s1.l1 e.b e.cols = _ from append_row (i := 1) k.h1 rfl,
    show appendContent s1.l2 e.c e.cols = _ from append_row (i := 2) k.h2 rfl]
  by_cases hl : lineCols (cur' ++ [e]) ≤ 511
  · left
    refine ⟨hl, ⟨rowOf (cur' ++ [e]) 0, rowOf (cur' ++ [e]) 1, rowOf (cur' ++ [e]) 2, s1.used + e.cols, s1.out⟩,
      by simp only [if_pos hl], ⟨rfl, rfl, rfl, ?_⟩, ko⟩
    dsimp only
    rw [lineCols_append, k.hu]
    simp [lineCols]
  · right
    refine ⟨by omega, by simp only [if_neg hl]⟩

/-- The calls one entry at a time. -/
def steps (w : Int) (s : St) : List (Option Entry) → Except Crash St
  | [] => .ok s
  | none :: r => steps w { blockNewline s with out := (blockNewline s).out ++ ['\n'] } r
  | some e :: r => match doBlock w s e.a e.b e.c with
    | .error c => .error c
    | .ok s => steps w s r

theorem evs_steps (w : Int) : ∀ es s, evs w s es = steps w s (es.flatMap items)
  | [], s => rfl
  | e :: es, s => by
    rw [List.flatMap_cons]
    cases e with
    | item l t m =>
      rw [evs, ev, items, List.cons_append, steps]
      cases doBlock w s l m t with
      | error c => rfl
      | ok s => exact evs_steps w es s
    | newline => exact evs_steps w es _
    | paren x =>
      rw [evs, ev, items, List.cons_append, steps]
      cases doBlock w s ['('] ['('] ['('] with
      | error c => rfl
      | ok s =>
        dsimp only
        rw [List.cons_append, steps]
        dsimp only
        cases doBlock w s x [] [] with
        | error c => rfl
        | ok s =>
          dsimp only
          rw [List.cons_append, steps]
          dsimp only
          cases doBlock w s [')'] [')'] [')'] with
          | error c => rfl
          | ok s => exact evs_steps w es s

/-- Every line fits the buffers. -/
def Fits (lss : List (List (List Entry))) : Prop := ∀ ls ∈ lss, ∀ l ∈ ls, lineCols l ≤ 511

instance (lss) : Decidable (Fits lss) := by unfold Fits; infer_instance

theorem lay_mem (w : Int) : ∀ is cur, cur ≠ [] → ∃ p ps x, lay w cur is = p :: ps ∧ cur ++ x ∈ p := by
  intro is
  induction is with
  | nil =>
    intro cur h
    exact ⟨_, _, [], rfl, by simp [close, h]⟩
  | cons i is ih =>
    intro cur h
    cases i with
    | none => exact ⟨_, _, [], rfl, by simp [close, h]⟩
    | some e =>
      unfold lay
      split
      · obtain ⟨p, ps, hp⟩ := lay_ne w [e] is
        rw [hp]
        exact ⟨_, _, [], rfl, by simp [close, h]⟩
      · obtain ⟨p, ps, x, h1, h2⟩ := ih (cur ++ [e]) (by simp)
        exact ⟨p, ps, e :: x, h1, by simpa using h2⟩

theorem printed_cons (p : List (List Entry)) {q ps} : printed (p :: q :: ps) = (p.map block).flatten ++ ['\n'] ++ printed (q :: ps) := by
  simp [printed, List.intercalate, List.intersperse]

theorem printed_head (a p : List (List Entry)) (ps) :
    printed ((a ++ p) :: ps) = (a.map block).flatten ++ printed (p :: ps) := by
  cases ps with
  | nil => simp [printed, List.intercalate, List.intersperse]
  | cons q ps => simp [printed_cons]

theorem steps_eq (w : Int) : ∀ is s cur, Holds s cur → lineCols cur ≤ 511 →
    (Fits (lay w cur is) ∧ ∃ s', steps w s is = .ok s' ∧ (blockNewline s').out = s.out ++ printed (lay w cur is)) ∨
    (¬ Fits (lay w cur is) ∧ steps w s is = .error .overflow) := by
  intro is
  induction is with
  | nil =>
    intro s cur h hc
    left
    refine ⟨?_, s, rfl, ?_⟩
    · intro ls hls l hl
      simp [lay] at hls
      subst hls
      simp [close] at hl
      rw [hl.2]
      exact hc
    · rw [blockNewline_out h]
      simp [lay, printed, List.intercalate, List.intersperse]
  | cons i is ih =>
    intro s cur h hc
    cases i with
    | none =>
      rw [steps, lay, blockNewline_out h]
      dsimp only
      obtain ⟨p, ps, hp⟩ := lay_ne w [] is
      have hfit : Fits (close cur :: lay w [] is) ↔ Fits (lay w [] is) := by
        constructor
        · intro h ls hl
          exact h ls (by simp [hl])
        · intro h ls hl
          rcases List.mem_cons.1 hl with rfl | hl
          · intro l hl
            simp [close] at hl
            rw [hl.2]
            exact hc
          · exact h ls hl
      rcases ih ⟨[], [], [], 0, s.out ++ ((close cur).map block).flatten ++ ['\n']⟩ [] (holds_nil _) (by simp [lineCols]) with
        ⟨h1, s', h2, h3⟩ | ⟨h1, h2⟩
      · left
        refine ⟨hfit.2 h1, s', h2, ?_⟩
        rw [h3, hp, printed_cons]
        simp
      · right
        exact ⟨fun h => h1 (hfit.1 h), h2⟩
    | some e =>
      obtain ⟨cur', out', hc', ho', ⟨hl, s', hs, hh, hs'⟩ | ⟨hl, hs⟩⟩ := doBlock_eq (w := w) h e
      · rw [steps, hs]
        dsimp only
        unfold lay
        by_cases hw : w < ((lineCols cur + e.cols : Nat) : Int)
        · rw [if_pos hw] at hc' ho'
          subst hc'
          rw [if_pos hw]
          obtain ⟨p, ps, hp⟩ := lay_ne w [e] is
          have := ih s' [e] hh hl
          rw [hp] at this ⊢
          dsimp only
          have hfit : Fits ((close cur ++ p) :: ps) ↔ Fits (p :: ps) := by
            constructor
            · intro h ls hls l hl
              rcases List.mem_cons.1 hls with rfl | hls
              · exact h _ (List.mem_cons_self ..) l (by simp [hl])
              · exact h ls (by simp [hls]) l hl
            · intro h ls hls l hl
              rcases List.mem_cons.1 hls with rfl | hls
              · rcases List.mem_append.1 hl with hl | hl
                · simp [close] at hl
                  rw [hl.2]
                  exact hc
                · exact h _ (List.mem_cons_self ..) l hl
              · exact h ls (by simp [hls]) l hl
          rcases this with ⟨h1, s2, h2, h3⟩ | ⟨h1, h2⟩
          · left
            refine ⟨hfit.2 h1, s2, h2, ?_⟩
            rw [h3, hs', ho', printed_head]
            simp
          · right
            exact ⟨fun h => h1 (hfit.1 h), h2⟩
        · rw [if_neg hw] at hc' ho'
          subst hc'
          rw [if_neg hw, ← ho', ← hs']
          exact ih s' _ hh hl
      · right
        rw [steps, hs]
        refine ⟨?_, rfl⟩
        intro hf
        unfold lay at hf
        by_cases hw : w < ((lineCols cur + e.cols : Nat) : Int)
        · rw [if_pos hw] at hc' hf
          subst hc'
          obtain ⟨p, ps, x, hp, hm⟩ := lay_mem w is [e] (by simp)
          rw [hp] at hf
          have := hf _ (List.mem_cons_self ..) ([e] ++ x) (by simp at hm ⊢; exact Or.inr hm)
          rw [lineCols_append] at this
          simp only [List.nil_append] at hl
          omega
        · rw [if_neg hw] at hc' hf
          subst hc'
          obtain ⟨p, ps, x, hp, hm⟩ := lay_mem w is (cur' ++ [e]) (by simp)
          rw [hp] at hf
          have := hf _ (List.mem_cons_self ..) _ hm
          rw [lineCols_append] at this
          omega

/-- C37: for every width and every sequence of calls, the paragraphs of the input are filled into lines, and what is
printed is these lines, each as three rows; the buffers overflow exactly if a line is wider than 511 columns. -/
theorem textBlocks_spec (w : Int) (es : List Ev) : ∃ lss : List (List (List Entry)),
    lss.map List.flatten = paras (es.flatMap items) ∧ (∀ ls ∈ lss, Fill w ls.flatten ls) ∧
    textBlocks w es = if Fits lss then .ok (printed lss) else .error .overflow := by
  refine ⟨lay w [] (es.flatMap items), ?_, ?_, ?_⟩
  · obtain ⟨p, ps, e1⟩ := lay_ne w [] (es.flatMap items)
    obtain ⟨q, qs, e2⟩ := paras_ne (es.flatMap items)
    obtain ⟨h1, h2, _⟩ := lay_fill w _ [] p ps q qs (by intro e l h; cases h) e1 e2
    have := fill_flatten h1
    rw [e1, e2]
    simp [this, h2]
  · obtain ⟨p, ps, e1⟩ := lay_ne w [] (es.flatMap items)
    obtain ⟨q, qs, e2⟩ := paras_ne (es.flatMap items)
    obtain ⟨h1, _, h3⟩ := lay_fill w _ [] p ps q qs (by intro e l h; cases h) e1 e2
    rw [e1]
    intro ls hl
    rcases List.mem_cons.1 hl with rfl | hl
    · rw [fill_flatten h1]; exact h1
    · exact h3 ls hl
  · unfold textBlocks
    rw [evs_steps]
    rcases steps_eq w (es.flatMap items) start [] (holds_nil _) (by simp [lineCols]) with ⟨h1, s', h2, h3⟩ | ⟨h1, h2⟩
    · rw [h2, if_pos h1]
      dsimp only
      rw [h3]
      rfl
    · rw [h2, if_neg h1]

theorem paras_mem : ∀ {is p e}, p ∈ paras is → e ∈ p → some e ∈ is
  | [], p, e, hp, he => by
    simp [paras] at hp
    subst hp
    simp at he
  | none :: r, p, e, hp, he => by
    rcases List.mem_cons.1 hp with rfl | hp
    · simp at he
    · exact List.mem_cons_of_mem _ (paras_mem hp he)
  | some x :: r, p, e, hp, he => by
    obtain ⟨q, qs, hq⟩ := paras_ne r
    rw [paras_cons hq] at hp
    rcases List.mem_cons.1 hp with rfl | hp
    · rcases List.mem_cons.1 he with rfl | he
      · simp
      · exact List.mem_cons_of_mem _ (paras_mem (p := q) (by rw [hq]; simp) he)
    · exact List.mem_cons_of_mem _ (paras_mem (p := p) (by rw [hq]; simp [hp]) he)

/-- C37: with a width of at most 511 and entries of at most 510 letters there is no overflow. -/
theorem textBlocks_ok (w : Int) (es : List Ev) (hw : w ≤ 511) (he : ∀ e, some e ∈ es.flatMap items → e.cols ≤ 511) :
    ∃ out, textBlocks w es = .ok out := by
  obtain ⟨lss, h1, h2, h3⟩ := textBlocks_spec w es
  refine ⟨printed lss, ?_⟩
  rw [h3, if_pos]
  intro ls hls l hl
  rcases fill_width (h2 ls hls) l hl with h | ⟨e, rfl⟩
  · omega
  · have : ls.flatten ∈ paras (es.flatMap items) := by
      rw [← h1]
      exact List.mem_map.2 ⟨ls, hls, rfl⟩
    have := he e (paras_mem this (List.mem_flatten.2 ⟨_, hl, by simp⟩))
    simpa [lineCols] using this

/-- Three words, of which the third begins a new line. -/
example : textBlocks 14 [.item "mi".toList "I".toList "KOhA".toList, .item "klama".toList "come".toList "BRIVLA".toList,
      .item "do".toList "you".toList "KOhA".toList, .newline, .paren "x".toList] =
    .ok ("mi   klama  \nKOhA BRIVLA \nI    come   \n\ndo   \nKOhA \nyou  \n\n\n( x ) \n(   ) \n(   ) \n\n".toList) := by
  decide +kernel

/-- The hypotheses of `textBlocks_ok` hold for this text. -/
example : ∀ e, some e ∈ [Ev.item "mi".toList "I".toList "KOhA".toList, .newline, .paren "x".toList].flatMap items → e.cols ≤ 511 := by
  intro e he
  simp [items] at he
  rcases he with rfl | rfl | rfl | rfl <;> decide

/-- A line of one entry wider than the width. -/
example : textBlocks 3 [.item "klama".toList [] []] = .ok "klama \n      \n      \n\n".toList := by decide +kernel

/-- C37: a parenthesised text of 511 letters overflows the buffers, whatever the width. -/
theorem long_paren_overflows (w : Int) (x : List Char) (h : 511 ≤ x.length) (es es' : List Ev) :
    textBlocks w (es ++ .paren x :: es') = .error .overflow := by
  obtain ⟨lss, h1, _, h3⟩ := textBlocks_spec w (es ++ .paren x :: es')
  rw [h3, if_neg]
  intro hf
  have hp : ∀ {is : List (Option Entry)} {e}, some e ∈ is → ∃ p ∈ paras is, e ∈ p := by
    intro is
    induction is with
    | nil => simp
    | cons i is ih =>
      intro e he
      cases i with
      | none =>
        obtain ⟨p, hp, he⟩ := ih (e := e) (by simpa using he)
        exact ⟨p, by simp [paras, hp], he⟩
      | some y =>
        obtain ⟨q, qs, hq⟩ := paras_ne is
        rw [paras_cons hq]
        rcases List.mem_cons.1 he with h | he
        · cases h
          exact ⟨_, List.mem_cons_self .., by simp⟩
        · obtain ⟨p, hp, he⟩ := ih he
          rw [hq] at hp
          rcases List.mem_cons.1 hp with rfl | hp
          · exact ⟨_, List.mem_cons_self .., by simp [he]⟩
          · exact ⟨p, by simp [hp], he⟩
  obtain ⟨p, hp, he⟩ := hp (is := (es ++ .paren x :: es').flatMap items) (e := ⟨x, [], []⟩) (by simp [items])
  rw [← h1] at hp
  obtain ⟨ls, hls, rfl⟩ := List.mem_map.1 hp
  obtain ⟨l, hl, he⟩ := List.mem_flatten.1 he
  have := hf ls hls l hl
  obtain ⟨a, b, rfl⟩ := List.append_of_mem he
  rw [lineCols_append] at this
  simp [lineCols, Entry.cols] at this
  omega

end Jbo.Cm
