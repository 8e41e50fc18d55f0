import Verif.MorfSplit
import Verif.MorfCut
/-!
# Cutting words: what the states of the automaton mean
-/

namespace Jbo.Morf
open Jbo.Dfasyn

/-- The attributes by name and by number. -/
theorem attr_names (i : Nat) : ((attrName i = atS33 ∨ attrName i = atXS33) ↔ is3 (morfCert.cls i).attr = true) ∧
    ((attrName i = atS34 ∨ attrName i = atXS34) ↔ is4 (morfCert.cls i).attr = true) := by
  unfold attrName
  have := attr_lt i
  generalize (morfCert.cls i).attr = a at this
  have hd : ∀ a ≤ 4, (((Bc.textOf atUnknown (verdictOf morfNfa.attr a) = atS33 ∨
      Bc.textOf atUnknown (verdictOf morfNfa.attr a) = atXS33) ↔ is3 a = true) ∧
      ((Bc.textOf atUnknown (verdictOf morfNfa.attr a) = atS34 ∨
      Bc.textOf atUnknown (verdictOf morfNfa.attr a) = atXS34) ↔ is4 a = true)) := by decide +kernel
  exact hd a this

def hyph3 (r : List At) : Option Nat := hyph atS33 atXS33 r
def hyph4 (r : List At) : Option Nat := hyph atS34 atXS34 r

theorem nodeN_some {r : List Char} {i : Nat} (h : node r = some i) : nodeN r = i + 1 := by
  unfold nodeN; rw [h]

theorem hyph3_cons (a : At) (r : List At) :
    hyph3 (a :: r) = if is3 (attrN graphX (nodeN (chars r))) then p2 r else hyph3 r := by
  unfold hyph3 nodeN
  rw [hyph]
  cases node (chars r) with
  | none => rfl
  | some i =>
    simp only [attrN, attrX_eq]
    by_cases h : is3 (morfCert.cls i).attr = true
    · rw [if_pos ((attr_names i).1.2 h), if_pos h]
    · rw [if_neg (fun h' => h ((attr_names i).1.1 h')), if_neg h]

theorem hyph4_cons (a : At) (r : List At) :
    hyph4 (a :: r) = if is4 (attrN graphX (nodeN (chars r))) then p2 r else hyph4 r := by
  unfold hyph4 nodeN
  rw [hyph]
  cases node (chars r) with
  | none => rfl
  | some i =>
    simp only [attrN, attrX_eq]
    by_cases h : is4 (morfCert.cls i).attr = true
    · rw [if_pos ((attr_names i).2.2 h), if_pos h]
    · rw [if_neg (fun h' => h ((attr_names i).2.1 h')), if_neg h]

/-- No attribute after at most one letter. -/
noncomputable def noAttr (G X : BT Nat) : Nat → Bool
  | 0 => true
  | t + 1 => Nat.beq (attrN X (dst G 0 t)) 0 && noAttr G X t

set_option maxRecDepth 100000 in
theorem noAttr_check : withGraph (fun G X => noAttr G X 21 && Nat.beq (attrX X 0) 0) = true := by decide +kernel

theorem noAttr_lt {G X : BT Nat} : ∀ {n : Nat}, noAttr G X n = true → ∀ t < n, attrN X (dst G 0 t) = 0
  | 0, _, t, ht => by omega
  | n + 1, h, t, ht => by
    rw [noAttr, Bool.and_eq_true] at h
    rcases Nat.lt_or_ge t n with h' | h'
    · exact noAttr_lt h.2 t h'
    · have : t = n := by omega
      subst this
      exact Nat.eq_of_beq_eq_true h.1

theorem attr_short {t : List At} (h : attrN graphX (nodeN (chars t)) ≠ 0) : ∃ a b x, t = a :: b :: x := by
  have hc := noAttr_check
  rw [withGraph_eq, Bool.and_eq_true] at hc
  match t with
  | [] => exact absurd (Nat.eq_of_beq_eq_true hc.2) h
  | [a] =>
    exfalso
    apply h
    rw [show chars [a] = [a.2] from rfl, nodeN_cons, nodeN_nil, nxt]
    exact noAttr_lt hc.1 _ (toks_lt [a.2] _ (by simp [toks]))
  | a :: b :: x => exact ⟨a, b, x, rfl⟩

theorem is3_ne {a : Nat} (h : is3 a = true) : a ≠ 0 := by rintro rfl; cases h
theorem is4_ne {a : Nat} (h : is4 a = true) : a ≠ 0 := by rintro rfl; cases h

/-- The text `t` begins with the beginning of a word, and what is known about it. -/
structure TailOf (r t b : List At) (k E : Nat) (bf v3 v4 : Bool) : Prop where
  eq : r = t ++ b
  cut : ∃ x a, t = x ++ [a] ∧ isStart a.2 (chars b) = true
  starts : (starts t).length = k
  E : E = nodeN (chars t)
  before : bf = true → b = [] ∨ exitN graphX (nodeN (chars b)) = 22
  h3 : v3 = true → hyph3 r = hyph3 t
  h4 : v4 = true → hyph4 r = hyph4 t

theorem up_true {q x y : Bool} (h : up q x y = true) : (x = true ∧ y = true) ∨ (x = false ∧ y = false ∧ q = true) := by
  cases q <;> cases x <;> cases y <;> simp_all [up]

theorem TailOf.step {r t b : List At} {k E : Nat} {bf v3 v4 : Bool} (h : TailOf r t b k E bf v3 v4) (a : At)
    (hr : NoComma (chars r)) :
    TailOf (a :: r) (a :: t) b (if isStart a.2 (chars r) then k + 1 else k) (nxt graphG E ((fe (chars r)).tok a.2)) bf
      (up v3 (is3 (attrN graphX (nodeN (chars r)))) (is3 (attrN graphX E)))
      (up v4 (is4 (attrN graphX (nodeN (chars r)))) (is4 (attrN graphX E))) := by
  obtain ⟨x, d, hx, hd⟩ := h.cut
  have hbc : NoComma (chars b) := by
    rw [h.eq, chars_append, noComma_append] at hr
    exact hr.2
  have hrt : chars r = chars x ++ d.2 :: chars b := by
    rw [h.eq, hx]; simp [chars]
  have htt : chars t = chars x ++ [d.2] := by rw [hx]; simp [chars]
  have hp2 : (∃ a b x, t = a :: b :: x) → p2 r = p2 t := by
    rintro ⟨a, b, x, rfl⟩; rw [h.eq]; rfl
  refine ⟨by rw [h.eq]; rfl, ⟨a :: x, d, by rw [hx]; rfl, hd⟩, ?_, ?_, h.before, ?_, ?_⟩
  · rw [Morf.starts, hrt, htt, cut_isStart hd hbc]
    split
    · rw [List.length_cons, h.starts]
    · exact h.starts
  · rw [chars_cons, nodeN_cons, ← h.E, hrt, htt, same_tok (cut_fe hd hbc _)]
  · intro hu
    rw [hyph3_cons, hyph3_cons, ← h.E]
    rcases up_true hu with ⟨h1, h2⟩ | ⟨h1, h2, h3⟩
    · rw [if_pos h1, if_pos h2]
      exact hp2 (attr_short (h.E ▸ is3_ne h2))
    · rw [if_neg (by simp [h1]), if_neg (by simp [h2])]
      exact h.h3 h3
  · intro hu
    rw [hyph4_cons, hyph4_cons, ← h.E]
    rcases up_true hu with ⟨h1, h2⟩ | ⟨h1, h2, h3⟩
    · rw [if_pos h1, if_pos h2]
      exact hp2 (attr_short (h.E ▸ is4_ne h2))
    · rw [if_neg (by simp [h1]), if_neg (by simp [h2])]
      exact h.h4 h3

/-- What a state of the automaton says about a text. -/
structure Knows (r : List At) (s : Split) : Prop where
  D : node (chars r) = some s.D
  inh : s.inh = inhibited (chars r)
  empty : r = [] ↔ s.n = 0
  one : r ≠ [] → ∃ t b, TailOf r t b 1 s.E1 s.b1 s.u3 s.u4
  two : s.n = 2 → ∃ t b, TailOf r t b 2 s.E2 s.b2 s.v3 s.v4
  count : s.n ≤ 2

theorem knows_init : Knows [] (Split.dec (splitStates.headD 0)) := by
  have : Split.dec (splitStates.headD 0) = ⟨0, 0, 0, 0, false, false, false, false, false, false, false⟩ := by decide
  rw [this]
  exact ⟨rfl, rfl, by simp, by simp, by simp, by simp⟩

theorem Knows.step {r : List At} {s : Split} (h : Knows r s) (a : At) (hr : NoComma (chars r))
    (hn : node (chars (a :: r)) ≠ none) :
    ∃ s', s.step graphG graphX ((fe (chars r)).tok a.2) = some s' ∧ Knows (a :: r) s' := by
  have hD := nodeN_some h.D
  have hN := nodeN_cons a.2 (chars r)
  rw [hD, nxt] at hN
  have hfl := tok_flags (feOk hr) a.2
  have hst : isStart a.2 (chars r) = (Nat.beq s.n 0 || (isSet ((fe (chars r)).tok a.2) &&
      !(s.inh || isInh ((fe (chars r)).tok a.2)))) := by
    unfold isStart
    rw [hfl.1, inhibited, hfl.2, h.inh, Bool.or_comm]
    congr 1
    cases r with
    | nil => rw [h.empty.1 rfl]; rfl
    | cons x r =>
      have : s.n ≠ 0 := fun h0 => by cases h.empty.2 h0
      cases hh : Nat.beq s.n 0 with
      | false => rfl
      | true => exact absurd (Nat.eq_of_beq_eq_true hh) this
  have hinh : inhibited (chars (a :: r)) = (s.inh || isInh ((fe (chars r)).tok a.2)) := by
    rw [chars_cons, inhibited, hfl.2, h.inh]
  unfold Split.step
  cases hd : dst graphG s.D ((fe (chars r)).tok a.2) with
  | zero =>
    exfalso
    rw [hd] at hN
    apply hn
    unfold nodeN at hN
    rw [chars_cons]
    cases hx : node (a.2 :: chars r) with
    | none => rfl
    | some i => rw [hx] at hN; simp at hN
  | succ d =>
    have hnode : node (chars (a :: r)) = some d := by
      rw [hd] at hN
      unfold nodeN at hN
      rw [chars_cons]
      cases hx : node (a.2 :: chars r) with
      | none => rw [hx] at hN; simp at hN
      | some i =>
        rw [hx] at hN
        have : i = d := by simpa using hN
        rw [this]
    have hattr : attrX graphX s.D = attrN graphX (nodeN (chars r)) := by rw [hD]; rfl
    dsimp only
    by_cases hs : isStart a.2 (chars r) = true
    · rw [if_pos (hst ▸ hs)]
      refine ⟨_, rfl, hnode, hinh.symm, ?_, ?_, ?_, ?_⟩
      · dsimp only; split <;> simp
      · intro _
        refine ⟨[a], r, rfl, ⟨[], a, rfl, hs⟩, ?_, ?_, ?_, by simp, by simp⟩
        · rw [starts, if_pos (by exact isStart_nil _)]; rfl
        · rw [show chars [a] = [a.2] from rfl, nodeN_cons, nodeN_nil, nxt, (cut_entry hs hr).2.1]; rfl
        · intro hb
          rw [Bool.or_eq_true] at hb
          rcases hb with hb | hb
          · exact Or.inl (h.empty.2 (Nat.eq_of_beq_eq_true hb))
          · refine Or.inr ?_
            rw [hD]; exact Nat.eq_of_beq_eq_true hb
      · intro h2
        have hne : r ≠ [] := by
          intro h0
          rw [h.empty.1 h0] at h2
          simp at h2
        obtain ⟨t, b, ht⟩ := h.one hne
        have := ht.step a hr
        rw [if_pos hs, ← hattr] at this
        exact ⟨_, _, this⟩
      · dsimp only; split <;> simp
    · rw [if_neg (hst ▸ hs)]
      have hne : r ≠ [] := by
        rintro rfl; exact hs (isStart_nil _)
      refine ⟨_, rfl, hnode, hinh.symm, ?_, ?_, ?_, h.count⟩
      · dsimp only
        constructor
        · intro h0; cases h0
        · intro h0; exact absurd (h.empty.2 h0) hne
      · intro _
        obtain ⟨t, b, ht⟩ := h.one hne
        have := ht.step a hr
        rw [if_neg hs, ← hattr] at this
        exact ⟨_, _, this⟩
      · intro h2
        obtain ⟨t, b, ht⟩ := h.two h2
        have := ht.step a hr
        rw [if_neg hs, ← hattr] at this
        exact ⟨_, _, this⟩

/-- Every text that the scanner gets through is described by a state of the list. -/
theorem knows_all (r : List At) (hr : NoComma (chars r)) (hn : node (chars r) ≠ none) :
    ∃ e ∈ splitStates, Knows r (Split.dec e) := by
  induction r with
  | nil => exact ⟨_, by decide, knows_init⟩
  | cons a r ih =>
    have hr' : NoComma (chars r) := fun c hc => hr c (List.mem_cons_of_mem _ hc)
    have hn' : node (chars r) ≠ none := fun h => hn (node_none_cons h a.2)
    obtain ⟨e, he, hk⟩ := ih hr' hn'
    obtain ⟨s', h1, h2⟩ := hk.step a hr' hn
    have hc := split_closed
    rw [withGraph_eq] at hc
    obtain ⟨e', h3, h4⟩ := closedP_step Split.same_eq (by decide) hc he
      (toks_lt (chars (a :: r)) _ (by simp [chars, toks])) h1
    exact ⟨e', h3, h4 ▸ h2⟩

end Jbo.Morf
