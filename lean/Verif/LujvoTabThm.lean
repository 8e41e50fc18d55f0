import Verif.LujvoSpec
/-!
# Facts about the whole rafsi tables

Each of these is a check of a complete table of the program, done by the kernel.
-/

namespace Jbo.Lujvo

open Jbo Spec

/-- The chunks of `r2g` with bounds on the keys in each; the bounds only speed up the search. -/
def chunks : List (Nat × Nat × List (Word × Word)) :=
  [(1650534241, 1651076199, r2g0),
   (1651076205, 1667329024, r2g1),
   (1667329131, 1667853931, r2g2),
   (1667853932, 1668314368, r2g3),
   (1668440320, 1684108142, r2g4),
   (1684108144, 1685399413, r2g5),
   (1685414400, 1718183680, r2g6),
   (1718183794, 1734700544, r2g7),
   (1734700650, 1784769792, r2g8),
   (1784769894, 1785293667, r2g9),
   (1785293682, 1801545216, r2g10),
   (1801545323, 1802266996, r2g11),
   (1802268416, 1818324330, r2g12),
   (1818324480, 1819634176, r2g13),
   (1819634294, 1835607913, r2g14),
   (1835607919, 1836413804, r2g15),
   (1836413952, 1853188864, r2g16),
   (1853188974, 1885955584, r2g17),
   (1885956608, 1886744064, r2g18),
   (1886744170, 1919512064, r2g19),
   (1919512163, 1935765108, r2g20),
   (1935765504, 1936418048, r2g21),
   (1936419072, 1936875882, r2g22),
   (1936875883, 1952542328, r2g23),
   (1952542720, 1953457152, r2g24),
   (1953457920, 1986360064, r2g25),
   (1986602849, 2019651186, r2g26),
   (2019651188, 2053204578, r2g27),
   (2053204992, 2054578548, r2g28)]

/-- First four letters as a number. -/
def keyCode (w : Word) : Nat :=
  (((chr w 0).toNat * 256 + (chr w 1).toNat) * 256 + (chr w 2).toNat) * 256 + (chr w 3).toNat

/-- Equality of words, quick to evaluate. -/
def weq : Word → Word → Bool
  | [], [] => true
  | a :: s, b :: t => match a.val.toNat.beq b.val.toNat with | true => weq s t | false => false
  | _, _ => false

theorem weq_eq : ∀ {a b : Word}, weq a b = true → a = b
  | [], [], _ => rfl
  | [], _ :: _, h => by simp [weq] at h
  | _ :: _, [], h => by simp [weq] at h
  | a :: s, b :: t, h => by
    unfold weq at h
    cases hab : a.val.toNat.beq b.val.toNat with
    | false => rw [hab] at h; simp at h
    | true =>
      rw [hab] at h
      have h1 : a = b := by
        have := Nat.eq_of_beq_eq_true hab
        exact Char.ext (UInt32.toNat_inj.1 this)
      rw [h1, weq_eq h]

def hasPair (r w : Word) : List (Word × Word) → Bool
  | [] => false
  | e :: es => match weq e.1 r with | true => weq e.2 w | false => hasPair r w es

theorem hasPair_mem {r w : Word} : ∀ {l : List (Word × Word)}, hasPair r w l = true → (r, w) ∈ l
  | [], h => by simp [hasPair] at h
  | e :: es, h => by
    unfold hasPair at h
    cases he : weq e.1 r with
    | false => rw [he] at h; exact List.mem_cons_of_mem _ (hasPair_mem h)
    | true =>
      rw [he] at h
      have h1 := weq_eq he
      have h2 := weq_eq (a := e.2) (b := w) h
      obtain ⟨e1, e2⟩ := e
      simp only at h1 h2
      subst h1 h2
      exact List.mem_cons_self

def seek (r w : Word) (k : Nat) : List (Nat × Nat × List (Word × Word)) → Bool
  | [] => false
  | c :: cs =>
    match Nat.ble k c.2.1 with
    | true => hasPair r w c.2.2
    | false => seek r w k cs

theorem seek_mem {r w : Word} {k : Nat} : ∀ {l : List (Nat × Nat × List (Word × Word))},
    seek r w k l = true → ∃ c ∈ l, (r, w) ∈ c.2.2
  | [], h => by simp [seek] at h
  | c :: cs, h => by
    unfold seek at h
    split at h
    · exact ⟨c, List.mem_cons_self, hasPair_mem h⟩
    · obtain ⟨d, hd, hm⟩ := seek_mem h
      exact ⟨d, List.mem_cons_of_mem _ hd, hm⟩

def inChunks (r w : Word) : Bool :=
  match keyCode r with
  | 0 => false
  | n + 1 => seek r w (n + 1) chunks

theorem inChunks_mem {r w : Word} (h : inChunks r w = true) : (r, w) ∈ r2g := by
  unfold inChunks at h
  split at h
  · simp at h
  obtain ⟨c, hc, hm⟩ := seek_mem h
  have : ∀ c ∈ chunks, ∀ e ∈ c.2.2, e ∈ r2g := by
    intro c hc e he
    unfold r2g
    simp only [chunks, List.mem_cons, List.not_mem_nil, or_false] at hc
    simp only [List.mem_append]
    rcases hc with h | h | h | h | h | h | h | h | h | h | h | h | h | h | h | h | h | h | h | h | h |
      h | h | h | h | h | h | h | h <;> subst h <;> simp only [he, true_or, or_true]
  exact this c hc _ hm

/-- `strcmp` order. -/
def wlt : Word → Word → Bool
  | [], [] => false
  | [], _ :: _ => true
  | _ :: _, [] => false
  | a :: s, b :: t => a.toNat < b.toNat || (a == b && wlt s t)

theorem wlt_trans : ∀ {a b c : Word}, wlt a b = true → wlt b c = true → wlt a c = true
  | [], [], _, h, _ => by simp [wlt] at h
  | [], _ :: _, [], _, h => by simp [wlt] at h
  | [], _ :: _, _ :: _, _, _ => by simp [wlt]
  | _ :: _, [], _, h, _ => by simp [wlt] at h
  | _ :: _, _ :: _, [], _, h => by simp [wlt] at h
  | a :: s, b :: t, c :: u, h, h' => by
    simp only [wlt, Bool.or_eq_true, decide_eq_true_eq, Bool.and_eq_true, beq_iff_eq] at h h' ⊢
    rcases h with h | ⟨rfl, h⟩
    · rcases h' with h' | ⟨rfl, h'⟩
      · exact .inl (by omega)
      · exact .inl h
    · rcases h' with h' | ⟨rfl, h'⟩
      · exact .inl h'
      · exact .inr ⟨rfl, wlt_trans h h'⟩

theorem wlt_irrefl : ∀ a : Word, wlt a a = false
  | [] => rfl
  | a :: s => by simp [wlt, wlt_irrefl s]

def sortedKeys (k : Word) : List (Word × Word) → Bool
  | [] => true
  | e :: es => wlt k e.1 && sortedKeys e.1 es

theorem sortedKeys_lt : ∀ {k : Word} {l : List (Word × Word)}, sortedKeys k l = true →
    ∀ e ∈ l, wlt k e.1 = true
  | _, [], _, _, h => by simp at h
  | k, e :: es, h, e', he => by
    simp only [sortedKeys, Bool.and_eq_true] at h
    rcases List.mem_cons.1 he with rfl | he
    · exact h.1
    · exact wlt_trans h.1 (sortedKeys_lt h.2 e' he)

theorem sortedKeys_pairwise : ∀ {k : Word} {l : List (Word × Word)}, sortedKeys k l = true →
    l.Pairwise (fun a b => wlt a.1 b.1 = true)
  | _, [], _ => .nil
  | k, e :: es, h => by
    simp only [sortedKeys, Bool.and_eq_true] at h
    exact .cons (fun e' he => sortedKeys_lt h.2 e' he) (sortedKeys_pairwise h.2)

set_option maxRecDepth 100000 in
theorem r2g_sortedKeys : sortedKeys [] r2g = true := by decide +kernel

/-- The table `canonluj.inc` is strictly ascending in `strcmp` order, as `bsearch` needs it. -/
theorem r2g_sorted : r2g.Pairwise (fun a b => wlt a.1 b.1 = true) :=
  sortedKeys_pairwise r2g_sortedKeys

theorem find_of_mem : ∀ {l : List (Word × Word)}, l.Pairwise (fun a b => wlt a.1 b.1 = true) →
    ∀ {e : Word × Word}, e ∈ l → l.find? (fun x => x.1 == e.1) = some e
  | [], _, _, h => by simp at h
  | x :: xs, hp, e, h => by
    cases hp with
    | cons hx hxs =>
    rcases List.mem_cons.1 h with rfl | h
    · simp
    · have hlt := hx e h
      have hne : (x.1 == e.1) = false := by
        refine Bool.eq_false_iff.2 (fun hb => ?_)
        rw [beq_iff_eq] at hb
        rw [hb, wlt_irrefl] at hlt
        simp at hlt
      rw [List.find?_cons, hne]
      exact find_of_mem hxs h

/-- Looking up a rafsi that is listed gives its word. -/
theorem lookup_of_mem {r w : Word} (h : (r, w) ∈ r2g) : lookupComponent r = w := by
  unfold lookupComponent
  rw [find_of_mem r2g_sorted h]

set_option maxRecDepth 100000 in
theorem table_check : wordTable.all (fun e =>
    e.2.all (fun r => inChunks r e.1 &&
      (decide (Rafsi .cvc r) || decide (Rafsi .cvhv r) || decide (Rafsi .ccv r) ||
        decide (Rafsi .cvv r))) &&
    (e.1.length != 5 || (decide (Rafsi .cvccv e.1) || decide (Rafsi .ccvcv e.1)) &&
      (e.1.take 4 == ['b', 'r', 'o', 'd'] || inChunks e.1.dropLast e.1))) = true := by
  decide +kernel

/-- Every short rafsi in the maker's table is well formed, and the splitter's table leads from it
back to its word. -/
theorem short_ok {w : Word} {short : List Word} (he : (w, short) ∈ wordTable) {r : Word}
    (hr : r ∈ short) : lookupComponent r = w ∧
      (Rafsi .cvc r ∨ Rafsi .cvhv r ∨ Rafsi .ccv r ∨ Rafsi .cvv r) := by
  have h := List.all_eq_true.1 table_check _ he
  simp only [Bool.and_eq_true, List.all_eq_true, Bool.or_eq_true, decide_eq_true_eq] at h
  obtain ⟨h1, h2⟩ := h.1 r hr
  refine ⟨lookup_of_mem (inChunks_mem h1), ?_⟩
  rcases h2 with ((h | h) | h) | h <;> simp [h]

/-- Every five-letter word in the maker's table is a well-formed gismu, and apart from the brod-
series its first four letters lead back to it. -/
theorem long_ok {w : Word} {short : List Word} (he : (w, short) ∈ wordTable) (hl : w.length = 5) :
    (Rafsi .cvccv w ∨ Rafsi .ccvcv w) ∧
      (w.take 4 ≠ ['b', 'r', 'o', 'd'] → lookupComponent w.dropLast = w) := by
  have h := (Bool.and_eq_true _ _ ▸ List.all_eq_true.1 table_check _ he).2
  simp only [hl, bne_self_eq_false, Bool.false_or, Bool.and_eq_true, Bool.or_eq_true,
    decide_eq_true_eq, beq_iff_eq] at h
  exact ⟨h.1, fun hn => (h.2.resolve_left hn) |> fun hc => lookup_of_mem (inChunks_mem hc)⟩

/-- `brod` stands for one of five words only in the splitter's table. -/
theorem brod_lookup : lookupComponent ['b', 'r', 'o', 'd'] = ['b', 'r', 'o', 'd', 'u'] := by
  decide +kernel

set_option maxRecDepth 100000 in
theorem wordTable_lengths : wordTable.all (fun e => e.1.length ≤ 5 && e.2.length ≤ 3) = true := by
  decide +kernel

end Jbo.Lujvo
