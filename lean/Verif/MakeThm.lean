import Verif.MakeSpec
import Verif.GramIds
import Verif.TraceNest
import Mathlib.Data.List.Nodup
/-!
# Theorems about the links between nodes
-/

namespace Jbo.Make
open Jbo.Terms Jbo.Gram Jbo.Ext Spec

theorem set_same {α : Type} (f : Nat → α) (i : Nat) (v : α) : set f i v i = v := if_pos rfl
theorem set_other {α : Type} (f : Nat → α) {i j : Nat} (v : α) (h : j ≠ i) : set f i v j = f j := if_neg h

/-! ## `compress_children` -/

theorem squeeze_spec : ∀ (m i j : Nat) (arr : List (Option Nat)), j ≤ i → i + m = arr.length →
    (squeeze m i j arr).1.take (squeeze m i j arr).2 = arr.take j ++ (arr.drop i).filter Option.isSome
  | 0, i, j, arr, h1, h2 => by
    rw [squeeze, List.drop_of_length_le (by omega), List.filter_nil, List.append_nil]
  | m + 1, i, j, arr, h1, h2 => by
    have hi : i < arr.length := by omega
    have hv : (arr[i]?).join = arr[i] := by rw [List.getElem?_eq_getElem hi]; rfl
    rw [squeeze, hv]
    have hd : (arr.set j arr[i]).drop (i + 1) = arr.drop (i + 1) := by
      rw [List.drop_set, if_pos (by omega)]
    have hc : arr.drop i = arr[i] :: arr.drop (i + 1) := (List.drop_eq_getElem_cons hi)
    rw [squeeze_spec m (i + 1) _ _ (by split <;> omega) (by rw [List.length_set]; omega), hd, hc]
    by_cases hs : arr[i].isSome = true
    · rw [if_pos hs, List.filter_cons_of_pos hs, List.take_add_one, List.getElem?_set_self (by omega), List.take_set, List.set_eq_of_length_le (by rw [List.length_take]; omega)]
      simp
    · rw [if_neg hs, List.filter_cons_of_neg hs, List.take_set, List.set_eq_of_length_le (by rw [List.length_take]; omega)]

/-- **Null pointers are taken out**, and the others stay in order. -/
theorem compressed (args : List (Option Nat)) : (squeeze args.length 0 0 args).1.take (squeeze args.length 0 0 args).2 = (args.filterMap id).map some := by
  rw [squeeze_spec _ _ _ _ (Nat.le_refl _) (Nat.zero_add _), List.take_zero, List.drop_zero, List.nil_append]
  induction args with
  | nil => rfl
  | cons a as ih => cases a <;> simp [ih]

example : (squeeze 5 0 0 [some 3, none, some 4, none, some 5]) = ([some 3, some 4, some 5, none, some 5], 3) := rfl

/-! ## The nodes that the parser makes -/

mutual
def mine : Node → List Nat
  | .nt i t cs => if t = .augmented then mineWord cs else i :: mineAll cs
  | x => [x.id]
def mineAll : List Node → List Nat
  | [] => []
  | c :: cs => mine c ++ mineAll cs
def mineWord : List Node → List Nat
  | [] => []
  | c :: cs => if c.isSel .BAhE then mineWord cs else mine c
end

mutual
theorem mine_sub : ∀ x, (mine x).Sublist (ids x)
  | .nt i t cs => by
    rw [mine, ids]
    split
    · exact (mineWord_sub cs).cons _
    · exact (mineAll_sub cs).cons₂ _
  | .brivla _ => by simp only [mine, ids, Node.id]; exact List.Sublist.refl _
  | .zei _ => by simp only [mine, ids, Node.id]; exact List.Sublist.refl _
  | .cmavo .. => by simp only [mine, ids, Node.id]; exact List.Sublist.refl _
  | .leaf _ => by simp only [mine, ids, Node.id]; exact List.Sublist.refl _
theorem mineAll_sub : ∀ cs, (mineAll cs).Sublist (idsAll cs)
  | [] => by rw [mineAll, idsAll]
  | c :: cs => by rw [mineAll, idsAll]; exact (mine_sub c).append (mineAll_sub cs)
theorem mineWord_sub : ∀ cs, (mineWord cs).Sublist (idsAll cs)
  | [] => by rw [mineWord, idsAll]
  | c :: cs => by
    rw [mineWord, idsAll]
    split
    · exact (mineWord_sub cs).trans (List.sublist_append_right ..)
    · exact (mine_sub c).trans (List.sublist_append_left ..)
end

mutual
/-- The start as the program takes it: that of the first child. -/
def begin (pos : Nat → Nat × Nat) : Node → Nat × Nat
  | .nt _ t cs => if t = .augmented then beginWord pos cs else beginAll pos cs
  | x => pos x.id
def beginAll (pos : Nat → Nat × Nat) : List Node → Nat × Nat
  | [] => (0, 0)
  | c :: _ => begin pos c
def beginWord (pos : Nat → Nat × Nat) : List Node → Nat × Nat
  | [] => (0, 0)
  | c :: cs => if c.isSel .BAhE then beginWord pos cs else begin pos c
end

/-- Each node AUGMENTED has a word. -/
def HasWord (cs : List Node) : Prop := ∃ c ∈ cs, c.isSel .BAhE = false

mutual
/-- The nodes are in memory. -/
def Good (pos : Nat → Nat × Nat) (h : Heap) (par : Option Nat) : Node → Prop
  | .nt i t cs => if t = .augmented then GoodWord pos h par cs
    else h i = some ⟨par, beginAll pos cs, some (t, (cs.map base).map some)⟩ ∧ GoodAll pos h (some i) cs
  | x => h x.id = some ⟨par, pos x.id, none⟩
def GoodAll (pos : Nat → Nat × Nat) (h : Heap) (par : Option Nat) : List Node → Prop
  | [] => True
  | c :: cs => Good pos h par c ∧ GoodAll pos h par cs
def GoodWord (pos : Nat → Nat × Nat) (h : Heap) (par : Option Nat) : List Node → Prop
  | [] => False
  | c :: cs => if c.isSel .BAhE then GoodWord pos h par cs else Good pos h par c
end

variable {pos : Nat → Nat × Nat}

mutual
theorem good_frame {h h' : Heap} {par : Option Nat} : ∀ x, (∀ a ∈ mine x, h' a = h a) → Good pos h par x → Good pos h' par x
  | .nt i t cs, hf, hg => by
    rw [Good] at hg ⊢
    rw [mine] at hf
    by_cases ht : t = .augmented
    · rw [if_pos ht] at hg hf ⊢
      exact goodWord_frame cs hf hg
    · rw [if_neg ht] at hg hf ⊢
      exact ⟨(hf i (List.mem_cons_self ..)).trans hg.1, goodAll_frame cs (fun a ha => hf a (List.mem_cons_of_mem _ ha)) hg.2⟩
  | .brivla _, hf, hg => by simp only [Good] at hg ⊢; exact (hf _ (by simp [mine])).trans hg
  | .zei _, hf, hg => by simp only [Good] at hg ⊢; exact (hf _ (by simp [mine])).trans hg
  | .cmavo .., hf, hg => by simp only [Good] at hg ⊢; exact (hf _ (by simp [mine])).trans hg
  | .leaf _, hf, hg => by simp only [Good] at hg ⊢; exact (hf _ (by simp [mine])).trans hg
theorem goodAll_frame {h h' : Heap} {par : Option Nat} : ∀ cs, (∀ a ∈ mineAll cs, h' a = h a) → GoodAll pos h par cs → GoodAll pos h' par cs
  | [], _, _ => by rw [GoodAll]; trivial
  | c :: cs, hf, hg => by
    rw [GoodAll] at hg ⊢
    rw [mineAll] at hf
    exact ⟨good_frame c (fun a ha => hf a (List.mem_append_left _ ha)) hg.1, goodAll_frame cs (fun a ha => hf a (List.mem_append_right _ ha)) hg.2⟩
theorem goodWord_frame {h h' : Heap} {par : Option Nat} : ∀ cs, (∀ a ∈ mineWord cs, h' a = h a) → GoodWord pos h par cs → GoodWord pos h' par cs
  | [], _, hg => by rw [GoodWord] at hg; exact hg.elim
  | c :: cs, hf, hg => by
    rw [GoodWord] at hg ⊢
    rw [mineWord] at hf
    by_cases hc : c.isSel .BAhE = true
    · rw [if_pos hc] at hg hf ⊢
      exact goodWord_frame cs hf hg
    · rw [if_neg hc] at hg hf ⊢
      exact good_frame c hf hg
end

mutual
/-- The cell of a node, and what happens if its parent is set. -/
theorem good_mark {h : Heap} {par : Option Nat} (q : Option Nat) : ∀ x, (mine x).Nodup → Good pos h par x →
    base x ∈ mine x ∧ ∃ c, h (base x) = some c ∧ c.start = begin pos x ∧ Good pos (set h (base x) (some { c with parent := q })) q x
  | .nt i t cs, hn, hg => by
    rw [Good] at hg
    rw [mine] at hn
    by_cases ht : t = .augmented
    · rw [if_pos ht] at hg hn
      obtain ⟨h0, c, h1, h2, h3⟩ := goodWord_mark q cs hn hg
      rw [mine, base, if_pos ht, if_pos ht]
      refine ⟨h0, c, h1, ?_, ?_⟩
      · rw [begin, if_pos ht, h2]
      · rw [Good, if_pos ht]
        exact h3
    · rw [if_neg ht] at hg hn
      rw [mine, base, if_neg ht, if_neg ht]
      refine ⟨List.mem_cons_self .., _, hg.1, ?_, ?_⟩
      · rw [begin, if_neg ht]
      · rw [Good, if_neg ht]
        refine ⟨set_same .., goodAll_frame cs (fun a ha => set_other _ _ ?_) hg.2⟩
        rintro rfl
        exact (List.nodup_cons.1 hn).1 ha
  | .brivla i, _, hg => by
    simp only [Good] at hg
    simp only [mine, base, begin, Good]
    exact ⟨List.mem_singleton.2 rfl, _, hg, rfl, set_same ..⟩
  | .zei i, _, hg => by
    simp only [Good] at hg
    simp only [mine, base, begin, Good]
    exact ⟨List.mem_singleton.2 rfl, _, hg, rfl, set_same ..⟩
  | .cmavo .., _, hg => by
    simp only [Good] at hg
    simp only [mine, base, begin, Good]
    exact ⟨List.mem_singleton.2 rfl, _, hg, rfl, set_same ..⟩
  | .leaf i, _, hg => by
    simp only [Good] at hg
    simp only [mine, base, begin, Good]
    exact ⟨List.mem_singleton.2 rfl, _, hg, rfl, set_same ..⟩
theorem goodWord_mark {h : Heap} {par : Option Nat} (q : Option Nat) : ∀ cs, (mineWord cs).Nodup → GoodWord pos h par cs →
    baseWord cs ∈ mineWord cs ∧ ∃ c, h (baseWord cs) = some c ∧ c.start = beginWord pos cs ∧
      GoodWord pos (set h (baseWord cs) (some { c with parent := q })) q cs
  | [], _, hg => by rw [GoodWord] at hg; exact hg.elim
  | c :: cs, hn, hg => by
    rw [GoodWord] at hg
    rw [mineWord] at hn
    by_cases hc : c.isSel .BAhE = true
    · rw [if_pos hc] at hg hn
      obtain ⟨h0, c', h1, h2, h3⟩ := goodWord_mark q cs hn hg
      rw [mineWord, baseWord, if_pos hc, if_pos hc]
      refine ⟨h0, c', h1, ?_, ?_⟩
      · rw [beginWord, if_pos hc, h2]
      · rw [GoodWord, if_pos hc]; exact h3
    · rw [if_neg hc] at hg hn
      obtain ⟨h0, c', h1, h2, h3⟩ := good_mark q c hn hg
      rw [mineWord, baseWord, if_neg hc, if_neg hc]
      refine ⟨h0, c', h1, ?_, ?_⟩
      · rw [beginWord, if_neg hc, h2]
      · rw [GoodWord, if_neg hc]; exact h3
end

theorem mark_good {p : Nat} : ∀ (cs : List Node) (h : Heap), (mineAll cs).Nodup → GoodAll pos h none cs →
    ∃ h', markAll h p ((cs.map base).map some) = .ok h' ∧ GoodAll pos h' (some p) cs ∧ (∀ a, a ∉ mineAll cs → h' a = h a)
  | [], h, _, _ => ⟨h, rfl, by rw [GoodAll]; trivial, fun _ _ => rfl⟩
  | c :: cs, h, hn, hg => by
    rw [GoodAll] at hg
    rw [mineAll] at hn
    obtain ⟨n1, n2, n3⟩ := List.nodup_append.1 hn
    obtain ⟨h0, x, h1, h2, h3⟩ := good_mark (some p) c n1 hg.1
    have hcs : GoodAll pos (set h (base c) (some { x with parent := some p })) none cs :=
      goodAll_frame cs (fun a ha => set_other _ _ (fun e => n3 _ h0 _ ha e.symm)) hg.2
    obtain ⟨h', g1, g2, g3⟩ := mark_good cs _ n2 hcs
    refine ⟨h', ?_, ?_, ?_⟩
    · rw [List.map_cons, List.map_cons, markAll, h1]
      exact g1
    · rw [GoodAll]
      exact ⟨good_frame c (fun a ha => g3 a (fun hb => n3 _ ha _ hb rfl)) h3, g2⟩
    · intro a ha
      rw [mineAll] at ha
      rw [g3 a (fun hb => ha (List.mem_append_right _ hb)), set_other _ _ (fun e => ha (List.mem_append_left _ (by rw [e]; exact h0)))]

theorem start_good {h : Heap} {par : Option Nat} : ∀ (cs : List Node), (mineAll cs).Nodup → GoodAll pos h par cs →
    startOf h ((cs.map base).map some) = .ok (beginAll pos cs)
  | [], _, _ => by rw [beginAll]; rfl
  | c :: cs, hn, hg => by
    rw [GoodAll] at hg
    rw [mineAll] at hn
    obtain ⟨_, x, h1, h2, _⟩ := good_mark par c (List.nodup_append.1 hn).1 hg.1
    rw [List.map_cons, List.map_cons, startOf, h1, beginAll, ← h2]

mutual
/-- Each node AUGMENTED in the tree has a word. -/
def Worded : Node → Prop
  | .nt _ t cs => if t = .augmented then WordedWord cs else WordedAll cs
  | _ => True
def WordedAll : List Node → Prop
  | [] => True
  | c :: cs => Worded c ∧ WordedAll cs
def WordedWord : List Node → Prop
  | [] => False
  | c :: cs => if c.isSel .BAhE then WordedWord cs else Worded c
end

variable {args : Nat → List Nat → List (Option Nat)}

theorem leaf_good {x : Node} (hx : ∀ i t cs, x ≠ .nt i t cs) {h : Heap} : ∃ h', build pos args h x = .ok h' ∧ Good pos h' none x ∧ ∀ a, a ∉ mine x → h' a = h a := by
  refine ⟨set h x.id (some ⟨none, pos x.id, none⟩), ?_, ?_, fun a hm => set_other _ _ ?_⟩
  · cases x with
    | nt i t cs => exact absurd rfl (hx i t cs)
    | _ => simp only [build]
  · cases x with
    | nt i t cs => exact absurd rfl (hx i t cs)
    | _ => simp only [Good]; exact set_same ..
  · cases x with
    | nt i t cs => exact absurd rfl (hx i t cs)
    | _ => simpa [mine] using hm

mutual
theorem build_good (ha : ∀ i l, (args i l).filterMap id = l) : ∀ (x : Node) (h : Heap), Worded x → (mine x).Nodup →
    ∃ h', build pos args h x = .ok h' ∧ Good pos h' none x ∧ ∀ a, a ∉ mine x → h' a = h a
  | .nt i t cs, h, hw, hn => by
    rw [Worded] at hw
    rw [mine] at hn
    by_cases ht : t = .augmented
    · rw [if_pos ht] at hw hn
      obtain ⟨h', h1, h2, h3⟩ := buildWord_good ha cs h hw hn
      refine ⟨h', ?_, ?_, ?_⟩
      · rw [build, if_pos ht]; exact h1
      · rw [Good, if_pos ht]; exact h2
      · rw [mine, if_pos ht]; exact h3
    · rw [if_neg ht] at hw hn
      obtain ⟨n1, n2⟩ := List.nodup_cons.1 hn
      obtain ⟨h1, b1, b2, b3⟩ := buildAll_good ha cs h hw n2
      obtain ⟨h2, m1, m2, m3⟩ := mark_good (p := i) cs h1 n2 b2
      refine ⟨set h2 i (some ⟨none, beginAll pos cs, some (t, (cs.map base).map some)⟩), ?_, ?_, ?_⟩
      · rw [build, if_neg ht, b1]
        show newNode h1 i t _ = _
        rw [newNode]
        simp only [compressed, ha, m1, start_good cs n2 m2]
      · rw [Good, if_neg ht]
        refine ⟨set_same .., goodAll_frame cs (fun a hm => set_other _ _ ?_) m2⟩
        rintro rfl
        exact n1 hm
      · rw [mine, if_neg ht]
        intro a hm
        obtain ⟨a1, a2⟩ : a ≠ i ∧ a ∉ mineAll cs := by simpa using hm
        rw [set_other _ _ a1, m3 a a2, b3 a a2]
  | .brivla i, h, _, _ => by refine leaf_good ?_; intro _ _ _ e; cases e
  | .zei i, h, _, _ => by refine leaf_good ?_; intro _ _ _ e; cases e
  | .cmavo .., h, _, _ => by refine leaf_good ?_; intro _ _ _ e; cases e
  | .leaf i, h, _, _ => by refine leaf_good ?_; intro _ _ _ e; cases e
theorem buildAll_good (ha : ∀ i l, (args i l).filterMap id = l) : ∀ (cs : List Node) (h : Heap), WordedAll cs → (mineAll cs).Nodup →
    ∃ h', buildAll pos args h cs = .ok h' ∧ GoodAll pos h' none cs ∧ ∀ a, a ∉ mineAll cs → h' a = h a
  | [], h, _, _ => ⟨h, by rw [buildAll], by rw [GoodAll]; trivial, fun _ _ => rfl⟩
  | c :: cs, h, hw, hn => by
    rw [WordedAll] at hw
    rw [mineAll] at hn
    obtain ⟨n1, n2, n3⟩ := List.nodup_append.1 hn
    obtain ⟨h1, a1, a2, a3⟩ := build_good ha c h hw.1 n1
    obtain ⟨h2, b1, b2, b3⟩ := buildAll_good ha cs h1 hw.2 n2
    refine ⟨h2, ?_, ?_, ?_⟩
    · rw [buildAll, a1]; exact b1
    · rw [GoodAll]
      exact ⟨good_frame c (fun a hm => b3 a (fun hb => n3 _ hm _ hb rfl)) a2, b2⟩
    · intro a hm
      rw [mineAll] at hm
      rw [b3 a (fun hb => hm (List.mem_append_right _ hb)), a3 a (fun hb => hm (List.mem_append_left _ hb))]
theorem buildWord_good (ha : ∀ i l, (args i l).filterMap id = l) : ∀ (cs : List Node) (h : Heap), WordedWord cs → (mineWord cs).Nodup →
    ∃ h', buildWord pos args h cs = .ok h' ∧ GoodWord pos h' none cs ∧ ∀ a, a ∉ mineWord cs → h' a = h a
  | [], h, hw, _ => by rw [WordedWord] at hw; exact hw.elim
  | c :: cs, h, hw, hn => by
    rw [WordedWord] at hw
    rw [mineWord] at hn
    by_cases hc : c.isSel .BAhE = true
    · rw [if_pos hc] at hw hn
      obtain ⟨h', h1, h2, h3⟩ := buildWord_good ha cs h hw hn
      exact ⟨h', by rw [buildWord, if_pos hc]; exact h1, by rw [GoodWord, if_pos hc]; exact h2, by rw [mineWord, if_pos hc]; exact h3⟩
    · rw [if_neg hc] at hw hn
      obtain ⟨h', h1, h2, h3⟩ := build_good ha c h hw hn
      exact ⟨h', by rw [buildWord, if_neg hc]; exact h1, by rw [GoodWord, if_neg hc]; exact h2, by rw [mineWord, if_neg hc]; exact h3⟩
end

/-! ## Trees of the grammar -/

theorem wordedAll_iff : ∀ cs, WordedAll cs ↔ ∀ c ∈ cs, Worded c
  | [] => by simp [WordedAll]
  | c :: cs => by rw [WordedAll, wordedAll_iff cs]; simp

theorem wordedWord_of {w : Node} {rs : List Node} (hw : w.isSel .BAhE = false) (hg : Worded w) : ∀ bs, AllBahe bs → WordedWord (bs ++ w :: rs)
  | [], _ => by rw [List.nil_append, WordedWord, hw]; simpa using hg
  | b :: bs, hb => by
    rw [List.cons_append, WordedWord, if_pos (bahe_isSel hb (List.mem_cons_self ..))]
    exact wordedWord_of hw hg bs fun x hx => hb x (List.mem_cons_of_mem _ hx)

theorem base_worded {it : Item} {x : Node} (h : Base it x) : Worded x := by cases h <;> simp [Worded]

theorem parse_worded : ∀ (d : Nat) (x : Node), x.depth ≤ d → ∀ t, Parse t x → Worded x := by
  intro d
  induction d with
  | zero =>
    intro x hx t h
    cases h with
    | mk => rw [Node.depth] at hx; omega
  | succ d ih =>
    intro x hx t h
    obtain ⟨i, cs, _, rfl, _⟩ := parse_inv h
    have ht : t ≠ .augmented := by
      obtain ⟨_, _, r, _, hr, e, _⟩ := parse_inv h
      rintro rfl
      have := List.all_eq_true.1 no_augmented r hr
      rw [e] at this
      exact absurd this (by decide)
    rw [Worded, if_neg ht, wordedAll_iff]
    intro c hc
    rcases parse_kid h hc with ⟨u, _, hu⟩ | ⟨it, _, hb, hw⟩ | ⟨s, j, w, _, _, rfl⟩
    · exact ih c (by have := mem_depth (t := t) (i := i) hc; omega) u hu
    · cases hw with
      | alone h1 => exact base_worded h1
      | marked h1 h2 h3 => rw [Worded, if_pos rfl]; exact wordedWord_of (base_not_bahe h2 hb) (base_worded h2) _ h1
    · simp [Worded]

/-- Non-terminals that may have no word. -/
def hollow : List NT := [.text1, .text, .chunks]

theorem hollow_rules : rules.all (fun r => match r.rhs with
    | [] => r.lhs == .text1
    | .e _ :: _ => false
    | .n u :: rest => !hollow.contains u || (hollow.contains r.lhs && (rest.isEmpty || r.lhs == .chunks))
    | _ => true) = true := by decide +kernel

theorem word_first (pos : Nat → Nat × Nat) {it : Item} {x : Node} (hb : it ≠ .t .BAhE) (h : WordR it x) : firstAt pos x = some (begin pos x) := by
  have hbase : ∀ {y}, Base it y → firstAt pos y = some (begin pos y) := by
    intro y hy; cases hy <;> simp [firstAt, begin]
  cases h with
  | alone h1 => exact hbase h1
  | @marked w j bs rs h1 h2 h3 =>
    rw [firstAt, begin, if_pos rfl, if_pos rfl]
    have : ∀ bs : List Node, AllBahe bs → firstWord pos (bs ++ w :: rs) = some (beginWord pos (bs ++ w :: rs)) := by
      intro bs
      induction bs with
      | nil =>
        intro _
        have hn := base_not_bahe h2 hb
        rw [List.nil_append, firstWord, beginWord, hn, if_neg (by decide), if_neg (by decide), hbase h2]
      | cons b bs ih =>
        intro h
        have hn := bahe_isSel h (List.mem_cons_self ..)
        rw [List.cons_append, firstWord, beginWord, hn, if_pos rfl, if_pos rfl]
        exact ih fun x hx => h x (List.mem_cons_of_mem _ hx)
    exact this bs h1

theorem kids_named {its : List Item} {cs : List Node} (h : Kids Parse its cs) : cs = [] ∧ its.all (fun it => match it with | .e _ => true | _ => false) = true ∨
    ∃ c ds, cs = c :: ds := by
  cases cs with
  | cons c ds => exact .inr ⟨c, ds, rfl⟩
  | nil =>
    refine .inl ⟨rfl, ?_⟩
    generalize hcs : ([] : List Node) = cs at h
    induction h with
    | nil => rfl
    | out _ ih => simpa using ih hcs
    | _ => cases hcs

/-- A tree starts with its first word; if there is none, it is a text. -/
theorem parse_first (pos : Nat → Nat × Nat) : ∀ (d : Nat) (x : Node), x.depth ≤ d → ∀ t, Parse t x →
    (t ≠ .chunks → begin pos x = start pos x) ∧ (firstAt pos x = none → t ∈ hollow) := by
  intro d
  induction d with
  | zero =>
    intro x hx t h
    cases h with
    | mk => rw [Node.depth] at hx; omega
  | succ d ih =>
    intro x hx t h
    have ht : t ≠ .augmented := by
      obtain ⟨_, _, r, _, hr, e, _⟩ := parse_inv h
      rintro rfl
      have := List.all_eq_true.1 no_augmented r hr
      rw [e] at this
      exact absurd this (by decide)
    obtain ⟨i, cs, r, rfl, hr, rfl, hk⟩ := parse_inv h
    have hrule := List.all_eq_true.1 hollow_rules r hr
    rw [begin, if_neg ht, start, firstAt, if_neg ht]
    generalize hits : r.rhs = its at hk hrule
    cases hk with
    | nil =>
      simp only [beq_iff_eq] at hrule
      rw [hrule]
      exact ⟨fun _ => by rw [beginAll, firstAll]; rfl, fun _ => by decide⟩
    | out hk => cases hrule
    | put hk => cases hrule
    | @word it c its ds hw hks =>
      have hb : it ≠ .t .BAhE := by
        rintro rfl
        have : rules.all (fun r => !r.rhs.contains (.t .BAhE)) = true := by decide +kernel
        have := List.all_eq_true.1 this r hr
        rw [hits] at this
        simp at this
      rw [beginAll, firstAll, word_first pos hb hw]
      exact ⟨fun _ => rfl, nofun⟩
    | @n u c its ds hu hks =>
      obtain ⟨i1, i2⟩ := ih c (by have := mem_depth (t := r.lhs) (i := i) (List.mem_cons_self (a := c) (l := ds)); omega) u hu
      rw [beginAll, firstAll]
      cases hf : firstAt pos c with
      | some v =>
        refine ⟨fun hc => ?_, nofun⟩
        by_cases hu' : u = .chunks
        · subst hu'
          rcases hl : (hollow.contains r.lhs) with _ | _
          · rw [hl] at hrule; exact absurd hrule (by simp [hollow])
          · rw [hl] at hrule
            have hc' : (r.lhs == NT.chunks) = false := by simpa using hc
            have hall : rules.all (fun r => !(r.rhs.contains (.n .chunks)) || r.lhs == .chunks) = true := by decide +kernel
            have := List.all_eq_true.1 hall r hr
            rw [hits] at this
            simp [hc'] at this
        · rw [i1 hu', start, hf]
          rfl
      | none =>
        have hm := i2 hf
        simp only [] at hrule
        rw [show hollow.contains u = true from List.contains_iff_mem.2 hm] at hrule
        simp only [Bool.not_true, Bool.false_or, Bool.and_eq_true, Bool.or_eq_true, List.isEmpty_iff, beq_iff_eq] at hrule
        refine ⟨fun hc => ?_, fun _ => List.contains_iff_mem.1 hrule.1⟩
        rcases hrule.2 with e | e
        · subst e
          cases hks
          have hu' : u ≠ .chunks := by
            rintro rfl
            have hall : rules.all (fun r => !(r.rhs.contains (.n .chunks)) || r.lhs == .chunks) = true := by decide +kernel
            have := List.all_eq_true.1 hall r hr
            rw [hits] at this
            simp [hc] at this
          rw [i1 hu', start, hf, firstAll]
          rfl
        · exact absurd e hc

theorem goodAll_mem {h : Heap} {par : Option Nat} : ∀ {cs : List Node}, GoodAll pos h par cs → ∀ c ∈ cs, Good pos h par c
  | c :: cs, hg, d, hd => by
    rw [GoodAll] at hg
    rcases List.mem_cons.1 hd with rfl | hd
    · exact hg.1
    · exact goodAll_mem hg.2 d hd

theorem goodWord_word {h : Heap} {par : Option Nat} {w : Node} {rs : List Node} (hw : w.isSel .BAhE = false) : ∀ bs, AllBahe bs →
    GoodWord pos h par (bs ++ w :: rs) → Good pos h par w
  | [], _, hg => by
    rw [List.nil_append, GoodWord, hw] at hg
    simpa using hg
  | b :: bs, hb, hg => by
    rw [List.cons_append, GoodWord, if_pos (bahe_isSel hb (List.mem_cons_self ..))] at hg
    exact goodWord_word hw bs (fun x hx => hb x (List.mem_cons_of_mem _ hx)) hg

theorem occ_good {t : NT} {top : Node} (hp : Parse t top) {h : Heap} (hg : Good pos h none top) {anc : List Node} {x : Node} (ho : Occ top anc x) :
    (anc = [] → x = top) → Good pos h (anc.head?.map Node.id) x := by
  induction ho with
  | top => exact fun _ => hg
  | @child anc i u cs c ho hu hc ih =>
    intro _
    have h1 := ih (by
      rintro rfl
      rcases (occ_nt hp ho hu).2 with ⟨_, e, _⟩ | ⟨_, _, _, _, e, _⟩
      · exact e.symm
      · cases e)
    rw [Good, if_neg hu] at h1
    exact goodAll_mem h1.2 c hc
  | @word anc i bs w rs ho hb hw ih =>
    intro ha
    by_cases hn : anc = []
    · subst hn
      rw [ha rfl]
      exact hg
    · have h1 := ih (fun e => absurd e hn)
      rw [Good, if_pos rfl] at h1
      exact goodWord_word hw bs hb h1
  | before _ _ _ _ => exact fun ha => by rw [ha rfl]; exact hg
  | after _ _ _ _ _ => exact fun ha => by rw [ha rfl]; exact hg

/-- **The links of the nodes**: the parser makes the tree without fault; the parent of a node is the one above it; and a non-terminal has its children and starts
where its first word starts. -/
theorem made {t : NT} {top : Node} (hp : Parse t top) (hn : (ids top).Nodup) (pos : Nat → Nat × Nat) (args : Nat → List Nat → List (Option Nat))
    (ha : ∀ i l, (args i l).filterMap id = l) : ∃ h, build pos args (fun _ => none) top = .ok h ∧
      (∀ anc x y, Occ top (y :: anc) x → (∀ i cs, x ≠ .nt i .augmented cs) → ∃ c, h x.id = some c ∧ c.parent = some y.id) ∧
      ∀ anc i u cs, Occ top anc (.nt i u cs) → u ≠ .augmented → ∃ c, h i = some c ∧ c.kids = some (u, cs.map fun x => some (base x)) ∧
        (u ≠ .chunks → c.start = start pos (.nt i u cs)) := by
  obtain ⟨h, h1, h2, _⟩ := build_good (pos := pos) ha top (fun _ => none) (parse_worded _ top (Nat.le_refl _) t hp) (hn.sublist (mine_sub top))
  refine ⟨h, h1, ?_, ?_⟩
  · intro anc x y ho hx
    have hg := occ_good hp h2 ho nofun
    cases x with
    | nt i u cs =>
      rw [Good, if_neg (by rintro rfl; exact hx i cs rfl)] at hg
      exact ⟨_, hg.1, rfl⟩
    | _ => simp only [Good] at hg; exact ⟨_, hg, rfl⟩
  · intro anc i u cs ho hu
    have hon := occ_nt hp ho hu
    have hg := occ_good hp h2 ho (by
      rintro rfl
      rcases hon.2 with ⟨_, e, _⟩ | ⟨_, _, _, _, e, _⟩
      · exact e.symm
      · cases e)
    rw [Good, if_neg hu] at hg
    refine ⟨_, hg.1, ?_, fun hc => ?_⟩
    · show some (u, _) = _
      rw [List.map_map]; rfl
    · have := (parse_first pos _ _ (Nat.le_refl _) u hon.1).1 hc
      rw [begin, if_neg hu] at this
      exact this

/-- A node AUGMENTED that is put in changes no link to a parent and no start. -/
theorem wrap_keeps {h h' : Heap} {x n j : Nat} {ds : List Nat} {s : Nat × Nat} (hw : wrap h x n j ds s = .ok h') (hj : h j = none) {a : Nat} {c : Cell}
    (hc : h a = some c) : ∃ c', h' a = some c' ∧ c'.parent = c.parent ∧ c'.start = c.start ∧ (a ≠ x → c' = c) := by
  have haj : a ≠ j := by rintro rfl; rw [hj] at hc; cases hc
  unfold wrap at hw
  split at hw
  · rename_i p q t kids hx
    cases hw
    by_cases hax : a = x
    · subst hax
      rw [hx] at hc
      cases hc
      exact ⟨_, set_same .., rfl, rfl, fun e => absurd rfl e⟩
    · exact ⟨c, by rw [set_other _ _ hax, set_other _ _ haj, hc], rfl, rfl, fun _ => rfl⟩
  · cases hw

/-- Some steps of `expand_bahe_ui`. -/
inductive Wraps : Heap → Heap → Prop
  | refl {h} : Wraps h h
  | step {h h' h'' x n j ds s} : Wraps h h' → h' j = none → wrap h' x n j ds s = .ok h'' → Wraps h h''

theorem wraps_keep {h h' : Heap} (hw : Wraps h h') {a : Nat} {c : Cell} (hc : h a = some c) : ∃ c', h' a = some c' ∧ c'.parent = c.parent ∧ c'.start = c.start := by
  induction hw with
  | refl => exact ⟨c, hc, rfl, rfl⟩
  | step _ hj hw ih =>
    obtain ⟨c1, h1, h2, h3⟩ := ih
    obtain ⟨c2, g1, g2, g3, _⟩ := wrap_keeps hw hj h1
    exact ⟨c2, g1, g2.trans h2, g3.trans h3⟩

/-- **The way up**: after the words with BAhE and indicators have been put into nodes of their own, `parent` taken `n` times leads from a node to its ancestor number
`n`. -/
theorem ancestors {t : NT} {top : Node} (hp : Parse t top) (hn : (ids top).Nodup) (pos : Nat → Nat × Nat) (args : Nat → List Nat → List (Option Nat))
    (ha : ∀ i l, (args i l).filterMap id = l) {h h' : Heap} (hb : build pos args (fun _ => none) top = .ok h) (hw : Wraps h h') :
    ∀ (near : List Node) {anc : List Node} {x y : Node}, Occ top (near ++ y :: anc) x → (∀ i cs, x ≠ .nt i .augmented cs) →
      climb h' (near.length + 1) x.id = some y.id := by
  obtain ⟨g, g1, g2, _⟩ := made hp hn pos args ha
  rw [hb] at g1
  cases g1
  intro near
  induction near with
  | nil =>
    intro anc x y ho hx
    obtain ⟨c, h1, h2⟩ := g2 _ _ _ ho hx
    obtain ⟨c', h3, h4, _⟩ := wraps_keep hw h1
    simp only [List.length_nil, climb, h3, h4, h2]
  | cons z near ih =>
    intro anc x y ho hx
    obtain ⟨c, h1, h2⟩ := g2 _ _ _ ho hx
    obtain ⟨c', h3, h4, _⟩ := wraps_keep hw h1
    obtain ⟨hz, i, u, cs, rfl, hu⟩ := occ_anc ho [] z (near ++ y :: anc) rfl
    have := ih hz (by intro j ds e; cases e; exact hu rfl)
    rw [List.length_cons, climb, h3]
    simp only [h4, h2]
    exact this

/-! ## An example -/

/-- *broda*, *brode*: a tree with five nodes. -/
example : ∃ h, build (fun i => (1, i)) (fun _ l => none :: l.map some) (fun _ => none) (.nt 5 .selbri4 [.nt 3 .selbri5 [.brivla 1], .nt 4 .selbri6 [.brivla 2]]) =
    .ok h ∧ h 5 = some ⟨none, (1, 1), some (.selbri4, [some 3, some 4])⟩ ∧ h 4 = some ⟨some 5, (1, 2), some (.selbri6, [some 2])⟩ ∧
    climb h 2 2 = some 5 := ⟨_, rfl, rfl, rfl, rfl⟩

/-- The hypotheses hold for *ba'e broda*. -/
example : ∃ h, build (fun i => (1, i)) (fun _ l => l.map some) (fun _ => none) (.nt 4 .selbri6 [.nt 3 .tanruUnit [.nt 5 .tanruUnit1 [.nt 2 .tanruUnit2
    [.nt 9 .augmented [.cmavo 7 .BAhE "ba'e", .brivla 1]]]]]) = .ok h ∧ ∃ c, h 1 = some c ∧ c.parent = some 2 := by
  have hb : AllBahe [.cmavo 7 .BAhE "ba'e"] := by
    intro b hb
    rw [List.mem_singleton.1 hb]
    exact ⟨_, _, rfl, by decide +kernel⟩
  obtain ⟨h, h1, h2, _⟩ := made (t := .selbri6) (top := .nt 4 .selbri6 [.nt 3 .tanruUnit [.nt 5 .tanruUnit1 [.nt 2 .tanruUnit2
    [.nt 9 .augmented [.cmavo 7 .BAhE "ba'e", .brivla 1]]]]]) 
    (Trace.unit_parse (u := .tanruUnit) (by decide +kernel) (Trace.unit_parse (u := .tanruUnit1) (by decide +kernel) (Trace.unit_parse (u := .tanruUnit2) (by decide +kernel)
      (.mk (r := ⟨1252, .tanruUnit2, [.brivla]⟩) (by decide +kernel) (.word (.marked (bs := [_]) (rs := []) hb .brivla nofun) .nil))))) (by decide) (fun i => (1, i)) (fun _ l => l.map some) (by simp)
  refine ⟨h, h1, h2 _ (.brivla 1) _ (.word (bs := [.cmavo 7 .BAhE "ba'e"]) (rs := []) (i := 9) (.child (.child (.child (.child .top (by decide) (List.mem_singleton.2 rfl)) (by decide)
    (List.mem_singleton.2 rfl)) (by decide) (List.mem_singleton.2 rfl)) (by decide) (List.mem_singleton.2 rfl)) hb rfl) nofun⟩

end Jbo.Make
