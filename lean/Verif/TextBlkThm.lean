import Verif.TextBlkSpec
/-!
# The display in blocks: nothing is lost, and blocks stand side by side
-/

namespace Jbo.TextBlk
open Jbo.Output (Br Call)
open Spec

/-! ## Small facts -/

theorem store_ok {t u : Text} (h : store t = .ok u) : u = t ∧ t.length < bufferSize := by
  unfold store at h
  split at h
  · cases h; exact ⟨rfl, by assumption⟩
  · cases h

theorem appendTo_ok {a d u : Text} {w : Nat} (h : appendTo a d w = .ok u) : u = d ++ pad w a := by
  unfold appendTo at h
  split at h
  · have := (store_ok h).1
    rw [this, pad, List.append_assoc]
  · cases h

theorem foldl_max (l : List Nat) (a : Nat) : l.foldl max a = max a (l.foldr max 0) := by
  induction l generalizing a with
  | nil => simp
  | cons x l ih => rw [List.foldl_cons, ih, List.foldr_cons]; omega

theorem foldr_len (l : List Text) : l.foldr (fun t n => max t.length n) 0 = (l.map List.length).foldr max 0 := by
  induction l with
  | nil => rfl
  | cons x l ih => simp only [List.foldr_cons, List.map_cons, ih]

theorem range_getD (l : List Text) : (List.range l.length).map (fun i => l.getD i []) = l := by
  apply List.ext_getElem
  · simp
  · intro i h1 h2
    simp [List.getD_eq_getElem?_getD, List.getElem?_eq_getElem h2]

theorem len_le_foldr {l : List Text} {t : Text} (h : t ∈ l) : t.length ≤ l.foldr (fun t n => max t.length n) 0 := by
  induction l with
  | nil => cases h
  | cons x l ih =>
    simp only [List.foldr_cons]
    rcases List.mem_cons.1 h with e | e
    · subst e; omega
    · have := ih e; omega

theorem loj_le (b : Block) : b.loj.length ≤ b.width := len_le_foldr (by simp)
theorem eng_le (b : Block) : b.eng.length ≤ b.width := len_le_foldr (by simp)

theorem tag_le (b : Block) (i : Nat) : (b.tags.getD i []).length ≤ b.width := by
  rw [List.getD_eq_getElem?_getD]
  cases e : b.tags[i]? with
  | none => simp
  | some t => exact len_le_foldr (by have := List.mem_of_getElem? e; simp [this])

theorem pad_length {n : Nat} {t : Text} (h : t.length ≤ n) : (pad n t).length = n := by simp [pad]; omega

theorem side_append (f : Block → Text) (r : List Block) (b : Block) :
    side f (r ++ [b]) = side f r ++ pad b.width (f b) := by simp [side]

theorem side_length {f : Block → Text} (hf : ∀ b, (f b).length ≤ b.width) (r : List Block) :
    (side f r).length = rowWidth r := by
  induction r with
  | nil => rfl
  | cons b r ih =>
    have e : side f (b :: r) = pad b.width (f b) ++ side f r := by simp [side]
    rw [e, List.length_append, pad_length (hf b), ih]; simp [rowWidth]

theorem rowWidth_append (r : List Block) (b : Block) : rowWidth (r ++ [b]) = rowWidth r + b.width := by
  simp [rowWidth]

theorem height_append (r : List Block) (b : Block) : height (r ++ [b]) = max (height r) b.tags.length := by
  induction r with
  | nil => simp [height]
  | cons x r ih => simp only [height, List.cons_append, List.foldr_cons] at *; rw [ih]; omega

theorem tags_le_height {r : List Block} {b : Block} (h : b ∈ r) : b.tags.length ≤ height r := by
  induction r with
  | nil => cases h
  | cons x r ih =>
    simp only [height, List.foldr_cons]
    rcases List.mem_cons.1 h with e | e
    · subst e; omega
    · have := ih e; simp only [height] at this; omega

theorem side_beyond {r : List Block} {i : Nat} (h : height r ≤ i) :
    side (fun b => b.tags.getD i []) r = List.replicate (rowWidth r) ' ' := by
  induction r with
  | nil => rfl
  | cons x r ih =>
    simp only [height, List.foldr_cons] at h
    have e : side (fun b => b.tags.getD i []) (x :: r) =
        pad x.width (x.tags.getD i []) ++ side (fun b => b.tags.getD i []) r := by simp [side]
    rw [e, ih (by simp only [height]; omega)]
    have : x.tags.getD i [] = [] := by
      rw [List.getD_eq_getElem?_getD, List.getElem?_eq_none (by omega)]; rfl
    rw [this]
    simp [pad, rowWidth, List.replicate_append_replicate]

/-! ## The line -/

structure Line (s : St) (row : List Block) : Prop where
  loj : s.lojLine = side (·.loj) row
  eng : s.engLine = side (·.eng) row
  used : s.lineUsed = height row
  tags : ∀ i, i < height row → s.tagLine i = side (fun b => b.tags.getD i []) row
  rest : ∀ i, height row ≤ i → s.tagLine i = []
  width : s.width = rowWidth row

theorem startLine_ok {s : St} {i : Nat} {f g : Nat → Text} (h : startLine s i f = .ok g) :
    g = if s.lineUsed ≤ i then put f i (f i ++ pad s.width []) else f := by
  unfold startLine at h
  split at h
  · rename_i hc
    cases e : appendTo [] (f i) s.width with
    | error _ => rw [e] at h; cases h
    | ok t =>
      rw [e] at h
      cases h
      rw [appendTo_ok e, if_pos hc]
  · rename_i hc
    cases h
    rw [if_neg hc]

theorem tagLoop_ok {s : St} {wid : Nat} (l : List Nat) (hn : l.Nodup) {f g : Nat → Text} (h : tagLoop s wid l f = .ok g)
    (j : Nat) : g j = if j ∈ l then (if s.lineUsed ≤ j then f j ++ pad s.width [] else f j) ++ pad wid (s.tag j) else f j := by
  induction l generalizing f with
  | nil => cases h; simp
  | cons i l ih =>
    unfold tagLoop at h
    cases e1 : startLine s i f with
    | error _ => rw [e1] at h; cases h
    | ok f1 =>
      rw [e1] at h
      cases e2 : appendTo (s.tag i) (f1 i) wid with
      | error _ => simp only [bind, Except.bind, e2] at h; cases h
      | ok t =>
        simp only [bind, Except.bind, e2] at h
        have hn' := List.nodup_cons.1 hn
        rw [ih hn'.2 h]
        have e3 := startLine_ok e1
        have e4 := appendTo_ok e2
        by_cases hj : j = i
        · subst hj
          rw [if_neg hn'.1, if_pos (by simp)]
          simp only [put, if_true]
          rw [e4, e3]
          split <;> simp [put]
        · have e5 : put f1 i t j = f j := by
            simp only [put, if_neg hj]
            rw [e3]; split
            · simp [put, hj]
            · rfl
          rw [e5]
          simp only [List.mem_cons, hj, false_or]

theorem padLoop_ok {wid : Nat} (l : List Nat) (hn : l.Nodup) {f g : Nat → Text} (h : padLoop wid l f = .ok g)
    (j : Nat) : g j = if j ∈ l then f j ++ pad wid [] else f j := by
  induction l generalizing f with
  | nil => cases h; simp
  | cons i l ih =>
    unfold padLoop at h
    cases e : appendTo [] (f i) wid with
    | error _ => rw [e] at h; cases h
    | ok t =>
      rw [e] at h
      have hn' := List.nodup_cons.1 hn
      rw [ih hn'.2 h]
      by_cases hj : j = i
      · subst hj
        rw [if_neg hn'.1, if_pos (by simp)]
        simp only [put, if_true]
        exact appendTo_ok e
      · have e5 : put f i t j = f j := by simp [put, hj]
        rw [e5]
        simp only [List.mem_cons, hj, false_or]

theorem mem_drop_range {n k j : Nat} : j ∈ (List.range n).drop k ↔ k ≤ j ∧ j < n := by
  rw [List.mem_iff_getElem]
  constructor
  · rintro ⟨i, hi, e⟩
    rw [List.getElem_drop, List.getElem_range] at e
    simp at hi
    omega
  · rintro ⟨h1, h2⟩
    exact ⟨j - k, by simp; omega, by rw [List.getElem_drop, List.getElem_range]; omega⟩

/-- The block that is being built. -/
structure Cur (s : St) (b : Block) : Prop where
  loj : s.loj = b.loj
  eng : s.eng = b.eng
  used : s.used = b.tags.length
  tags : ∀ i, s.tag i = b.tags.getD i []

theorem blockWidth_eq {s : St} {b : Block} (h : Cur s b) : blockWidth s = b.width := by
  have e : (List.range s.used).map (fun i => (s.tag i).length) = b.tags.map List.length := by
    have := congrArg (List.map List.length) (range_getD b.tags)
    rw [List.map_map] at this
    rw [← this, h.used]
    exact List.map_congr_left fun i _ => by simp only [Function.comp, h.tags i]
  rw [blockWidth, e, foldl_max, Block.width, h.loj, h.eng]
  simp only [List.foldr_cons, foldr_len]
  omega

theorem putBlock_ok {s u : St} {b : Block} {row : List Block} (hc : Cur s b) (hl : Line s row)
    (h : putBlock b.width s = .ok u) :
    Line u (row ++ [b]) ∧ Cur u ⟨[], [], []⟩ ∧ u.out = s.out ∧ u.pending = s.pending ∧ u.first = s.first := by
  unfold putBlock at h
  cases e1 : appendTo s.loj s.lojLine b.width with
  | error _ => rw [e1] at h; cases h
  | ok t1 =>
  cases e2 : appendTo s.eng s.engLine b.width with
  | error _ => simp only [bind, Except.bind, e1, e2] at h; cases h
  | ok t2 =>
  cases e3 : tagLoop s b.width (List.range s.used) s.tagLine with
  | error _ => simp only [bind, Except.bind, e1, e2, e3] at h; cases h
  | ok f =>
  cases e4 : padLoop b.width ((List.range s.lineUsed).drop s.used) f with
  | error _ => simp only [bind, Except.bind, e1, e2, e3, e4] at h; cases h
  | ok g =>
  simp only [bind, Except.bind, e1, e2, e3, e4, pure, Except.pure] at h
  cases h
  have hf := tagLoop_ok _ List.nodup_range e3
  have hg := padLoop_ok _ ((List.drop_sublist _ _).nodup List.nodup_range) e4
  refine ⟨⟨?_, ?_, ?_, ?_, ?_, ?_⟩, ⟨rfl, rfl, rfl, fun i => by simp⟩, rfl, rfl, rfl⟩
  · show t1 = _
    rw [appendTo_ok e1, hl.loj, hc.loj, side_append]
  · show t2 = _
    rw [appendTo_ok e2, hl.eng, hc.eng, side_append]
  · show max s.lineUsed s.used = _
    rw [height_append, hl.used, hc.used]
  · intro i hi
    show g i = _
    rw [height_append] at hi
    rw [hg, hf, side_append, hc.used, hl.used, hc.tags]
    simp only [mem_drop_range, List.mem_range]
    by_cases c1 : i < b.tags.length
    · rw [if_neg (by omega), if_pos c1]
      by_cases c2 : height row ≤ i
      · rw [if_pos c2, hl.rest i c2, hl.width, side_beyond c2]; simp [pad]
      · rw [if_neg c2, hl.tags i (by omega)]
    · rw [if_pos (by omega), if_neg c1, hl.tags i (by omega)]
      congr 2
      rw [List.getD_eq_getElem?_getD, List.getElem?_eq_none (by omega)]; rfl
  · intro i hi
    show g i = _
    rw [height_append] at hi
    rw [hg, hf, hc.used, hl.used]
    simp only [mem_drop_range, List.mem_range]
    rw [if_neg (by omega), if_neg (by omega), hl.rest i (by omega)]
  · show s.width + b.width = _
    rw [rowWidth_append, hl.width]

/-! ## What has been printed -/

/-- All blocks finished so far: those printed, and those on the line. -/
structure Hist (maxw : Int) (s : St) (bs : List Block) : Prop where
  ex : ∃ (items : List Item) (row : List Block), s.out = items.map Item.show ∧ (∀ x ∈ items, x.Good maxw) ∧
    bs = items.flatMap Item.blocks ++ row ∧ Line s row ∧ Fits maxw row

theorem flushLine_hist {maxw : Int} {s : St} {bs : List Block} (h : Hist maxw s bs) :
    Hist maxw (flushLine s) bs := by
  obtain ⟨items, row, h1, h2, h3, h4, h5⟩ := h.ex
  unfold flushLine
  split
  · exact h
  · rename_i hw
    refine ⟨items ++ [.row row], [], ?_, ?_, ?_, ⟨rfl, rfl, rfl, ?_, fun _ _ => rfl, rfl⟩, .inr (by simp)⟩
    · simp only [clearLine, h1, List.map_append, List.map_cons, List.map_nil]
      congr 2
      simp only [Item.show, render, h4.loj, h4.eng, h4.used]
      congr 1
      exact List.map_congr_left fun i hi => h4.tags i (List.mem_range.1 hi)
    · intro x hx
      rcases List.mem_append.1 hx with hx | hx
      · exact h2 x hx
      · rw [List.mem_singleton.1 hx]
        exact ⟨h5, by rw [← h4.width]; exact hw⟩
    · rw [h3]; simp [Item.blocks]
    · intro i hi; simp [height] at hi

theorem flushLine_cur {s : St} {b : Block} (h : Cur s b) : Cur (flushLine s) b := by
  unfold flushLine
  split
  · exact h
  · exact ⟨h.loj, h.eng, h.used, h.tags⟩

theorem flushLine_pending (s : St) : (flushLine s).pending = s.pending := by unfold flushLine; split <;> rfl
theorem flushLine_first (s : St) : (flushLine s).first = s.first := by unfold flushLine; split <;> rfl

theorem flushLine_width (s : St) : (flushLine s).width = 0 := by
  unfold flushLine; split
  · assumption
  · rfl

theorem clearEols_hist {maxw : Int} {s : St} {bs : List Block} (h : Hist maxw s bs) :
    Hist maxw (clearEols s) bs := by
  unfold clearEols
  split
  · obtain ⟨items, row, h1, h2, h3, h4, h5⟩ := (flushLine_hist h).ex
    refine ⟨items ++ [if 1 < s.pending then .rule else .gap], row, ?_, ?_, ?_,
      ⟨h4.loj, h4.eng, h4.used, h4.tags, h4.rest, h4.width⟩, h5⟩
    · simp only [h1, List.map_append, List.map_cons, List.map_nil]
      split <;> rfl
    · intro x hx
      rcases List.mem_append.1 hx with hx | hx
      · exact h2 x hx
      · rw [List.mem_singleton.1 hx]
        split <;> trivial
    · rw [h3]
      split <;> simp [Item.blocks]
  · exact h

theorem clearEols_cur {s : St} {b : Block} (h : Cur s b) : Cur (clearEols s) b := by
  unfold clearEols
  split
  · have := flushLine_cur h
    exact ⟨this.loj, this.eng, this.used, this.tags⟩
  · exact h

theorem clearEols_first (s : St) : (clearEols s).first = s.first := by
  unfold clearEols; split
  · exact flushLine_first s
  · rfl

theorem width_le_row {row : List Block} {b : Block} (h : b ∈ row) : b.width ≤ rowWidth row := by
  induction row with
  | nil => cases h
  | cons x r ih =>
    simp only [rowWidth, List.map_cons, List.sum_cons] at *
    rcases List.mem_cons.1 h with e | e
    · subst e; omega
    · have := ih e; omega

theorem filter_width_zero {row : List Block} (h : rowWidth row = 0) : row.filter (fun b => b.width ≠ 0) = [] := by
  rw [List.filter_eq_nil_iff]
  intro b hb
  have := width_le_row hb
  simp; omega

theorem flushBlock_ok {maxw : Int} {s u : St} {b : Block} {bs : List Block} (hc : Cur s b) (hh : Hist maxw s bs)
    (h : flushBlock maxw s = .ok u) :
    Hist maxw u (bs ++ [b].filter (!·.blank)) ∧ Cur u ⟨[], [], []⟩ ∧ u.first = s.first ∧ u.pending = s.pending := by
  unfold flushBlock at h
  split at h
  · rename_i hb
    cases h
    have e : b.loj = [] ∧ b.eng = [] ∧ b.tags = [] :=
      ⟨hc.loj ▸ hb.1, hc.eng ▸ hb.2.1, List.eq_nil_of_length_eq_zero (hc.used ▸ hb.2.2)⟩
    have eb : b = ⟨[], [], []⟩ := by cases b; simp only at e; simp [e]
    subst eb
    exact ⟨by simpa [Block.blank] using hh, hc, rfl, rfl⟩
  · rename_i hb
    have nb : b.blank = false := by
      rw [Block.blank]
      apply decide_eq_false
      rintro ⟨x, y, z⟩
      exact hb ⟨hc.loj.trans x, hc.eng.trans y, by rw [hc.used, z]; rfl⟩
    split at h
    · cases h
    · rw [blockWidth_eq hc] at h
      have e : [b].filter (!·.blank) = [b] := by simp [nb]
      rw [e]
      split at h
      · obtain ⟨items, row, h1, h2, h3, h4, h5⟩ := (flushLine_hist hh).ex
        obtain ⟨p1, p2, p3, p4, p5⟩ := putBlock_ok (flushLine_cur hc) h4 h
        refine ⟨⟨items, row ++ [b], p3.trans h1, h2, by rw [h3, List.append_assoc], p1, .inr ?_⟩, p2,
          p5.trans (flushLine_first s), p4.trans (flushLine_pending s)⟩
        have hz : rowWidth row = 0 := by rw [← h4.width]; exact flushLine_width s
        rw [List.filter_append, filter_width_zero hz]
        rw [List.nil_append]
        exact List.length_filter_le _ [b]
      · rename_i hw
        obtain ⟨items, row, h1, h2, h3, h4, h5⟩ := hh.ex
        obtain ⟨p1, p2, p3, p4, p5⟩ := putBlock_ok hc h4 h
        refine ⟨⟨items, row ++ [b], p3.trans h1, h2, by rw [h3, List.append_assoc], p1, .inl ?_⟩, p2, p5, p4⟩
        rw [rowWidth_append, ← h4.width]
        omega

/-! ## The calls -/

/-- The state in the middle of a segment. -/
def Blk : Phase → St → List Call → Prop
  | .plain, s, seg => Cur s (blockOf seg) ∧ (s.loj = [] → s.eng = [] → s.used = 0)
  | .waiting, s, seg => Cur s (blockOf seg) ∧ s.loj = [] ∧ s.eng = []
  | .opening, s, seg => Cur s (blockOf seg) ∧ s.loj = [] ∧ s.eng = [] ∧ s.first = true
  | .inside, s, seg => Cur { s with used := s.used + 1 } (blockOf seg) ∧ s.loj = [] ∧ s.eng = [] ∧ s.first = false

theorem blockOf_append (seg : List Call) (c : Call) :
    blockOf (seg ++ [c]) =
      ⟨(blockOf seg).loj ++ lojOf c, (blockOf seg).eng ++ engOf c, label (blockOf seg).tags c⟩ := by
  simp [blockOf, labels, List.foldl_append]

theorem flush_none {maxw : Int} {s : St} (h1 : s.loj = []) (h2 : s.eng = []) (h3 : s.used = 0) :
    flushBlock maxw s = .ok s := by unfold flushBlock; rw [if_pos ⟨h1, h2, h3⟩]

theorem setBracket_cur {s : St} (t : String × String × String) (n : Nat) (h : Cur s ⟨[], [], []⟩) :
    Cur (setBracket t n s)
      ⟨t.1.toList ++ [' '], t.2.1.toList ++ [' '], [t.2.2.toList ++ [' '], (toString n).toList ++ [' ']]⟩ := by
  refine ⟨rfl, rfl, rfl, fun i => ?_⟩
  have := h.tags i
  match i, this with
  | 0, _ => rfl
  | 1, _ => rfl
  | k + 2, e => simpa [setBracket, put] using e

theorem setBracket_hist {maxw : Int} {s : St} {bs : List Block} (t : String × String × String) (n : Nat)
    (h : Hist maxw s bs) : Hist maxw (setBracket t n s) bs := by
  obtain ⟨items, row, h1, h2, h3, h4, h5⟩ := h.ex
  exact ⟨items, row, h1, h2, h3, ⟨h4.loj, h4.eng, h4.used, h4.tags, h4.rest, h4.width⟩, h5⟩

theorem hist_congr {maxw : Int} {s u : St} {bs : List Block} (h : Hist maxw s bs) (e1 : u.out = s.out)
    (e2 : u.lojLine = s.lojLine) (e3 : u.engLine = s.engLine) (e4 : u.lineUsed = s.lineUsed)
    (e5 : u.tagLine = s.tagLine) (e6 : u.width = s.width) : Hist maxw u bs := by
  obtain ⟨items, row, h1, h2, h3, h4, h5⟩ := h.ex
  exact ⟨items, row, e1.trans h1, h2, h3, ⟨e2.trans h4.loj, e3.trans h4.eng, e4.trans h4.used,
    fun i hi => by rw [e5]; exact h4.tags i hi, fun i hi => by rw [e5]; exact h4.rest i hi, e6.trans h4.width⟩, h5⟩

theorem map_ok {α β : Type} {x : M α} {f : α → β} {y : β} (h : x.map f = .ok y) : ∃ a, x = .ok a ∧ y = f a := by
  cases x with
  | error e => cases h
  | ok a => cases h; exact ⟨a, rfl, rfl⟩

/-- The state after a call, with the segment it belongs to. -/
def After (maxw : Int) (q : Phase) (u : St) (seg : List Call) (c : Call) (bs : List Block) : Prop :=
  if cut seg c then Blk q u [c] ∧ Hist maxw u (bs ++ [blockOf seg].filter (!·.blank))
  else Blk q u (seg ++ [c]) ∧ Hist maxw u bs

theorem noCut {maxw : Int} {q : Phase} {u : St} {seg : List Call} {c : Call} {bs : List Block}
    (hc : cut seg c = false) (h1 : Blk q u (seg ++ [c])) (h2 : Hist maxw u bs) : After maxw q u seg c bs := by
  unfold After; rw [hc]; exact ⟨h1, h2⟩

theorem doCut {maxw : Int} {q : Phase} {u : St} {seg : List Call} {c : Call} {bs : List Block}
    (hc : cut seg c = true) (h1 : Blk q u [c]) (h2 : Hist maxw u (bs ++ [blockOf seg].filter (!·.blank))) :
    After maxw q u seg c bs := by
  unfold After; rw [hc]; exact ⟨h1, h2⟩

theorem open_step {maxw : Int} {b : Br} {n : Nat} {s u : St} {seg : List Call} {bs : List Block} (hb : b ≠ .none)
    (hc : Cur s (blockOf seg)) (hh : Hist maxw s bs) (h : writeOpen maxw b n s = .ok u) :
    After maxw .plain u seg (.opened b n) bs := by
  unfold writeOpen at h
  rw [if_neg hb] at h
  obtain ⟨v, e, rfl⟩ := map_ok h
  obtain ⟨f1, f2, _, _⟩ := flushBlock_ok hc hh e
  refine doCut (by simpa [cut] using hb) ⟨?_, fun k => ?_⟩ (setBracket_hist _ _ (clearEols_hist f1))
  · have := setBracket_cur (openText b) n (clearEols_cur f2)
    simpa [blockOf, labels, lojOf, engOf, label, hb] using this
  · simp [setBracket] at k

theorem close_step {maxw : Int} {b : Br} {n : Nat} {s u : St} {seg : List Call} {bs : List Block} (hb : b ≠ .none)
    (hc : Cur s (blockOf seg)) (hz : s.loj = [] → s.eng = [] → s.used = 0) (hh : Hist maxw s bs)
    (h : writeClose maxw b n s = .ok u) : After maxw .plain u seg (.closed b n) bs := by
  unfold writeClose at h
  rw [if_neg hb] at h
  have e0 : (if s.loj ≠ [] ∨ s.eng ≠ [] then flushBlock maxw s else .ok s) = flushBlock maxw s := by
    split
    · rfl
    · rename_i k
      have k1 : s.loj = [] := Decidable.byContradiction fun x => k (.inl x)
      have k2 : s.eng = [] := Decidable.byContradiction fun x => k (.inr x)
      exact (flush_none k1 k2 (hz k1 k2)).symm
  rw [e0] at h
  obtain ⟨v, e, rfl⟩ := map_ok h
  obtain ⟨f1, f2, _, _⟩ := flushBlock_ok hc hh e
  refine doCut (by simpa [cut] using hb) ⟨?_, fun k => ?_⟩ (setBracket_hist _ _ f1)
  · have := setBracket_cur (closeText b) n f2
    simpa [blockOf, labels, lojOf, engOf, label, hb] using this
  · simp [setBracket] at k

theorem lojban_step {maxw : Int} {t : String} {s u : St} {seg : List Call} {bs : List Block}
    (hc : Cur s (blockOf seg)) (hh : Hist maxw s bs) (h : writeLojban maxw t s = .ok u) :
    After maxw .plain u seg (.lojban t) bs := by
  unfold writeLojban at h
  by_cases hb : s.eng = []
  · rw [if_neg (by simpa using hb)] at h
    cases e : store ((clearEols s).loj ++ t.toList ++ [' ']) with
    | error _ => simp only [bind, Except.bind, e] at h; cases h
    | ok v =>
      simp only [bind, Except.bind, e, pure, Except.pure] at h
      cases h
      have ev := (store_ok e).1
      have cc := clearEols_cur hc
      refine noCut (by simp [cut, ← hc.eng, hb]) ⟨⟨?_, ?_, ?_, ?_⟩, fun k => ?_⟩
        (hist_congr (clearEols_hist hh) rfl rfl rfl rfl rfl rfl)
      · rw [blockOf_append]; simp [ev, cc.loj, lojOf]
      · rw [blockOf_append]; simp [cc.eng, engOf]
      · rw [blockOf_append]; simp [cc.used, label]
      · intro i; rw [blockOf_append]; simpa [label] using cc.tags i
      · simp [ev] at k
  · rw [if_pos hb] at h
    cases e0 : flushBlock maxw s with
    | error _ => simp only [bind, Except.bind, e0] at h; cases h
    | ok w =>
      simp only [bind, Except.bind, e0] at h
      obtain ⟨f1, f2, _, _⟩ := flushBlock_ok hc hh e0
      cases e : store ((clearEols w).loj ++ t.toList ++ [' ']) with
      | error _ => simp only [e] at h; cases h
      | ok v =>
        simp only [e, pure, Except.pure] at h
        cases h
        have ev := (store_ok e).1
        have cc := clearEols_cur f2
        refine doCut (by simp [cut, ← hc.eng, hb]) ⟨⟨?_, ?_, ?_, ?_⟩, fun k => ?_⟩
          (hist_congr (clearEols_hist f1) rfl rfl rfl rfl rfl rfl)
        · simp [ev, cc.loj, blockOf, lojOf]
        · simp [cc.eng, blockOf, engOf]
        · simp [cc.used, blockOf, labels, label]
        · intro i; simpa [blockOf, labels, label] using cc.tags i
        · simp [ev] at k

theorem startTags_step {maxw : Int} {s u : St} {seg : List Call} {bs : List Block}
    (hc : Cur s (blockOf seg)) (hh : Hist maxw s bs) (h : startTags maxw s = .ok u) :
    After maxw .opening u seg .startTags bs := by
  unfold startTags at h
  obtain ⟨v, e, rfl⟩ := map_ok h
  by_cases hb : s.loj ≠ [] ∨ s.eng ≠ []
  · rw [if_pos hb] at e
    obtain ⟨f1, f2, _, _⟩ := flushBlock_ok hc hh e
    have cc := clearEols_cur f2
    refine doCut (by rw [hc.loj, hc.eng] at hb; simpa [cut] using hb) ⟨⟨?_, ?_, ?_, ?_⟩, cc.loj, cc.eng, rfl⟩
      (hist_congr (clearEols_hist f1) rfl rfl rfl rfl rfl rfl)
    · simp [cc.loj, blockOf, lojOf]
    · simp [cc.eng, blockOf, engOf]
    · simp [cc.used, blockOf, labels, label]
    · intro i; simpa [blockOf, labels, label] using cc.tags i
  · rw [if_neg hb] at e
    cases e
    have k1 : s.loj = [] := Decidable.byContradiction fun x => hb (.inl x)
    have k2 : s.eng = [] := Decidable.byContradiction fun x => hb (.inr x)
    have cc := clearEols_cur hc
    refine noCut (by rw [hc.loj, hc.eng] at hb; simpa [cut] using hb)
      ⟨⟨?_, ?_, ?_, ?_⟩, by simp [cc.loj, ← hc.loj, k1], by simp [cc.eng, ← hc.eng, k2], rfl⟩
      (hist_congr (clearEols_hist hh) rfl rfl rfl rfl rfl rfl)
    · rw [blockOf_append]; simp [cc.loj, lojOf]
    · rw [blockOf_append]; simp [cc.eng, engOf]
    · rw [blockOf_append]; simp [cc.used, label]
    · intro i; rw [blockOf_append]; simpa [label] using cc.tags i

/-- A call that changes nothing of the block. -/
theorem same_cur {s u : St} {seg : List Call} {c : Call} (hc : Cur s (blockOf seg)) (h1 : lojOf c = []) (h2 : engOf c = [])
    (h3 : ∀ l, label l c = l) (e1 : u.loj = s.loj) (e2 : u.eng = s.eng) (e3 : u.used = s.used) (e4 : u.tag = s.tag) :
    Cur u (blockOf (seg ++ [c])) := by
  rw [blockOf_append, h1, h2, h3]
  exact ⟨by simp [e1, hc.loj], by simp [e2, hc.eng], by simp [e3, hc.used], fun i => by rw [e4]; exact hc.tags i⟩

theorem extend_length {l : List Text} (h : l ≠ []) (t : Text) : (extend l t).length = l.length := by
  have : 0 < l.length := List.length_pos_iff.2 h
  simp [extend]; omega

theorem extend_getD {l : List Text} {n : Nat} (h : l.length = n + 1) (t : Text) (i : Nat) :
    (extend l t).getD i [] = put (fun j => l.getD j []) n (l.getD n [] ++ t) i := by
  have hl : l ≠ [] := by intro e; rw [e] at h; simp at h
  have e : l = l.dropLast ++ [l.getLastD []] := by
    rw [List.getLastD_eq_getLast?, List.getLast?_eq_some_getLast hl]
    exact (List.dropLast_concat_getLast hl).symm
  have hd : l.dropLast.length = n := by simp [h]
  have hn : l.getD n [] = l.getLastD [] := by
    conv => lhs; rw [e]
    simp [List.getD_eq_getElem?_getD, ← hd]
  unfold put
  split
  · rename_i k
    subst k
    rw [hn]
    simp [extend, List.getD_eq_getElem?_getD, ← hd]
  · rename_i k
    show _ = l.getD i []
    conv => rhs; rw [e]
    simp only [extend, List.getD_eq_getElem?_getD]
    by_cases hi : i < n
    · rw [List.getElem?_append_left (by omega), List.getElem?_append_left (by omega)]
    · rw [List.getElem?_eq_none (by simp; omega), List.getElem?_eq_none (by simp; omega)]

theorem tag_step {s u : St} {seg : List Call} {c : Call} {t : Text}
    (hc : Cur { s with used := s.used + 1 } (blockOf seg)) (h1 : lojOf c = []) (h2 : engOf c = [])
    (h3 : ∀ l, label l c = extend l t) (h : putTag s s.used (s.tag s.used ++ t) = .ok u) :
    Cur { u with used := u.used + 1 } (blockOf (seg ++ [c])) ∧ u.loj = s.loj ∧ u.eng = s.eng ∧ u.first = s.first ∧
      u.used = s.used ∧ (u.out = s.out ∧ u.lojLine = s.lojLine ∧ u.engLine = s.engLine ∧ u.lineUsed = s.lineUsed ∧
      u.tagLine = s.tagLine ∧ u.width = s.width) := by
  unfold putTag at h
  split at h
  · obtain ⟨v, e, rfl⟩ := map_ok h
    have ev := (store_ok e).1
    have hlen : (blockOf seg).tags.length = s.used + 1 := hc.used.symm
    have hne : (blockOf seg).tags ≠ [] := by intro k; rw [k] at hlen; simp at hlen
    refine ⟨?_, rfl, rfl, rfl, rfl, rfl, rfl, rfl, rfl, rfl, rfl⟩
    rw [blockOf_append, h1, h2, h3]
    refine ⟨by simpa using hc.loj, by simpa using hc.eng, by simp [extend_length hne, hlen], fun i => ?_⟩
    show put s.tag s.used v i = _
    rw [extend_getD hlen, ev]
    have ht : s.tag = fun j => (blockOf seg).tags.getD j [] := funext hc.tags
    rw [ht]
  · cases h

theorem step_ok {maxw : Int} {eolsOf : Nat → Nat} {p q : Phase} {s u : St} {seg : List Call} {c : Call} {bs : List Block}
    (hn : next p c = some q) (hb : Blk p s seg) (hh : Hist maxw s bs) (h : step maxw eolsOf s c = .ok u) :
    After maxw q u seg c bs := by
  cases c with
  | opened b n =>
    by_cases hbn : b = .none
    · subst hbn
      have hu : u = s := by simp [step, writeOpen] at h; exact h.symm
      subst hu
      cases p <;> simp only [next, if_true, Option.some.injEq, reduceCtorEq] at hn <;> subst hn <;>
        refine noCut (by simp [cut]) ⟨same_cur hb.1 rfl rfl (fun _ => rfl) rfl rfl rfl rfl, hb.2⟩ hh
    · cases p <;> simp only [next, if_neg hbn, Option.some.injEq, reduceCtorEq] at hn <;> subst hn <;>
        exact open_step hbn hb.1 hh h
  | closed b n =>
    by_cases hbn : b = .none
    · subst hbn
      have hu : u = s := by simp [step, writeClose] at h; exact h.symm
      subst hu
      cases p <;> simp only [next, if_true, Option.some.injEq, reduceCtorEq] at hn <;> subst hn <;>
        refine noCut (by simp [cut]) ⟨same_cur hb.1 rfl rfl (fun _ => rfl) rfl rfl rfl rfl, hb.2⟩ hh
    · cases p <;> simp only [next, if_neg hbn, Option.some.injEq, reduceCtorEq] at hn
      subst hn
      exact close_step hbn hb.1 hb.2 hh h
  | lojban t =>
    cases p <;> simp only [next, Option.some.injEq, reduceCtorEq] at hn <;> subst hn <;> exact lojban_step hb.1 hh h
  | translation t =>
    obtain ⟨v, e, rfl⟩ := map_ok h
    have ev := (store_ok e).1
    have key : Cur s (blockOf seg) → Cur { s with eng := v } (blockOf (seg ++ [.translation t])) := fun hc => by
      rw [blockOf_append]
      exact ⟨by simp [hc.loj, lojOf], by simp [ev, hc.eng, engOf], by simp [hc.used, label],
        fun i => by simpa [label] using hc.tags i⟩
    have hh' : Hist maxw { s with eng := v } bs := hist_congr hh rfl rfl rfl rfl rfl rfl
    cases p <;> simp only [next, Option.some.injEq, reduceCtorEq] at hn <;> subst hn
    · refine noCut rfl ⟨key hb.1, fun k1 k2 => hb.2 k1 ?_⟩ hh'
      have k2' : v = [] := k2
      rw [ev] at k2'
      exact (List.append_eq_nil_iff.1 k2').1
    · split
      · rename_i k
        exact noCut rfl ⟨key hb.1, hb.2.1, by rw [ev, k, hb.2.2]; rfl⟩ hh'
      · rename_i k
        refine noCut rfl ⟨key hb.1, fun _ k2 => ?_⟩ hh'
        have k2' : v = [] := k2
        rw [ev] at k2'
        exact absurd (List.append_eq_nil_iff.1 k2').2 k
  | eols w =>
    cases h
    cases p <;> simp only [next, Option.some.injEq, reduceCtorEq] at hn <;> subst hn <;>
      exact noCut rfl ⟨same_cur hb.1 rfl rfl (fun _ => rfl) rfl rfl rfl rfl, hb.2⟩ (hist_congr hh rfl rfl rfl rfl rfl rfl)
  | startTags =>
    cases p <;> simp only [next, Option.some.injEq, reduceCtorEq] at hn <;> subst hn <;> exact startTags_step hb.1 hh h
  | endTags =>
    cases h
    cases p <;> simp only [next, Option.some.injEq, reduceCtorEq] at hn
    subst hn
    exact noCut rfl ⟨same_cur hb.1 rfl rfl (fun _ => rfl) rfl rfl rfl rfl, hb.2.1, hb.2.2.1⟩
      (hist_congr hh rfl rfl rfl rfl rfl rfl)
  | startTag =>
    cases h
    have key : ∀ {v : St} {k : Nat}, Cur v (blockOf seg) → v.used = k →
        Cur { s with loj := v.loj, eng := v.eng, tag := v.tag, used := k + 1, first := false }
          (blockOf (seg ++ [.startTag])) := by
      intro v k hc hk
      rw [blockOf_append]
      refine ⟨by simp [hc.loj, lojOf], by simp [hc.eng, engOf], by simp [← hk, hc.used, label], fun i => ?_⟩
      simp only [label, hc.tags i, List.getD_eq_getElem?_getD]
      rcases Nat.lt_trichotomy i (blockOf seg).tags.length with k | k | k
      · rw [List.getElem?_append_left k]
      · subst k; simp
      · rw [List.getElem?_eq_none (by omega), List.getElem?_eq_none (by simp; omega)]
    have hh' : Hist maxw { s with used := if s.first then s.used else s.used + 1, first := false } bs :=
      hist_congr hh rfl rfl rfl rfl rfl rfl
    cases p <;> simp only [next, Option.some.injEq, reduceCtorEq] at hn <;> subst hn
    · refine noCut rfl ⟨?_, hb.2.1, hb.2.2.1, rfl⟩ hh'
      have := key hb.1 rfl
      simpa [hb.2.2.2] using this
    · refine noCut rfl ⟨?_, hb.2.1, hb.2.2.1, rfl⟩ hh'
      have := key hb.1 rfl
      simpa [hb.2.2.2] using this
  | tagText a b c d =>
    cases p <;> simp only [next, Option.some.injEq, reduceCtorEq] at hn
    subst hn
    obtain ⟨k1, k2, k3, k4, _, o1, o2, o3, o4, o5, o6⟩ := tag_step (c := .tagText a b c d) hb.1 rfl rfl (fun _ => rfl) h
    exact noCut rfl ⟨k1, k2.trans hb.2.1, k3.trans hb.2.2.1, k4.trans hb.2.2.2⟩ (hist_congr hh o1 o2 o3 o4 o5 o6)
  | tagPart t =>
    cases p <;> simp only [next, Option.some.injEq, reduceCtorEq] at hn
    subst hn
    obtain ⟨k1, k2, k3, k4, _, o1, o2, o3, o4, o5, o6⟩ := tag_step (c := .tagPart t) hb.1 rfl rfl (fun _ => rfl) h
    exact noCut rfl ⟨k1, k2.trans hb.2.1, k3.trans hb.2.2.1, k4.trans hb.2.2.2⟩ (hist_congr hh o1 o2 o3 o4 o5 o6)

theorem steps_ok {maxw : Int} {eolsOf : Nat → Nat} (cs : List Call) {p q : Phase} {s u : St} {seg : List Call}
    {bs : List Block} (hq : q = .plain ∨ q = .waiting)
    (hn : runs p cs = some q) (hb : Blk p s seg) (hh : Hist maxw s bs) (h : steps maxw eolsOf s cs = .ok u) :
    ∃ last pre, Cur u (blockOf last) ∧ Hist maxw u (bs ++ pre) ∧
      ((segments seg cs).map blockOf).filter (!·.blank) = pre ++ [blockOf last].filter (!·.blank) := by
  induction cs generalizing p s seg bs with
  | nil =>
    cases h; cases hn
    refine ⟨seg, [], ?_, by simpa using hh, by simp [segments]⟩
    rcases hq with e | e <;> subst e <;> exact hb.1
  | cons c cs ih =>
    unfold runs at hn
    cases e1 : next p c with
    | none => rw [e1] at hn; cases hn
    | some r =>
      rw [e1] at hn
      unfold steps at h
      cases e2 : step maxw eolsOf s c with
      | error _ => simp only [bind, Except.bind, e2] at h; cases h
      | ok v =>
        simp only [bind, Except.bind, e2] at h
        have hk := step_ok e1 hb hh e2
        unfold After at hk
        unfold segments
        split at hk
        · rename_i hcut
          obtain ⟨last, pre, i1, i2, i3⟩ := ih hn hk.1 hk.2 h
          refine ⟨last, [blockOf seg].filter (!·.blank) ++ pre, i1, by simpa [List.append_assoc] using i2, ?_⟩
          rw [if_pos hcut, List.map_cons, ← List.singleton_append, List.filter_append, i3, List.append_assoc]
        · rename_i hcut
          rw [if_neg hcut]
          exact ih hn hk.1 hk.2 h

/-- **Blocks stand side by side and nothing is lost.**  For all calls in good order: what is printed is rows of blocks
with empty lines and rulers between them; read in order, the rows have exactly the blocks of the calls (what is not
printed at the end has no width).  In each row the Lojban, the English and the labels of a block begin in the same
column, and no row is wider than the limit unless it is one block. -/
theorem display_blocks {maxw : Int} {eolsOf : Nat → Nat} {cs : List Call} {out : List Group} (ho : Ordered cs)
    (h : display maxw eolsOf cs = .ok out) :
    ∃ (items : List Item) (rest : List Block), out = items.map Item.show ∧
      items.flatMap Item.blocks ++ rest = blocks cs ∧ rowWidth rest = 0 ∧ ∀ x ∈ items, x.Good maxw := by
  unfold display at h
  cases e1 : steps maxw eolsOf initialise cs with
  | error _ => simp only [bind, Except.bind, e1] at h; cases h
  | ok s =>
    simp only [bind, Except.bind, e1] at h
    cases e2 : epilog maxw s with
    | error _ => simp only [e2] at h; cases h
    | ok u =>
      simp only [e2, pure, Except.pure] at h
      cases h
      have hb : Blk .plain initialise [] := ⟨⟨rfl, rfl, rfl, fun i => by simp [blockOf, labels, initialise]⟩, fun _ _ => rfl⟩
      have hh : Hist maxw initialise [] :=
        ⟨[], [], rfl, by simp, rfl, ⟨rfl, rfl, rfl, fun i hi => by simp [height] at hi, fun _ _ => rfl, rfl⟩,
          .inr (by simp)⟩
      have hs : ∃ q, (q = .plain ∨ q = .waiting) ∧ runs .plain cs = some q := by
        rcases ho with e | e
        · exact ⟨_, .inl rfl, e⟩
        · exact ⟨_, .inr rfl, e⟩
      obtain ⟨q, hq, hr⟩ := hs
      obtain ⟨last, pre, i1, i2, i3⟩ := steps_ok cs hq hr hb hh e1
      obtain ⟨v, e3, rfl⟩ := map_ok e2
      obtain ⟨f1, _, _, _⟩ := flushBlock_ok i1 i2 e3
      obtain ⟨items, row, h1, h2, h3, h4, _⟩ := (flushLine_hist f1).ex
      refine ⟨items, row, h1, ?_, ?_, h2⟩
      · rw [← h3, blocks, i3, List.nil_append]
      · rw [← h4.width]; exact flushLine_width v

end Jbo.TextBlk
