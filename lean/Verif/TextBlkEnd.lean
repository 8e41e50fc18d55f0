import Verif.TextBlkThm
/-!
# The display in blocks: all words, even lines, and when the buffers are enough
-/

namespace Jbo.TextBlk
open Jbo.Output (Br Call)
open Spec

theorem segments_flatten (cs seg : List Call) : (segments seg cs).flatten = seg ++ cs := by
  induction cs generalizing seg with
  | nil => simp [segments]
  | cons c cs ih =>
    unfold segments
    split
    · rw [List.flatten_cons, ih]; simp
    · rw [ih]; simp

theorem flatMap_filter {f : Block → Text} (hf : ∀ b : Block, b.blank = true → f b = []) (l : List Block) :
    (l.filter (!·.blank)).flatMap f = l.flatMap f := by
  induction l with
  | nil => rfl
  | cons b l ih =>
    rw [List.filter_cons]
    cases e : b.blank with
    | false => simp [ih]
    | true => simp [ih, hf b e]

theorem flatMap_blocks (f : Call → Text) (l : List (List Call)) :
    l.flatMap (fun seg => seg.flatMap f) = l.flatten.flatMap f := by
  induction l with
  | nil => rfl
  | cons x l ih => simp [ih]

/-- **All words.**  The Lojban lines of the blocks are the words and brackets of the calls, in order. -/
theorem blocks_lojban (cs : List Call) : (blocks cs).flatMap (·.loj) = cs.flatMap lojOf := by
  rw [blocks, flatMap_filter (fun b h => by simp [Block.blank] at h; exact h.1), List.flatMap_map]
  show (segments [] cs).flatMap (fun seg => seg.flatMap lojOf) = _
  rw [flatMap_blocks, segments_flatten, List.nil_append]

/-- **All glosses.** -/
theorem blocks_english (cs : List Call) : (blocks cs).flatMap (·.eng) = cs.flatMap engOf := by
  rw [blocks, flatMap_filter (fun b h => by simp [Block.blank] at h; exact h.2.1), List.flatMap_map]
  show (segments [] cs).flatMap (fun seg => seg.flatMap engOf) = _
  rw [flatMap_blocks, segments_flatten, List.nil_append]

/-- **Even lines.**  All lines of a printed row have the same length, that of its blocks together. -/
theorem render_even (row : List Block) {loj eng : Text} {tags : List Text} (h : render row = .lines loj eng tags) :
    loj.length = rowWidth row ∧ eng.length = rowWidth row ∧ ∀ t ∈ tags, t.length = rowWidth row := by
  unfold render at h
  cases h
  refine ⟨side_length loj_le row, side_length eng_le row, fun t ht => ?_⟩
  obtain ⟨i, _, rfl⟩ := List.mem_map.1 ht
  exact side_length (fun b => tag_le b i) row

/-! ## When the buffers are enough -/

/-- A block the buffers have room for. -/
def Small (b : Block) : Prop := b.width < bufferSize ∧ b.tags.length ≤ maxTags

/-- A block that can grow to another. -/
structure Grows (a b : Block) : Prop where
  loj : a.loj.length ≤ b.loj.length
  eng : a.eng.length ≤ b.eng.length
  count : a.tags.length ≤ b.tags.length
  tags : ∀ i, (a.tags.getD i []).length ≤ (b.tags.getD i []).length

theorem Grows.refl (a : Block) : Grows a a := ⟨Nat.le_refl _, Nat.le_refl _, Nat.le_refl _, fun _ => Nat.le_refl _⟩

theorem Grows.trans {a b c : Block} (h : Grows a b) (k : Grows b c) : Grows a c :=
  ⟨Nat.le_trans h.loj k.loj, Nat.le_trans h.eng k.eng, Nat.le_trans h.count k.count,
    fun i => Nat.le_trans (h.tags i) (k.tags i)⟩

theorem getD_append_le (l m : List Text) (i : Nat) : (l.getD i []).length ≤ ((l ++ m).getD i []).length := by
  simp only [List.getD_eq_getElem?_getD]
  by_cases h : i < l.length
  · rw [List.getElem?_append_left h]; exact Nat.le_refl _
  · rw [List.getElem?_eq_none (by omega)]; simp

theorem extend_grows (l : List Text) (t : Text) (i : Nat) :
    l.length ≤ (extend l t).length ∧ (l.getD i []).length ≤ ((extend l t).getD i []).length := by
  by_cases h : l = []
  · subst h; simp
  · have : 0 < l.length := List.length_pos_iff.2 h
    refine ⟨by rw [extend_length h]; exact Nat.le_refl _, ?_⟩
    rw [extend_getD (n := l.length - 1) (by omega)]
    unfold put
    split
    · rename_i e; rw [e]; simp
    · exact Nat.le_refl _

theorem label_grows (l : List Text) (c : Call) (i : Nat) :
    l.length ≤ (label l c).length ∧ (l.getD i []).length ≤ ((label l c).getD i []).length := by
  cases c <;> simp only [label] <;> first
    | exact extend_grows _ _ _
    | exact ⟨Nat.le_refl _, Nat.le_refl _⟩
    | (split <;> first
        | exact ⟨Nat.le_refl _, Nat.le_refl _⟩
        | exact ⟨by simp, getD_append_le _ _ _⟩)
    | exact ⟨by simp, getD_append_le _ _ _⟩

theorem grows_append (seg : List Call) (c : Call) : Grows (blockOf seg) (blockOf (seg ++ [c])) := by
  rw [blockOf_append]
  exact ⟨by simp, by simp, (label_grows _ c 0).1, fun i => (label_grows _ c i).2⟩

/-- The first segment grows from what there is. -/
theorem segments_head (cs seg : List Call) : ∃ x l, segments seg cs = x :: l ∧ Grows (blockOf seg) (blockOf x) := by
  induction cs generalizing seg with
  | nil => exact ⟨seg, [], rfl, Grows.refl _⟩
  | cons c cs ih =>
    unfold segments
    split
    · exact ⟨_, _, rfl, Grows.refl _⟩
    · obtain ⟨x, l, e, g⟩ := ih (seg ++ [c])
      exact ⟨x, l, e, (grows_append seg c).trans g⟩

theorem foldr_le {l : List Text} {n : Nat} (h : ∀ t ∈ l, t.length ≤ n) : l.foldr (fun t n => max t.length n) 0 ≤ n := by
  induction l with
  | nil => simp
  | cons x l ih =>
    have h1 := h x (by simp)
    have h2 := ih fun t ht => h t (by simp [ht])
    simp only [List.foldr_cons]; omega

theorem Grows.small {a b : Block} (h : Grows a b) (k : Small b) : Small a := by
  refine ⟨Nat.lt_of_le_of_lt (foldr_le fun t ht => ?_) k.1, Nat.le_trans h.count k.2⟩
  simp only [List.mem_cons] at ht
  rcases ht with e | e | e
  · subst e; exact Nat.le_trans h.loj (loj_le b)
  · subst e; exact Nat.le_trans h.eng (eng_le b)
  · obtain ⟨i, hi⟩ := List.mem_iff_getElem?.1 e
    have := Nat.le_trans (h.tags i) (tag_le b i)
    simpa [List.getD_eq_getElem?_getD, hi] using this

theorem appendTo_fits {a d : Text} {w n : Nat} (h1 : a.length ≤ w) (h2 : d.length = n) (h3 : n + w < bufferSize) :
    appendTo a d w = .ok (d ++ pad w a) := by
  unfold appendTo store
  rw [if_pos (by omega), if_pos (by simp; omega), pad, List.append_assoc]

theorem tagLoop_fits {s : St} {wid : Nat} (l : List Nat) (hn : l.Nodup) (f : Nat → Text)
    (h1 : ∀ i ∈ l, (s.tag i).length ≤ wid) (h2 : ∀ i ∈ l, (f i).length = if s.lineUsed ≤ i then 0 else s.width)
    (h3 : s.width + wid < bufferSize) : ∃ g, tagLoop s wid l f = .ok g := by
  induction l generalizing f with
  | nil => exact ⟨f, rfl⟩
  | cons i l ih =>
    have hn' := List.nodup_cons.1 hn
    have k2 := h2 i (by simp)
    have e1 : ∃ g, startLine s i f = .ok g := by
      unfold startLine
      split
      · rename_i hc
        rw [if_pos hc] at k2
        rw [appendTo_fits (n := 0) (by simp) k2 (by omega)]
        exact ⟨_, rfl⟩
      · exact ⟨_, rfl⟩
    obtain ⟨g, e1⟩ := e1
    have eg := startLine_ok e1
    have lg : (g i).length = s.width := by
      rw [eg]
      split
      · rename_i hc; rw [if_pos hc] at k2; simp [put, pad, k2]
      · rename_i hc; rw [if_neg hc] at k2; exact k2
    have e2 := appendTo_fits (h1 i (by simp)) lg h3
    unfold tagLoop
    simp only [bind, Except.bind, e1, e2]
    refine ih hn'.2 _ (fun j hj => h1 j (by simp [hj])) (fun j hj => ?_)
    have hne : j ≠ i := fun e => hn'.1 (e ▸ hj)
    rw [← h2 j (by simp [hj])]
    simp only [put, if_neg hne]
    rw [eg]
    split <;> simp [put, hne]

theorem padLoop_fits {wid n : Nat} (l : List Nat) (hn : l.Nodup) (f : Nat → Text) (h : ∀ i ∈ l, (f i).length = n)
    (h3 : n + wid < bufferSize) : ∃ g, padLoop wid l f = .ok g := by
  induction l generalizing f with
  | nil => exact ⟨f, rfl⟩
  | cons i l ih =>
    have hn' := List.nodup_cons.1 hn
    unfold padLoop
    simp only [bind, Except.bind, appendTo_fits (a := []) (Nat.zero_le _) (h i (by simp)) h3]
    refine ih hn'.2 _ fun j hj => ?_
    have hne : j ≠ i := fun e => hn'.1 (e ▸ hj)
    simp only [put, if_neg hne]
    exact h j (by simp [hj])

theorem putBlock_fits {s : St} {b : Block} {row : List Block} (hc : Cur s b) (hl : Line s row)
    (h : s.width + b.width < bufferSize) : ∃ u, putBlock b.width s = .ok u := by
  have l1 : s.lojLine.length = s.width := by rw [hl.loj, hl.width]; exact side_length loj_le row
  have l2 : s.engLine.length = s.width := by rw [hl.eng, hl.width]; exact side_length eng_le row
  have e1 := appendTo_fits (a := s.loj) (by rw [hc.loj]; exact loj_le b) l1 h
  have e2 := appendTo_fits (a := s.eng) (by rw [hc.eng]; exact eng_le b) l2 h
  have lt : ∀ i, (s.tagLine i).length = if s.lineUsed ≤ i then 0 else s.width := by
    intro i
    rw [hl.used]
    split
    · rename_i k; rw [hl.rest i k]; rfl
    · rename_i k
      rw [hl.tags i (by omega), hl.width]
      exact side_length (fun b => tag_le b i) row
  obtain ⟨f, e3⟩ := tagLoop_fits (s := s) (wid := b.width) (List.range s.used) List.nodup_range s.tagLine
    (fun i _ => by rw [hc.tags]; exact tag_le b i) (fun i _ => lt i) h
  have hf := tagLoop_ok _ List.nodup_range e3
  obtain ⟨g, e4⟩ := padLoop_fits (wid := b.width) (n := s.width) ((List.range s.lineUsed).drop s.used)
    ((List.drop_sublist _ _).nodup List.nodup_range) f (fun i hi => by
      have hi' := mem_drop_range.1 hi
      rw [hf i, if_neg (by simp; omega), lt i, if_neg (by omega)]) h
  unfold putBlock
  simp only [bind, Except.bind, e1, e2, e3, e4]
  exact ⟨_, rfl⟩

theorem flushBlock_fits {maxw : Int} {s : St} {b : Block} {bs : List Block} (hm : maxw < bufferSize) (hc : Cur s b)
    (hh : Hist maxw s bs) (hs : Small b) : ∃ u, flushBlock maxw s = .ok u := by
  unfold flushBlock
  split
  · exact ⟨s, rfl⟩
  · rw [if_neg (by rw [hc.used]; have := hs.2; omega), blockWidth_eq hc]
    split
    · obtain ⟨items, row, _, _, _, h4, _⟩ := (flushLine_hist hh).ex
      exact putBlock_fits (flushLine_cur hc) h4 (by rw [flushLine_width]; have := hs.1; omega)
    · rename_i k
      obtain ⟨items, row, _, _, _, h4, _⟩ := hh.ex
      exact putBlock_fits hc h4 (by simp only [bufferSize] at *; omega)

theorem store_fits {t : Text} (h : t.length < bufferSize) : store t = .ok t := by unfold store; rw [if_pos h]

theorem ite_flush {maxw : Int} {s : St} {P : Prop} [Decidable P] (h : ∃ u, flushBlock maxw s = .ok u) :
    ∃ u, (if P then flushBlock maxw s else .ok s) = .ok u := by
  split
  · exact h
  · exact ⟨s, rfl⟩

/-- A call is carried out if its segment, with the call, is small. -/
theorem step_fits {maxw : Int} {eolsOf : Nat → Nat} {p q : Phase} {s : St} {seg : List Call} {c : Call} {bs : List Block}
    (hm : maxw < bufferSize) (hn : next p c = some q) (hb : Blk p s seg) (hh : Hist maxw s bs)
    (h1 : Small (blockOf seg)) (h2 : Small (blockOf (if cut seg c then [c] else seg ++ [c]))) :
    ∃ u, step maxw eolsOf s c = .ok u := by
  have fl : Cur s (blockOf seg) → ∃ u, flushBlock maxw s = .ok u := fun hc => flushBlock_fits hm hc hh h1
  cases c with
  | opened b n =>
    simp only [step, writeOpen]
    split
    · exact ⟨s, rfl⟩
    · rename_i hbn
      have : Cur s (blockOf seg) := by
        cases p <;> simp only [next, reduceCtorEq] at hn <;> exact hb.1
      obtain ⟨u, e⟩ := fl this
      rw [e]; exact ⟨_, rfl⟩
  | closed b n =>
    simp only [step, writeClose]
    split
    · exact ⟨s, rfl⟩
    · rename_i hbn
      have : Cur s (blockOf seg) := by
        cases p <;> simp only [next, reduceCtorEq] at hn <;> exact hb.1
      obtain ⟨u, e⟩ := ite_flush (P := s.loj ≠ [] ∨ s.eng ≠ []) (fl this)
      rw [e]; exact ⟨_, rfl⟩
  | lojban t =>
    have hc : Cur s (blockOf seg) := by
      cases p <;> simp only [next, reduceCtorEq] at hn <;> exact hb.1
    simp only [step, writeLojban]
    by_cases k : s.eng = []
    · have kc : cut seg (.lojban t) = false := by simp [cut, ← hc.eng, k]
      rw [kc] at h2
      have := Nat.lt_of_le_of_lt (loj_le _) h2.1
      simp only [Bool.false_eq_true, if_false, blockOf_append, lojOf, ← (clearEols_cur hc).loj] at this
      rw [if_neg (by simpa using k)]
      simp only [bind, Except.bind, store_fits (t := (clearEols s).loj ++ t.toList ++ [' ']) (by rw [List.append_assoc]; exact this)]
      exact ⟨_, rfl⟩
    · have kc : cut seg (.lojban t) = true := by simp [cut, ← hc.eng, k]
      rw [kc] at h2
      have := Nat.lt_of_le_of_lt (loj_le _) h2.1
      obtain ⟨u, e⟩ := fl hc
      have eu := (clearEols_cur (flushBlock_ok hc hh e).2.1).loj
      simp only [if_true, blockOf, List.flatMap_cons, List.flatMap_nil, lojOf, List.append_nil] at this
      rw [if_pos k]
      simp only [bind, Except.bind, e, store_fits (t := (clearEols u).loj ++ t.toList ++ [' ']) (by rw [eu]; exact this)]
      exact ⟨_, rfl⟩
  | translation t =>
    have hc : Cur s (blockOf seg) := by
      cases p <;> simp only [next, reduceCtorEq] at hn <;> exact hb.1
    have := Nat.lt_of_le_of_lt (eng_le _) h2.1
    simp only [cut, Bool.false_eq_true, if_false, blockOf_append, engOf, ← hc.eng] at this
    simp only [step, writeTranslation, store_fits this]
    exact ⟨_, rfl⟩
  | eols w => exact ⟨_, rfl⟩
  | startTags =>
    have hc : Cur s (blockOf seg) := by
      cases p <;> simp only [next, reduceCtorEq] at hn <;> exact hb.1
    simp only [step, startTags]
    obtain ⟨u, e⟩ := ite_flush (P := s.loj ≠ [] ∨ s.eng ≠ []) (fl hc)
    rw [e]; exact ⟨_, rfl⟩
  | endTags => exact ⟨_, rfl⟩
  | startTag => exact ⟨_, rfl⟩
  | tagText a b c d =>
    cases p <;> simp only [next, reduceCtorEq] at hn
    exact put_fits hb.1 h1 h2 (fun _ => rfl)
  | tagPart t =>
    cases p <;> simp only [next, reduceCtorEq] at hn
    exact put_fits hb.1 h1 h2 (fun _ => rfl)
where
  put_fits {s : St} {seg : List Call} {c : Call} {t : Text} (hc : Cur { s with used := s.used + 1 } (blockOf seg))
      (h1 : Small (blockOf seg)) (h2 : Small (blockOf (seg ++ [c]))) (h3 : ∀ l, label l c = extend l t) :
      ∃ u, putTag s s.used (s.tag s.used ++ t) = .ok u := by
    have hu : s.used + 1 = (blockOf seg).tags.length := hc.used
    have := Nat.lt_of_le_of_lt (tag_le _ s.used) h2.1
    rw [blockOf_append, h3] at this
    simp only [extend_getD hu.symm, put, if_true] at this
    have e : s.tag s.used = (blockOf seg).tags.getD s.used [] := hc.tags s.used
    unfold putTag
    rw [if_pos (by have := h1.2; omega), e, store_fits this]
    exact ⟨_, rfl⟩

theorem steps_fits {maxw : Int} {eolsOf : Nat → Nat} (hm : maxw < bufferSize) (cs : List Call) {p q : Phase} {s : St}
    {seg : List Call} {bs : List Block} (hn : runs p cs = some q) (hb : Blk p s seg) (hh : Hist maxw s bs)
    (hs : ∀ x ∈ segments seg cs, Small (blockOf x)) : ∃ u, steps maxw eolsOf s cs = .ok u := by
  induction cs generalizing p s seg bs with
  | nil => exact ⟨s, rfl⟩
  | cons c cs ih =>
    unfold runs at hn
    cases e1 : next p c with
    | none => rw [e1] at hn; cases hn
    | some r =>
      rw [e1] at hn
      obtain ⟨x, l, ex, gx⟩ := segments_head (c :: cs) seg
      have s1 : Small (blockOf seg) := gx.small (hs x (by rw [ex]; simp))
      have s2 : Small (blockOf (if cut seg c then [c] else seg ++ [c])) := by
        obtain ⟨y, m, ey, gy⟩ := segments_head cs (if cut seg c then [c] else seg ++ [c])
        refine gy.small (hs y ?_)
        unfold segments
        split
        · rename_i k; rw [if_pos k] at ey; rw [ey]; simp
        · rename_i k; rw [if_neg k] at ey; rw [ey]; simp
      obtain ⟨v, e2⟩ := step_fits (eolsOf := eolsOf) hm e1 hb hh s1 s2
      have hk := step_ok e1 hb hh e2
      unfold steps
      simp only [bind, Except.bind, e2]
      unfold After at hk
      unfold segments at hs
      split at hk
      · rename_i k
        rw [if_pos k] at hs
        exact ih hn hk.1 hk.2 fun z hz => hs z (by simp [hz])
      · rename_i k
        rw [if_neg k] at hs
        exact ih hn hk.1 hk.2 hs

/-- **The buffers are enough** if the limit is at most 511 and no block is wider than that or has more than 32 lines of
labels. -/
theorem display_fits_partial {maxw : Int} {eolsOf : Nat → Nat} {cs : List Call} (hm : maxw < bufferSize) (ho : Ordered cs)
    (hs : ∀ x ∈ segments [] cs, Small (blockOf x)) : ∃ out, display maxw eolsOf cs = .ok out := by
  have hb : Blk .plain initialise [] := ⟨⟨rfl, rfl, rfl, fun i => by simp [blockOf, labels, initialise]⟩, fun _ _ => rfl⟩
  have hh : Hist maxw initialise [] :=
    ⟨[], [], rfl, by simp, rfl, ⟨rfl, rfl, rfl, fun i hi => by simp [height] at hi, fun _ _ => rfl, rfl⟩, .inr (by simp)⟩
  have hq : ∃ q, (q = .plain ∨ q = .waiting) ∧ runs .plain cs = some q := by
    rcases ho with e | e
    · exact ⟨_, .inl rfl, e⟩
    · exact ⟨_, .inr rfl, e⟩
  obtain ⟨q, hq, hr⟩ := hq
  obtain ⟨s, e1⟩ := steps_fits (eolsOf := eolsOf) hm cs hr hb hh hs
  obtain ⟨last, pre, i1, i2, i3⟩ := steps_ok cs hq hr hb hh e1
  have sl : Small (blockOf last) := by
    cases e : (blockOf last).blank with
    | true =>
      simp [Block.blank] at e
      refine ⟨?_, by rw [e.2.2]; simp⟩
      simp [Block.width, e, bufferSize]
    | false =>
      have : blockOf last ∈ ((segments [] cs).map blockOf).filter (!·.blank) := by rw [i3]; simp [e]
      obtain ⟨x, hx, ex⟩ := List.mem_map.1 (List.mem_filter.1 this).1
      rw [← ex]; exact hs x hx
  obtain ⟨u, e2⟩ := flushBlock_fits hm i1 i2 sl
  unfold display epilog
  simp only [bind, Except.bind, e1, e2, Except.map]
  exact ⟨_, rfl⟩

/-! ## When they are not -/

theorem steps_append {maxw : Int} {eolsOf : Nat → Nat} (cs ds : List Call) (s : St) :
    steps maxw eolsOf s (cs ++ ds) = (steps maxw eolsOf s cs).bind fun u => steps maxw eolsOf u ds := by
  induction cs generalizing s with
  | nil => rfl
  | cons c cs ih =>
    have e0 : ∀ (x : St) (l : List Call), steps maxw eolsOf x (c :: l) =
        (step maxw eolsOf x c).bind fun v => steps maxw eolsOf v l := fun _ _ => rfl
    rw [List.cons_append, e0, e0]
    cases step maxw eolsOf s c with
    | error _ => rfl
    | ok v => exact ih v

/-- **A long word overflows.**  Whatever else is shown, a word (or quoted text) of 511 characters or more is written
outside of `loj_text`. -/
theorem long_word_overflows {maxw : Int} {eolsOf : Nat → Nat} (pre post : List Call) {w : String}
    (hw : bufferSize ≤ w.toList.length + 1) :
    display maxw eolsOf (pre ++ .lojban w :: post) = .error .bounds := by
  have one : ∀ s : St, step maxw eolsOf s (.lojban w) = .error .bounds := by
    intro s
    have long : ∀ u : St, store ((clearEols u).loj ++ w.toList ++ [' ']) = .error .bounds := fun u => by
      unfold store; rw [if_neg (by simp; omega)]
    simp only [step, writeLojban]
    split
    · cases flushBlock maxw s with
      | error x => cases x; rfl
      | ok u => simp only [bind, Except.bind, long]
    · simp only [bind, Except.bind, long]
  unfold display
  rw [steps_append]
  cases e : steps maxw eolsOf initialise pre with
  | error x => cases x; rfl
  | ok u =>
    have : steps maxw eolsOf u (.lojban w :: post) = .error .bounds := by
      unfold steps; rw [one]; rfl
    simp only [Except.bind, this]
    rfl

/-! ## Examples -/

instance {α : Type} [DecidableEq α] : DecidableEq (M α)
  | .ok a, .ok b => if h : a = b then isTrue (by rw [h]) else isFalse fun e => h (by cases e; rfl)
  | .error .bounds, .error .bounds => isTrue rfl
  | .ok _, .error _ => isFalse fun e => by cases e
  | .error _, .ok _ => isFalse fun e => by cases e

/-- "[mi klama]" with a label for the first word. -/
def miKlama : List Call :=
  [.opened .square 1, .startTags, .startTag, .tagText "klama" "1" "go-er" true, .endTags, .lojban "mi", .translation "I",
   .eols 1, .lojban "klama", .translation "go-ing", .eols 2, .closed .square 1]

example : Ordered miKlama := .inl (by decide +kernel)

/-- The case meets `display_blocks` and `display_fits_partial`: four blocks in one row. -/
example : display 79 (fun _ => 0) miKlama = .ok [.lines
    "[ mi             klama  ] ".toList
    "[ I              go-ing ] ".toList
    ["[ klama1 (go-er)        ] ".toList, "1                       1 ".toList]] := by decide +kernel

/-- A narrow display has several rows. -/
example : (display 20 (fun _ => 0) miKlama).map List.length = .ok 2 := by decide +kernel

example : (segments [] miKlama).all (fun x => decide ((blockOf x).width < 512)) = true := by decide +kernel

/-- **Labels can be lost**: a closing bracket after labels without a text takes their place (`textblk.c:276`, an opening
bracket has the test for labels, `textblk.c:212`).  These calls are not in good order. -/
theorem labels_lost : display 79 (fun _ => 0)
    [.startTags, .startTag, .tagText "klama" "1" "go-er" true, .endTags, .closed .round 3] =
      .ok [.lines ") ".toList ") ".toList [") ".toList, "3 ".toList]] := by decide +kernel

/-- **A wide display overflows**: with `-w600`, ten words of sixty letters, all shorter than the buffers. -/
theorem wide_overflows : display 600 (fun _ => 0)
    ((List.replicate 10 [Call.lojban (String.ofList (List.replicate 60 'a')), .translation "x"]).flatten) = .error .bounds := by
  decide +kernel

/-- With the usual width they are shown. -/
example : (display 79 (fun _ => 0)
    ((List.replicate 10 [Call.lojban (String.ofList (List.replicate 60 'a')), .translation "x"]).flatten)).map List.length = .ok 10 := by
  decide +kernel

/-- **The end of a line is shown too early** after a word without gloss: the empty line comes before the block of the
word (`textblk.c:333-337` flushes the block only if there is English). -/
theorem gap_early : display 79 (fun w => w) [.lojban "a", .eols 1, .lojban "b", .translation "B"] =
    .ok [.gap, .lines "a b ".toList "B   ".toList []] := by decide +kernel

/-! ## The marks of brackets -/

/-- The mirror image of a character. -/
def mirrored : Char → Char
  | '(' => ')' | '[' => ']' | '{' => '}' | '<' => '>' | '/' => '\\' | '\\' => '/'
  | c => c

/-- The mirror image of a text, without blanks at the ends. -/
def mirror (t : String) : Text := (t.toList.filter (· ≠ ' ')).reverse.map mirrored

/-- **Closing brackets are mirror images.**  In each of the three lines the mark of a closing bracket is the mirror image
of the one that opens it. -/
theorem brackets_mirror (b : Br) : mirror (openText b).1 = (closeText b).1.toList.filter (· ≠ ' ') ∧
    mirror (openText b).2.1 = (closeText b).2.1.toList.filter (· ≠ ' ') ∧
    mirror (openText b).2.2 = (closeText b).2.2.toList.filter (· ≠ ' ') := by
  cases b <;> decide

/-- **Brackets can be told apart**: by their three lines, those of different kinds, and opening from closing ones. -/
theorem brackets_differ (b c : Br) : (openText b = openText c → b = c) ∧ (closeText b = closeText c → b = c) ∧
    (b ≠ .none → openText b ≠ closeText c) := by
  cases b <;> cases c <;> decide

/-- A gloss is in the English line as it is, with a blank after it; a label has its word, its place and its text. -/
theorem texts_kept (t : String) (ht : t.toList.head? ≠ some '$') (a b c : String) :
    engText t = t.toList ++ [' '] ∧ tagText a b c true = (a ++ b ++ " (" ++ c ++ ") ").toList ∧
      tagText a b c false = (a ++ b ++ " " ++ c ++ " ").toList := by
  refine ⟨by rw [engText, if_neg ht], ?_, ?_⟩ <;> simp [tagText]

example : "go".toList.head? ≠ some '$' ∧ tagText "klama" "1" "go-er" true = "klama1 (go-er) ".toList := by decide

/-! ## Ends of lines -/

/-- The breaks between rows: an empty line or a rule. -/
def breaks (gs : List Group) : List Group := gs.filter fun | .lines .. => false | _ => true

/-- Whether a call begins something new, before which a break is shown. -/
def begins : Call → Bool
  | .opened b _ => b ≠ .none
  | .lojban _ | .startTags => true
  | _ => false

/-- **Specification.**  One break for all ends of lines between two things: an empty line for one, a rule for more.  The number is that of
the ends of lines that are not shown yet. -/
def breaksFor (eolsOf : Nat → Nat) : Nat → List Call → List Group
  | _, [] => []
  | n, .eols w :: cs => breaksFor eolsOf (n + eolsOf w) cs
  | n, c :: cs => if begins c && 0 < n then (if 1 < n then .rule else .gap) :: breaksFor eolsOf 0 cs else breaksFor eolsOf n cs

theorem flushLine_breaks (s : St) : breaks (flushLine s).out = breaks s.out := by
  unfold flushLine
  split
  · rfl
  · simp [breaks, clearLine]

theorem bound {α β : Type} {m : M α} {f : α → M β} {b : β} (h : (m >>= f) = .ok b) : ∃ a, m = .ok a ∧ f a = .ok b := by
  cases m with
  | error e => cases h
  | ok a => exact ⟨a, rfl, h⟩

theorem flushBlock_breaks {maxw : Int} {s u : St} (h : flushBlock maxw s = .ok u) : breaks u.out = breaks s.out ∧ u.pending = s.pending := by
  unfold flushBlock at h
  split at h
  · cases h; exact ⟨rfl, rfl⟩
  · split at h
    · cases h
    · rw [putBlock] at h
      obtain ⟨a, _, h⟩ := bound h
      obtain ⟨b, _, h⟩ := bound h
      obtain ⟨c, _, h⟩ := bound h
      obtain ⟨d, _, h⟩ := bound h
      cases h
      simp only
      split
      · exact ⟨flushLine_breaks s, flushLine_pending s⟩
      · exact ⟨rfl, rfl⟩

theorem clearEols_breaks (s : St) : (clearEols s).pending = 0 ∧
    breaks (clearEols s).out = breaks s.out ++ (if 0 < s.pending then [if 1 < s.pending then .rule else .gap] else []) := by
  unfold clearEols
  split
  · refine ⟨rfl, ?_⟩
    have := flushLine_breaks s
    simp only [breaks, List.filter_append] at this ⊢
    rw [this]
    split <;> rfl
  · exact ⟨by omega, by simp⟩

/-- What a call does to the breaks. -/
theorem step_breaks {maxw : Int} {eolsOf : Nat → Nat} {s u : St} {c : Call} (h : step maxw eolsOf s c = .ok u) (cs : List Call) :
    breaks u.out ++ breaksFor eolsOf u.pending cs = breaks s.out ++ breaksFor eolsOf s.pending (c :: cs) := by
  have keep : ∀ {v : St}, breaks v.out = breaks s.out → v.pending = s.pending → begins c = false → (∀ w, c ≠ .eols w) →
      breaks v.out ++ breaksFor eolsOf v.pending cs = breaks s.out ++ breaksFor eolsOf s.pending (c :: cs) := by
    intro v h1 h2 h3 h4
    rw [h1, h2]
    cases c with
    | eols w => exact absurd rfl (h4 w)
    | _ => simp [breaksFor, h3]
  have clear : ∀ {v : St}, breaks v.out = breaks s.out → v.pending = s.pending → begins c = true → 
      breaks (clearEols v).out ++ breaksFor eolsOf (clearEols v).pending cs = breaks s.out ++ breaksFor eolsOf s.pending (c :: cs) := by
    intro v h1 h2 h3
    obtain ⟨e1, e2⟩ := clearEols_breaks v
    rw [e1, e2, h1, h2, List.append_assoc]
    congr 1
    have : breaksFor eolsOf s.pending (c :: cs) =
        if begins c && decide (0 < s.pending) then (if 1 < s.pending then .rule else .gap) :: breaksFor eolsOf 0 cs else breaksFor eolsOf s.pending cs := by
      cases c with
      | eols w => cases h3
      | _ => rfl
    rw [this, h3]
    by_cases hp : 0 < s.pending
    · simp [hp]
    · have : s.pending = 0 := by omega
      simp [this]
  cases c with
  | opened b n =>
    rw [step, writeOpen] at h
    split at h
    · rename_i hb
      cases h; exact keep rfl rfl (by simp [begins, hb]) nofun
    · rename_i hb
      obtain ⟨v, hv, rfl⟩ := map_ok h
      obtain ⟨h1, h2⟩ := flushBlock_breaks hv
      exact clear h1 h2 (by simp [begins, hb])
  | closed b n =>
    rw [step, writeClose] at h
    split at h
    · cases h; exact keep rfl rfl rfl nofun
    · obtain ⟨v, hv, rfl⟩ := map_ok h
      split at hv
      · obtain ⟨h1, h2⟩ := flushBlock_breaks hv
        exact keep (v := setBracket _ _ v) h1 h2 rfl nofun
      · cases hv; exact keep (v := setBracket _ _ s) rfl rfl rfl nofun
  | lojban t =>
    rw [step, writeLojban] at h
    split at h
    · obtain ⟨v, hv, h⟩ := bound h
      obtain ⟨x, _, h⟩ := bound h
      cases h
      obtain ⟨h1, h2⟩ := flushBlock_breaks hv
      exact clear h1 h2 rfl
    · obtain ⟨x, _, h⟩ := bound (m := store _) h
      cases h
      exact clear (v := s) rfl rfl rfl
  | translation t =>
    rw [step, writeTranslation] at h
    obtain ⟨v, hv, rfl⟩ := map_ok h
    exact keep (v := { s with eng := v }) rfl rfl rfl nofun
  | eols w => cases h; rfl
  | startTags =>
    rw [step, startTags] at h
    obtain ⟨v, hv, rfl⟩ := map_ok h
    split at hv
    · obtain ⟨h1, h2⟩ := flushBlock_breaks hv
      exact clear h1 h2 rfl
    · cases hv; exact clear rfl rfl rfl
  | endTags => cases h; exact keep rfl rfl rfl nofun
  | startTag => cases h; exact keep rfl rfl rfl nofun
  | tagText a b c d =>
    rw [step, putTag] at h
    split at h
    · obtain ⟨v, hv, rfl⟩ := map_ok h
      exact keep rfl rfl rfl nofun
    · cases h
  | tagPart t =>
    rw [step, putTag] at h
    split at h
    · obtain ⟨v, hv, rfl⟩ := map_ok h
      exact keep rfl rfl rfl nofun
    · cases h

/-- **Ends of lines of the text are shown once.**  Between two things there is one break for all ends of lines between them, a rule if there is more
than one, and nowhere else. -/
theorem breaks_shown (maxw : Int) (eolsOf : Nat → Nat) (cs : List Call) (out : List Group) (h : display maxw eolsOf cs = .ok out) :
    breaks out = breaksFor eolsOf 0 cs := by
  have go : ∀ (cs : List Call) (s u : St), steps maxw eolsOf s cs = .ok u → breaks u.out = breaks s.out ++ breaksFor eolsOf s.pending cs := by
    intro cs
    induction cs with
    | nil => intro s u h; cases h; simp [breaksFor]
    | cons c cs ih =>
      intro s u h
      rw [steps] at h
      obtain ⟨v, h1, h2⟩ := bound h
      rw [ih v u h2, step_breaks h1]
  rw [display] at h
  obtain ⟨s, h1, h⟩ := bound h
  obtain ⟨v, h2, h⟩ := bound h
  cases h
  obtain ⟨w, h3, rfl⟩ := map_ok h2
  rw [flushLine_breaks, (flushBlock_breaks h3).1, go cs _ _ h1]
  rfl

example : breaksFor (fun w => w) 0 [.lojban "a", .translation "A", .eols 2, .lojban "b", .translation "B", .eols 1, .closed .round 1, .lojban "c"] = [.rule, .gap] ∧
    (display 79 (fun w => w) [.lojban "a", .translation "A", .eols 2, .lojban "b", .translation "B", .eols 1, .closed .round 1, .lojban "c"]).map breaks =
      .ok [.rule, .gap] := by decide +kernel

end Jbo.TextBlk
