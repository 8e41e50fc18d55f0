import Verif.Dict
import Verif.DictSpec

/-! # Helper lemmas about the dictionary model -/

namespace Jbo.Dict
open Jbo DictSpec

/-! ## strcmp is a strict total order -/

theorem strcmp_self (a : Str) : strcmp a a = .eq := by
  induction a with
  | nil => rfl
  | cons x a ih => simp [strcmp, UInt8.lt_irrefl, ih]

theorem strcmp_eq {a b : Str} (h : strcmp a b = .eq) : a = b := by
  induction a generalizing b with
  | nil => cases b <;> simp [strcmp] at h; rfl
  | cons x a ih =>
    cases b with
    | nil => simp [strcmp] at h
    | cons y b =>
      simp only [strcmp] at h
      split at h
      · cases h
      · split at h
        · cases h
        · rename_i h1 h2
          have : x = y := UInt8.le_antisymm (UInt8.not_lt.1 h2) (UInt8.not_lt.1 h1)
          rw [this, ih h]

theorem strcmp_swap (a b : Str) : strcmp b a = (strcmp a b).swap := by
  induction a generalizing b with
  | nil => cases b <;> rfl
  | cons x a ih =>
    cases b with
    | nil => rfl
    | cons y b =>
      simp only [strcmp]
      by_cases h1 : x < y
      · have : ¬ y < x := fun h => UInt8.lt_irrefl x (UInt8.lt_trans h1 h)
        simp [h1, this]
      · by_cases h2 : y < x
        · simp [h1, h2]
        · simp [h1, h2, ih b]

theorem strcmp_trans {a b c : Str} (h1 : strcmp a b = .lt) (h2 : strcmp b c = .lt) :
    strcmp a c = .lt := by
  induction a generalizing b c with
  | nil =>
    cases b with
    | nil => simp [strcmp] at h1
    | cons y b => cases c with
      | nil => simp [strcmp] at h2
      | cons z c => rfl
  | cons x a ih =>
    cases b with
    | nil => simp [strcmp] at h1
    | cons y b =>
      cases c with
      | nil => simp [strcmp] at h2
      | cons z c =>
        simp only [strcmp] at h1 h2 ⊢
        by_cases hxy : x < y
        · by_cases hyz : y < z
          · simp [UInt8.lt_trans hxy hyz]
          · rw [if_neg hyz] at h2
            by_cases hzy : z < y
            · simp [hzy] at h2
            · have : y = z := UInt8.le_antisymm (UInt8.not_lt.1 hzy) (UInt8.not_lt.1 hyz)
              subst this; simp [hxy]
        · rw [if_neg hxy] at h1
          by_cases hyx : y < x
          · simp [hyx] at h1
          · rw [if_neg hyx] at h1
            have : x = y := UInt8.le_antisymm (UInt8.not_lt.1 hyx) (UInt8.not_lt.1 hxy)
            subst this
            by_cases hyz : x < z
            · simp [hyz]
            · rw [if_neg hyz] at h2 ⊢
              by_cases hzy : z < x
              · simp [hzy] at h2
              · rw [if_neg hzy] at h2 ⊢
                exact ih h1 h2

theorem strcmp_gt_iff (a b : Str) : strcmp a b = .gt ↔ strcmp b a = .lt := by
  rw [strcmp_swap a b]; cases strcmp a b <;> simp [Ordering.swap]

/-! ## Bisection -/

/-- On any table, an index is returned only where the comparison said "equal". -/
theorem bisect_sound (cmp : Nat → Except Crash Ordering) (l h m : Nat)
    (hr : bisect cmp l h = .ok (some m)) : cmp m = .ok .eq ∧ l ≤ m ∧ m < h := by
  induction hn : h - l using Nat.strongRecOn generalizing l h with
  | ind n ih =>
  unfold bisect at hr
  split at hr
  · rename_i hlt
    simp only at hr
    split at hr
    · cases hr
    · rename_i heq; injection hr with hr; injection hr with hr; subst hr
      exact ⟨heq, by omega, by omega⟩
    · split at hr
      · cases hr
      · split at hr
        · obtain ⟨a, b, c⟩ := ih ((h + l) / 2 - l) (by omega) _ _ hr rfl
          exact ⟨a, by omega, by omega⟩
        · obtain ⟨a, b, c⟩ := ih (h - (h + l) / 2) (by omega) _ _ hr rfl
          exact ⟨a, by omega, by omega⟩
  · cases hr

/-- If all comparisons inside the table succeed, the search returns. -/
theorem bisect_total (cmp : Nat → Except Crash Ordering) (l h : Nat)
    (hc : ∀ m, l ≤ m → m < h → ∃ r, cmp m = .ok r) : ∃ r, bisect cmp l h = .ok r := by
  induction hn : h - l using Nat.strongRecOn generalizing l h with
  | ind n ih =>
  unfold bisect
  split
  · rename_i hlt
    obtain ⟨r, hr⟩ := hc ((h + l) / 2) (by omega) (by omega)
    simp only [hr]
    cases r with
    | eq => exact ⟨_, rfl⟩
    | lt =>
      simp only
      split
      · exact ⟨_, rfl⟩
      · exact ih _ (by omega) _ _ (fun m h1 h2 => hc m h1 (by omega)) rfl
    | gt =>
      simp only
      split
      · exact ⟨_, rfl⟩
      · exact ih _ (by omega) _ _ (fun m h1 h2 => hc m (by omega) h2) rfl
  · exact ⟨_, rfl⟩

/-- If the comparison is monotone (`gt` below index `i`, `eq` at `i`, `lt` above), `i` is found. -/
theorem bisect_complete (cmp : Nat → Except Crash Ordering) (l h i : Nat)
    (hli : l ≤ i) (hih : i < h) (hi : cmp i = .ok .eq)
    (hlo : ∀ m, l ≤ m → m < i → cmp m = .ok .gt)
    (hhi : ∀ m, i < m → m < h → cmp m = .ok .lt) : bisect cmp l h = .ok (some i) := by
  induction hn : h - l using Nat.strongRecOn generalizing l h with
  | ind n ih =>
  unfold bisect
  rw [if_pos (by omega)]
  rcases Nat.lt_trichotomy ((h + l) / 2) i with hm | hm | hm
  · have hne : (h + l) / 2 ≠ l := by omega
    simp only [hlo _ (by omega) hm, if_neg hne]
    exact ih _ (by omega) _ _ (by omega) hih (fun m a b => hlo m (by omega) b)
      (fun m a b => hhi m a b) rfl
  · simp [hm, hi]
  · have hne : (h + l) / 2 ≠ l := by omega
    simp only [hhi _ hm (by omega), if_neg hne, if_true]
    exact ih _ (by omega) _ _ hli hm (fun m a b => hlo m a b)
      (fun m a b => hhi m a (by omega)) rfl

/-! ## Serialisation -/

theorem getLong_putLong (n : Nat) (r : List Byte) (h : n < 2 ^ 32) :
    getLong (putLong n ++ r) = some (n, r) := by
  simp only [putLong, getLong, List.cons_append, List.nil_append, Option.some.injEq, Prod.mk.injEq,
    and_true, UInt8.toNat_ofNat']
  omega

theorem getLens_lenTable (es : List (Str × Str)) (r : List Byte)
    (h : ∀ e ∈ es, e.1.length < 256 ∧ e.2.length < 256) :
    getLens es.length (lenTable es ++ r) =
      some (es.map (fun e => (e.1.length, e.2.length)), r) := by
  induction es with
  | nil => simp [getLens, lenTable]
  | cons e es ih =>
    have he := h e (by simp)
    simp only [List.length_cons, lenTable, List.cons_append, getLens,
      ih (fun e he => h e (by simp [he])), List.map_cons, putChar, UInt8.toNat_ofNat']
    rw [Nat.mod_eq_of_lt he.1, Nat.mod_eq_of_lt he.2]

theorem cstr_append (s : Str) (r : List Byte) (h : (0 : Byte) ∉ s) :
    cstr (s ++ 0 :: r) = some s := by
  induction s with
  | nil => simp [cstr]
  | cons c s ih =>
    have hc : c ≠ 0 := fun hc => h (by simp [hc])
    simp [cstr, hc, ih (fun hm => h (by simp [hm]))]

/-- Every entry is found through its pointers in the string area. -/
theorem offsets_area (pre : List Byte) (es : List (Str × Str)) (m : Nat) (k v : Str)
    (h : es[m]? = some (k, v)) (hf : ∀ e ∈ es, (0 : Byte) ∉ e.1 ∧ (0 : Byte) ∉ e.2) :
    ∃ p q, (offsets pre.length (es.map (fun e => (e.1.length, e.2.length))))[m]? = some (p, q) ∧
      cstr ((pre ++ blob es).drop p) = some k ∧ cstr ((pre ++ blob es).drop q) = some v := by
  induction es generalizing pre m with
  | nil => simp at h
  | cons e es ih =>
    obtain ⟨ek, ev⟩ := e
    cases m with
    | zero =>
      simp at h
      obtain ⟨rfl, rfl⟩ := h
      have h0 := hf (ek, ev) (by simp)
      refine ⟨pre.length, pre.length + ek.length + 1, by simp [offsets], ?_, ?_⟩
      · rw [List.drop_left]; exact cstr_append _ _ h0.1
      · have : pre ++ blob ((ek, ev) :: es) = (pre ++ ek ++ [0]) ++ (ev ++ 0 :: blob es) := by
          simp [blob]
        rw [this, List.drop_left' (by simp; omega)]
        exact cstr_append _ _ h0.2
    | succ m =>
      have := ih (pre ++ (ek ++ 0 :: (ev ++ [0]))) m (by simpa using h)
        (fun e he => hf e (by simp [he]))
      obtain ⟨p, q, h1, h2, h3⟩ := this
      have hb : pre ++ blob ((ek, ev) :: es) = (pre ++ (ek ++ 0 :: (ev ++ [0]))) ++ blob es := by
        simp [blob]
      have hlen : (pre ++ (ek ++ 0 :: (ev ++ [0]))).length =
          pre.length + ek.length + 1 + ev.length + 1 := by simp; omega
      rw [hlen] at h1
      exact ⟨p, q, by simpa [offsets] using h1, by rw [hb]; exact h2, by rw [hb]; exact h3⟩

theorem offsets_length (o : Nat) (ls : List (Nat × Nat)) : (offsets o ls).length = ls.length := by
  induction ls generalizing o with
  | nil => rfl
  | cons a ls ih => obtain ⟨a, b⟩ := a; simp [offsets, ih]

theorem load_eq {file r area : List Byte} {n : Nat} {ls : List (Nat × Nat)}
    (h1 : getLong file = some (n, r)) (h2 : getLens n r = some (ls, area)) :
    load file = some (Loaded.mk area (offsets 0 ls)) := by
  simp only [load, h1, h2]

theorem load_fileBytes (es : List (Str × Str)) (hn : es.length < 2 ^ 32)
    (h : ∀ e ∈ es, e.1.length < 256 ∧ e.2.length < 256) :
    load (fileBytes es) =
      some (Loaded.mk (blob es) (offsets 0 (es.map (fun e => (e.1.length, e.2.length))))) := by
  exact load_eq (getLong_putLong es.length (lenTable es ++ blob es) hn)
    (getLens_lenTable es (blob es) h)

/-- The in-memory comparison on a freshly written file. -/
theorem cmp_loaded (es : List (Str × Str)) (hf : ∀ e ∈ es, (0 : Byte) ∉ e.1 ∧ (0 : Byte) ∉ e.2)
    (key : Str) (m : Nat) (e : Str × Str) (he : es[m]? = some e) :
    Loaded.cmp 
      (Loaded.mk (blob es) (offsets 0 (es.map (fun e => (e.1.length, e.2.length))))) key m =
      .ok (strcmp key e.1) := by
  obtain ⟨p, q, h1, h2, _⟩ := offsets_area [] es m e.1 e.2 he hf
  simp only [List.length_nil, List.nil_append] at h1 h2
  simp [Loaded.cmp, h1, h2]

theorem lookup_loaded (es : List (Str × Str)) (hf : ∀ e ∈ es, (0 : Byte) ∉ e.1 ∧ (0 : Byte) ∉ e.2)
    (hs : es.Pairwise (fun a b => strcmp a.1 b.1 = .lt)) (key : Str) :
    Loaded.lookup 
      (Loaded.mk (blob es) (offsets 0 (es.map (fun e => (e.1.length, e.2.length))))) key =
      .ok ((es.find? (fun e => e.1 == key)).map (·.2)) := by
  generalize hd : (⟨blob es, offsets 0 (es.map (fun e => (e.1.length, e.2.length)))⟩ : Loaded) = d
  have hlen : d.ptrs.length = es.length := by rw [← hd]; simp [offsets_length]
  have hcmp : ∀ m e, es[m]? = some e → d.cmp key m = .ok (strcmp key e.1) := by
    intro m e he; rw [← hd]; exact cmp_loaded es hf key m e he
  cases hfnd : es.find? (fun e => e.1 == key) with
  | none =>
    have hnone : ∀ e ∈ es, e.1 ≠ key := by
      intro e he; simpa using List.find?_eq_none.1 hfnd e he
    have htot := bisect_total (d.cmp key) 0 d.ptrs.length (by
      intro m _ hm
      exact ⟨_, hcmp m es[m] (List.getElem?_eq_getElem (hlen ▸ hm))⟩)
    obtain ⟨r, hr⟩ := htot
    cases r with
    | none => simp [Loaded.lookup, hr]
    | some m =>
      obtain ⟨h1, _, h2⟩ := bisect_sound _ _ _ _ hr
      rw [hlen] at h2
      rw [hcmp m es[m] (List.getElem?_eq_getElem h2)] at h1
      injection h1 with h1
      exact absurd (strcmp_eq h1).symm (hnone _ (List.getElem_mem h2))
  | some e =>
    have he1 : e.1 = key := by simpa using List.find?_some hfnd
    obtain ⟨i, hi, hie⟩ := List.getElem_of_mem (List.mem_of_find?_eq_some hfnd)
    have hget : es[i]? = some e := by rw [List.getElem?_eq_getElem hi, hie]
    have hb := bisect_complete (d.cmp key) 0 d.ptrs.length i (by omega) (hlen ▸ hi)
      (by rw [hcmp i e hget, he1, strcmp_self])
      (by
        intro m _ hm
        rw [hcmp m es[m] (List.getElem?_eq_getElem (by omega))]
        have := (List.pairwise_iff_getElem.1 hs) m i (by omega) hi hm
        rw [hie, he1] at this
        rw [(strcmp_gt_iff _ _).2 this])
      (by
        intro m hm h2
        rw [hlen] at h2
        rw [hcmp m es[m] (List.getElem?_eq_getElem h2)]
        have := (List.pairwise_iff_getElem.1 hs) i m hi h2 hm
        rw [hie, he1] at this
        rw [this])
    obtain ⟨p, q, h1, _, h3⟩ := offsets_area [] es i e.1 e.2 hget hf
    simp only [List.length_nil, List.nil_append] at h1 h3
    have h1' : d.ptrs[i]? = some (p, q) := by rw [← hd]; exact h1
    have h3' : cstr (d.area.drop q) = some e.2 := by rw [← hd]; exact h3
    simp [Loaded.lookup, hb, h1', h3']

/-! ## Sorting, rationalising, compressing -/

theorem mem_rationaliseDown (R : List Trans)
    (hs : R.Pairwise (fun a b => sortComparison b a ≠ .gt))
    (hinj : ∀ a ∈ R, ∀ b ∈ R, a.ord = b.ord → a = b) (t : Trans) :
    (t ∈ rationaliseDown R ∧ t.action = .DEFINE) ↔
      (t ∈ R ∧ t.action = .DEFINE ∧ ∀ u ∈ R, u.key = t.key → u.ord ≤ t.ord) := by
  induction hn : R.length using Nat.strongRecOn generalizing R with
  | ind n ih =>
  cases R with
  | nil => simp [rationaliseDown]
  | cons t0 rest =>
    have hs0 : ∀ u ∈ rest, sortComparison u t0 ≠ .gt := (List.pairwise_cons.1 hs).1
    have hsr := (List.pairwise_cons.1 hs).2
    have hsplit := List.takeWhile_append_dropWhile (p := fun u : Trans => u.key == t0.key) (l := rest)
    generalize hg : rest.takeWhile (fun u : Trans => u.key == t0.key) = grp at hsplit
    generalize hd : rest.dropWhile (fun u : Trans => u.key == t0.key) = rest' at hsplit
    have hgrp : ∀ u ∈ grp, u.key = t0.key := by
      intro u hu; rw [← hg] at hu
      have : ∀ l : List Trans, ∀ u ∈ l.takeWhile (fun u : Trans => u.key == t0.key),
          u.key = t0.key := by
        intro l
        induction l with
        | nil => simp
        | cons a l ih =>
          intro u hu
          rw [List.takeWhile_cons] at hu
          split at hu
          · rename_i ha
            rcases List.mem_cons.1 hu with h | h
            · subst h; simpa using ha
            · exact ih u h
          · simp at hu
      exact this _ u hu
    have hrest' : ∀ u ∈ rest', u ∈ rest := by
      intro u hu; rw [← hsplit]; simp [hu]
    have hgrp' : ∀ u ∈ grp, u ∈ rest := by
      intro u hu; rw [← hsplit]; simp [hu]
    have hle : ∀ u ∈ rest, strcmp u.key t0.key ≠ .gt := by
      intro u hu h
      have := hs0 u hu
      simp [sortComparison, h] at this
    -- keys in rest' differ from t0.key
    have hneq : ∀ u ∈ rest', u.key ≠ t0.key := by
      intro u hu heq
      cases hrr : rest' with
      | nil => rw [hrr] at hu; simp at hu
      | cons x xs =>
        have hx : x.key ≠ t0.key := by
          have := List.head_dropWhile_not (p := fun u : Trans => u.key == t0.key) (l := rest)
            (by rw [hd, hrr]; simp)
          simp only [hd, hrr, List.head_cons] at this
          simpa using this
        rw [hrr] at hu
        rcases List.mem_cons.1 hu with h1 | h1
        · subst h1; exact hx heq
        · have hpw : rest'.Pairwise (fun a b => sortComparison b a ≠ .gt) := by
            rw [← hsplit] at hsr; exact (List.pairwise_append.1 hsr).2.1
          rw [hrr] at hpw
          have h2 := (List.pairwise_cons.1 hpw).1 u h1
          have h3 : strcmp x.key t0.key = .lt := by
            have := hle x (hrest' x (by rw [hrr]; simp))
            cases hc : strcmp x.key t0.key with
            | lt => rfl
            | eq => exact absurd (strcmp_eq hc) hx
            | gt => exact absurd hc this
          have h4 : strcmp u.key x.key = .gt := by
            rw [heq]; exact (strcmp_gt_iff _ _).2 h3
          simp [sortComparison, h4] at h2
    have hord : ∀ u ∈ grp, u.ord ≤ t0.ord := by
      intro u hu
      have := hs0 u (hgrp' u hu)
      rw [sortComparison, hgrp u hu, strcmp_self] at this
      simp only [ne_eq, Nat.compare_eq_gt] at this
      omega
    have hpw' : rest'.Pairwise (fun a b => sortComparison b a ≠ .gt) := by
      rw [← hsplit] at hsr; exact (List.pairwise_append.1 hsr).2.1
    have hl : rest'.length < n := by
      have : rest.length = grp.length + rest'.length := by rw [← hsplit]; simp
      simp at hn; omega
    have IH := ih rest'.length hl rest' hpw'
      (fun a ha b hb => hinj a (by simp [hrest' a ha]) b (by simp [hrest' b hb])) rfl
    rw [rationaliseDown, hg, hd]
    constructor
    · rintro ⟨hm, hdef⟩
      simp only [List.mem_cons, List.mem_append, List.mem_map] at hm
      rcases hm with h1 | ⟨u, hu, h2⟩ | h3
      · subst h1
        refine ⟨by simp, hdef, ?_⟩
        intro u hu hk
        rcases List.mem_cons.1 hu with h | h
        · subst h; exact Nat.le_refl _
        · rw [← hsplit] at h
          rcases List.mem_append.1 h with h | h
          · exact hord u h
          · exact absurd hk (hneq u h)
      · subst h2; simp at hdef
      · obtain ⟨h4, _, h5⟩ := IH.1 ⟨h3, hdef⟩
        refine ⟨by simp [hrest' t h4], hdef, ?_⟩
        intro u hu hk
        rcases List.mem_cons.1 hu with h | h
        · subst h; exact absurd hk.symm (hneq t h4)
        · rw [← hsplit] at h
          rcases List.mem_append.1 h with h | h
          · exact absurd (hk.symm.trans (hgrp u h)) (hneq t h4)
          · exact h5 u h hk
    · rintro ⟨hm, hdef, hmax⟩
      refine ⟨?_, hdef⟩
      rcases List.mem_cons.1 hm with h | h
      · subst h; simp
      · rw [← hsplit] at h
        rcases List.mem_append.1 h with h | h
        · have h1 := hmax t0 (by simp) (hgrp t h).symm
          have h2 := hord t h
          have := hinj t (by simp [hgrp' t h]) t0 (by simp) (by omega)
          subst this; simp
        · have := (IH.2 ⟨h, hdef, fun u hu hk => hmax u (by simp [hrest' u hu]) hk⟩).1
          simp [this]

/-- Keys of the kept definitions are strictly decreasing (array read downwards). -/
theorem rationaliseDown_sorted (R : List Trans)
    (hs : R.Pairwise (fun a b => sortComparison b a ≠ .gt)) :
    ((rationaliseDown R).filter (fun t => t.action == .DEFINE)).Pairwise
      (fun a b => strcmp b.key a.key = .lt) := by
  induction hn : R.length using Nat.strongRecOn generalizing R with
  | ind n ih =>
  cases R with
  | nil => simp [rationaliseDown]
  | cons t0 rest =>
    have hs0 : ∀ u ∈ rest, sortComparison u t0 ≠ .gt := (List.pairwise_cons.1 hs).1
    have hsr := (List.pairwise_cons.1 hs).2
    have hsplit := List.takeWhile_append_dropWhile (p := fun u : Trans => u.key == t0.key) (l := rest)
    rw [rationaliseDown]
    generalize hg : rest.takeWhile (fun u : Trans => u.key == t0.key) = grp at hsplit
    generalize hd : rest.dropWhile (fun u : Trans => u.key == t0.key) = rest' at hsplit
    have hfilt : (grp.map (fun u => { u with action := Action.ERASE })).filter
        (fun t => t.action == .DEFINE) = [] := by
      rw [List.filter_eq_nil_iff]; intro u hu
      simp only [List.mem_map] at hu
      obtain ⟨a, _, rfl⟩ := hu; simp
    have hpw' : rest'.Pairwise (fun a b => sortComparison b a ≠ .gt) := by
      rw [← hsplit] at hsr; exact (List.pairwise_append.1 hsr).2.1
    have hl : rest'.length < n := by
      have : rest.length = grp.length + rest'.length := by rw [← hsplit]; simp
      simp at hn; omega
    have IH := ih rest'.length hl rest' hpw' rfl
    have keys : ∀ (L : List Trans) (u : Trans), u ∈ rationaliseDown L → ∃ w ∈ L, w.key = u.key := by
      intro L
      induction hL : L.length using Nat.strongRecOn generalizing L with
      | ind k ihk =>
      intro u hu
      cases L with
      | nil => simp [rationaliseDown] at hu
      | cons a as =>
        rw [rationaliseDown] at hu
        simp only [List.mem_cons, List.mem_append, List.mem_map] at hu
        rcases hu with h | ⟨w, hw, h⟩ | h
        · exact ⟨a, by simp, by rw [h]⟩
        · exact ⟨w, by simp [(List.takeWhile_sublist _).subset hw], by rw [← h]⟩
        · have hlen := (List.dropWhile_suffix (p := fun u : Trans => u.key == a.key) (l := as)).length_le
          obtain ⟨w, hw, h2⟩ := ihk _ (by simp at hL; omega) _ rfl u h
          exact ⟨w, by simp [(List.dropWhile_sublist _).subset hw], h2⟩
    have hlt : ∀ u ∈ rest', strcmp u.key t0.key = .lt := by
      intro u hu
      have hle : ∀ u ∈ rest, strcmp u.key t0.key ≠ .gt := by
        intro u hu h
        have := hs0 u hu
        simp [sortComparison, h] at this
      have hmem : ∀ u ∈ rest', u ∈ rest := by intro u hu; rw [← hsplit]; simp [hu]
      cases hrr : rest' with
      | nil => rw [hrr] at hu; simp at hu
      | cons x xs =>
        have hx : x.key ≠ t0.key := by
          have := List.head_dropWhile_not (p := fun u : Trans => u.key == t0.key) (l := rest)
            (by rw [hd, hrr]; simp)
          simp only [hd, hrr, List.head_cons] at this
          simpa using this
        have h3 : strcmp x.key t0.key = .lt := by
          have := hle x (hmem x (by rw [hrr]; simp))
          cases hc : strcmp x.key t0.key with
          | lt => rfl
          | eq => exact absurd (strcmp_eq hc) hx
          | gt => exact absurd hc this
        rw [hrr] at hu hpw'
        rcases List.mem_cons.1 hu with h1 | h1
        · subst h1; exact h3
        · have h2 := (List.pairwise_cons.1 hpw').1 u h1
          cases hc : strcmp u.key x.key with
          | lt => exact strcmp_trans hc h3
          | eq => rw [strcmp_eq hc]; exact h3
          | gt => simp [sortComparison, hc] at h2
    have hrest : ∀ u ∈ (rationaliseDown rest').filter (fun t => t.action == .DEFINE),
        strcmp u.key t0.key = .lt := by
      intro u hu
      obtain ⟨w, hw, h2⟩ := keys rest' u (List.mem_filter.1 hu).1
      rw [← h2]; exact hlt w hw
    rw [List.filter_cons, List.filter_append, hfilt, List.nil_append]
    split
    · exact List.pairwise_cons.2 ⟨hrest, IH⟩
    · exact IH

theorem buildArray_append (i : Nat) (a b : List Op) :
    buildArray i (a ++ b) = buildArray i a ++ buildArray (i + a.length) b := by
  induction a generalizing i with
  | nil => simp [buildArray]
  | cons op a ih => simp [buildArray, ih]; congr 1; omega

theorem ord_bounds (i : Nat) (ops : List Op) : ∀ t ∈ buildArray i ops,
    i ≤ t.ord ∧ t.ord < i + ops.length := by
  induction ops generalizing i with
  | nil => simp [buildArray]
  | cons op ops ih =>
    intro t ht
    rcases List.mem_cons.1 ht with h | h
    · subst h; cases op <;> simp [Op.trans]
    · have := ih (i + 1) t h; simp; omega

theorem ord_inj (i : Nat) (ops : List Op) : ∀ a ∈ buildArray i ops, ∀ b ∈ buildArray i ops,
    a.ord = b.ord → a = b := by
  induction ops generalizing i with
  | nil => simp [buildArray]
  | cons op ops ih =>
    have h0 : (op.trans i).ord = i := by cases op <;> rfl
    intro a ha b hb hab
    rcases List.mem_cons.1 ha with h | h <;> rcases List.mem_cons.1 hb with h' | h'
    · rw [h, h']
    · have := ord_bounds (i + 1) ops b h'; rw [h, h0] at hab; omega
    · have := ord_bounds (i + 1) ops a h; rw [h', h0] at hab; omega
    · exact ih (i + 1) a h b h' hab

/-- The expected answer, in terms of ordinals. -/
theorem latest_iff (ops : List Op) (k v : Str) :
    latest ops k = some v ↔ ∃ t ∈ buildArray 0 ops, t.key = k ∧ t.action = .DEFINE ∧ t.val = v ∧
      ∀ u ∈ buildArray 0 ops, u.key = k → u.ord ≤ t.ord := by
  have snoc : ∀ (ops : List Op), latest ops k = some v ↔ ∃ t ∈ buildArray 0 ops, t.key = k ∧
      t.action = .DEFINE ∧ t.val = v ∧ ∀ u ∈ buildArray 0 ops, u.key = k → u.ord ≤ t.ord := by
    intro ops
    generalize hr : ops.reverse = r
    have ho : ops = r.reverse := by rw [← hr]; simp
    subst ho; clear hr
    induction r with
    | nil => simp [latest, buildArray]
    | cons op r ih =>
      simp only [List.reverse_cons, buildArray_append, buildArray, Nat.zero_add, List.length_reverse]
      have hkey : (op.trans r.length).key = keyOf op := by cases op <;> rfl
      have hordop : (op.trans r.length).ord = r.length := by cases op <;> rfl
      have hb := ord_bounds 0 r.reverse
      simp only [Nat.zero_add, List.length_reverse] at hb
      by_cases hk : keyOf op = k
      · have hl : latest (r.reverse ++ [op]) k =
            (match op with | .defn _ v => some v | _ => none) := by
          simp only [latest, List.reverse_append, List.reverse_reverse, List.reverse_cons,
            List.reverse_nil, List.nil_append, List.singleton_append, List.find?_cons]
          simp only [hk, beq_self_eq_true]
          cases op <;> rfl
        rw [hl]
        constructor
        · intro h
          refine ⟨op.trans r.length, by simp, by rw [hkey, hk], ?_, ?_, ?_⟩
          · cases op <;> simp_all [Op.trans]
          · cases op <;> simp_all [Op.trans]
          · intro u hu _
            rcases List.mem_append.1 hu with h | h
            · rw [hordop]; exact Nat.le_of_lt (hb u h).2
            · simp at h; rw [h]; exact Nat.le_refl _
        · rintro ⟨t, ht, h1, h2, h3, h4⟩
          rcases List.mem_append.1 ht with h | h
          · have := h4 (op.trans r.length) (by simp) (by rw [hkey, hk])
            rw [hordop] at this
            have := (hb t h).2
            omega
          · simp at h; subst h
            cases op with
            | defn k' v' => simp [Op.trans] at h3 ⊢; exact h3
            | del k' => simp [Op.trans] at h2
      · have hl : latest (r.reverse ++ [op]) k = latest r.reverse k := by
          simp only [latest, List.reverse_append, List.reverse_reverse, List.reverse_cons,
            List.reverse_nil, List.nil_append, List.singleton_append, List.find?_cons]
          have : (keyOf op == k) = false := by simpa using hk
          simp [this]
        rw [hl]
        refine Iff.trans ih ?_
        constructor
        · rintro ⟨t, ht, h1, h2, h3, h4⟩
          refine ⟨t, by simp [ht], h1, h2, h3, ?_⟩
          intro u hu huk
          rcases List.mem_append.1 hu with h | h
          · exact h4 u h huk
          · simp at h; subst h; rw [hkey] at huk; exact absurd huk hk
        · rintro ⟨t, ht, h1, h2, h3, h4⟩
          rcases List.mem_append.1 ht with h | h
          · exact ⟨t, h, h1, h2, h3, fun u hu => h4 u (by simp [hu])⟩
          · simp at h; subst h; rw [hkey] at h1; exact absurd h1 hk
  exact snoc ops

theorem mem_survivors (ops : List Op) (sorted : List Trans)
    (hq : QSorted (buildArray 0 ops) sorted) (k v : Str) :
    (k, v) ∈ survivors sorted ↔ latest ops k = some v := by
  obtain ⟨hp, hs⟩ := hq
  have hmem : ∀ t, t ∈ sorted ↔ t ∈ buildArray 0 ops := fun t => hp.mem_iff
  have hrev : sorted.reverse.Pairwise (fun a b => sortComparison b a ≠ .gt) := by
    rw [List.pairwise_reverse]; exact hs
  have key := mem_rationaliseDown sorted.reverse hrev (by
    intro a ha b hb
    exact ord_inj 0 ops a ((hmem a).1 (by simpa using ha)) b ((hmem b).1 (by simpa using hb)))
  rw [latest_iff]
  simp only [survivors, compress, rationalise, List.mem_map, List.mem_filter, List.mem_reverse,
    beq_iff_eq, Prod.mk.injEq]
  constructor
  · rintro ⟨t, ht, hk, hv⟩
    obtain ⟨h1, h2, h3⟩ := (key t).1 ht
    refine ⟨t, (hmem t).1 (by simpa using h1), hk, h2, hv, ?_⟩
    intro u hu huk
    exact h3 u (by simpa using (hmem u).2 hu) (by rw [huk, hk])
  · rintro ⟨t, ht, hk, hd, hv, hmax⟩
    refine ⟨t, (key t).2 ⟨by simpa using (hmem t).2 ht, hd, ?_⟩, hk, hv⟩
    intro u hu huk
    exact hmax u ((hmem u).1 (by simpa using hu)) (by rw [huk, hk])

theorem survivors_sorted (ops : List Op) (sorted : List Trans)
    (hq : QSorted (buildArray 0 ops) sorted) :
    (survivors sorted).Pairwise (fun a b => strcmp a.1 b.1 = .lt) := by
  obtain ⟨_, hs⟩ := hq
  have hrev : sorted.reverse.Pairwise (fun a b => sortComparison b a ≠ .gt) := by
    rw [List.pairwise_reverse]; exact hs
  have := rationaliseDown_sorted _ hrev
  rw [survivors, List.pairwise_map, compress, rationalise, List.filter_reverse, List.pairwise_reverse]
  exact this

theorem mem_latest (ops : List Op) (k v : Str) (h : latest ops k = some v) : Op.defn k v ∈ ops := by
  unfold latest at h
  split at h
  · rename_i k' v' hf
    injection h with h; subst h
    have h1 := List.mem_of_find?_eq_some hf
    have h2 := List.find?_some hf
    simp [keyOf] at h2; subst h2; simpa using h1
  · cases h

theorem find_survivors (ops : List Op) (sorted : List Trans)
    (hq : QSorted (buildArray 0 ops) sorted) (key : Str) :
    ((survivors sorted).find? (fun e => e.1 == key)).map (·.2) = latest ops key := by
  cases hf : (survivors sorted).find? (fun e => e.1 == key) with
  | none =>
    cases hl : latest ops key with
    | none => rfl
    | some v =>
      have := (mem_survivors ops sorted hq key v).2 hl
      have := List.find?_eq_none.1 hf _ this
      simp at this
  | some e =>
    have h1 := List.mem_of_find?_eq_some hf
    have h2 : e.1 = key := by simpa using List.find?_some hf
    have := (mem_survivors ops sorted hq key e.2).1 (by rw [← h2]; exact h1)
    simp [this]

theorem compress_length (ops : List Op) (sorted : List Trans)
    (hq : QSorted (buildArray 0 ops) sorted) : (survivors sorted).length ≤ ops.length := by
  have h1 : ∀ L : List Trans, (rationaliseDown L).length = L.length := by
    intro L
    induction hL : L.length using Nat.strongRecOn generalizing L with
    | ind k ihk =>
    cases L with
    | nil => simp [rationaliseDown] at hL ⊢; exact hL
    | cons a as =>
      have hlen := (List.dropWhile_suffix (p := fun u : Trans => u.key == a.key) (l := as)).length_le
      have hsplit := congrArg List.length
        (List.takeWhile_append_dropWhile (p := fun u : Trans => u.key == a.key) (l := as))
      have := ihk _ (by simp at hL; omega) (as.dropWhile (fun u : Trans => u.key == a.key)) rfl
      rw [rationaliseDown]
      simp only [List.length_append, List.length_cons, List.length_map] at hL hsplit ⊢; omega
  have h2 : ∀ (i : Nat) (ops : List Op), (buildArray i ops).length = ops.length := by
    intro i ops
    induction ops generalizing i with
    | nil => rfl
    | cons a ops ih => simp [buildArray, ih]
  have h3 := hq.1.length_eq
  rw [h2] at h3
  simp only [survivors, compress, rationalise, List.length_map]
  refine Nat.le_trans (List.length_filter_le _ _) ?_
  simp [h1, h3]

end Jbo.Dict
