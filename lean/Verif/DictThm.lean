import Verif.DictLemmas

/-! # Theorems about the dictionary (C01 - C04, C43) -/

namespace Jbo.Dict
open Jbo DictSpec

/-! ## Bisection (C03) -/

/-- **C03** On any loaded table, sorted or not: a returned value is stored under exactly the
requested key. -/
theorem lookup_sound (d : Loaded) (key s : Str) (h : d.lookup key = .ok (some s)) :
    ∃ m k v : Nat, d.ptrs[m]? = some (k, v) ∧ cstr (d.area.drop k) = some key ∧
      cstr (d.area.drop v) = some s := by
  unfold Loaded.lookup at h
  split at h
  · cases h
  · cases h
  · rename_i m hb
    obtain ⟨h1, _, _⟩ := bisect_sound _ _ _ _ hb
    split at h
    · cases h
    · rename_i kk v hp
      split at h
      · cases h
      · rename_i s' hs
        injection h with h; injection h with h; subst h
        unfold Loaded.cmp at h1
        rw [hp] at h1
        simp only at h1
        split at h1
        · cases h1
        · rename_i s2 hs2
          injection h1 with h1
          exact ⟨m, _, v, hp, by rw [hs2, strcmp_eq h1], hs⟩

/-- **C03** On a table whose strings are intact and whose keys are strictly increasing the
search always ends, finds every stored key with its value and reports every other key as
absent. -/
theorem lookup_exact (es : List (Str × Str)) (d : Loaded)
    (hlen : d.ptrs.length = es.length)
    (hstr : ∀ (m : Nat) (e : Str × Str), es[m]? = some e → ∃ k v : Nat, d.ptrs[m]? = some (k, v) ∧
      cstr (d.area.drop k) = some e.1 ∧ cstr (d.area.drop v) = some e.2)
    (hs : es.Pairwise (fun a b => strcmp a.1 b.1 = .lt)) (key : Str) :
    (∀ v, (key, v) ∈ es → d.lookup key = .ok (some v)) ∧
    ((∀ v, (key, v) ∉ es) → d.lookup key = .ok none) := by
  have hcmp : ∀ m e, es[m]? = some e → d.cmp key m = .ok (strcmp key e.1) := by
    intro m e he
    obtain ⟨k, v, h1, h2, _⟩ := hstr m e he
    simp [Loaded.cmp, h1, h2]
  constructor
  · intro v hv
    obtain ⟨i, hi, hie⟩ := List.getElem_of_mem hv
    have hget : es[i]? = some (key, v) := by rw [List.getElem?_eq_getElem hi, hie]
    have hb := bisect_complete (d.cmp key) 0 d.ptrs.length i (by omega) (hlen ▸ hi)
      (by rw [hcmp i _ hget, strcmp_self])
      (by
        intro m _ hm
        rw [hcmp m es[m] (List.getElem?_eq_getElem (by omega))]
        have := (List.pairwise_iff_getElem.1 hs) m i (by omega) hi hm
        rw [hie] at this
        rw [(strcmp_gt_iff _ _).2 this])
      (by
        intro m hm h2
        rw [hlen] at h2
        rw [hcmp m es[m] (List.getElem?_eq_getElem h2)]
        have := (List.pairwise_iff_getElem.1 hs) i m hi h2 hm
        rw [hie] at this
        rw [this])
    obtain ⟨p, q, h1, _, h3⟩ := hstr i _ hget
    simp [Loaded.lookup, hb, h1, h3]
  · intro hnone
    obtain ⟨r, hr⟩ := bisect_total (d.cmp key) 0 d.ptrs.length (by
      intro m _ hm
      exact ⟨_, hcmp m es[m] (List.getElem?_eq_getElem (hlen ▸ hm))⟩)
    cases r with
    | none => simp [Loaded.lookup, hr]
    | some m =>
      obtain ⟨h1, _, h2⟩ := bisect_sound _ _ _ _ hr
      rw [hlen] at h2
      rw [hcmp m es[m] (List.getElem?_eq_getElem h2)] at h1
      injection h1 with h1
      have := hnone es[m].2
      rw [strcmp_eq h1] at this
      exact absurd (List.getElem_mem h2) this

/-- A three-entry table meeting the hypotheses. -/
example : ∃ (es : List (Str × Str)) (d : Loaded), es.length = 3 ∧ d.ptrs.length = es.length ∧
    es.Pairwise (fun a b => strcmp a.1 b.1 = .lt) ∧ d.lookup [98] = .ok (some [2]) ∧
    d.lookup [97, 97] = .ok none :=
  ⟨[([97], [1]), ([98], [2]), ([99], [3])],
   ⟨blob [([97], [1]), ([98], [2]), ([99], [3])], offsets 0 [(1, 1), (1, 1), (1, 1)]⟩,
   rfl, rfl, by decide, by decide +kernel, by decide +kernel⟩

/-! ## Compile and look up (C01) -/

/-- `qsort` can meet its contract on every input. -/
theorem qsorted_exists (l : List Trans) : ∃ s, QSorted l s := by
  refine ⟨l.mergeSort (fun a b => decide (sortComparison a b ≠ .gt)), List.mergeSort_perm _ _, ?_⟩
  have := List.pairwise_mergeSort (le := fun a b : Trans => decide (sortComparison a b ≠ .gt)) ?_ ?_ l
  · simpa using this
  · intro a b c h1 h2
    simp only [ne_eq, decide_not, Bool.not_eq_true', decide_eq_false_iff_not] at h1 h2 ⊢
    unfold sortComparison at h1 h2 ⊢
    cases hab : strcmp a.key b.key <;> cases hbc : strcmp b.key c.key <;> simp only [hab, hbc] at h1 h2
    · simp [strcmp_trans hab hbc]
    · rw [← strcmp_eq hbc, hab]; simp
    · exact absurd trivial h2
    · rw [strcmp_eq hab, hbc]; simp
    · rw [strcmp_eq hab, hbc]
      simp only [Nat.compare_eq_gt] at h1 h2 ⊢
      omega
    · exact absurd trivial h2
    all_goals exact absurd trivial h1
  · intro a b
    simp only [ne_eq, decide_not, Bool.or_eq_true, Bool.not_eq_true', decide_eq_false_iff_not]
    unfold sortComparison
    rw [strcmp_swap a.key b.key]
    cases strcmp a.key b.key <;> simp [Nat.compare_eq_gt]
    omega

theorem survivors_fit (ops : List Op) (sorted : List Trans) (hq : QSorted (buildArray 0 ops) sorted)
    (hfit : ∀ op ∈ ops, OpFits op) : ∀ e ∈ survivors sorted, Fits e.1 ∧ Fits e.2 := by
  intro e he
  have := mem_latest ops e.1 e.2 ((mem_survivors ops sorted hq e.1 e.2).1 he)
  exact hfit _ this

/-- **C01** Compiling any history of definitions and deletions and looking a key up in the
resulting file gives the last surviving definition, for any behaviour of `qsort` allowed by
its contract. -/
theorem compile_lookup (ops : List Op) (sorted : List Trans)
    (hq : QSorted (buildArray 0 ops) sorted) (hfit : ∀ op ∈ ops, OpFits op)
    (hn : ops.length < 2 ^ 31) :
    ∃ file d, writeDatabase (survivors sorted) = .ok file ∧ load file = some d ∧
      ∀ key, d.lookup key = .ok (latest ops key) := by
  have hf := survivors_fit ops sorted hq hfit
  have hl := compress_length ops sorted hq
  refine ⟨fileBytes (survivors sorted), _, ?_, load_fileBytes _ ?_ ?_, ?_⟩
  · unfold writeDatabase
    rw [if_pos]
    rw [List.all_eq_true]
    intro e he
    have := hf e he
    simp [this.1.1, this.2.1]
  · have : (2:Nat) ^ 31 < 2 ^ 32 := by decide
    omega
  · intro e he; exact ⟨(hf e he).1.1, (hf e he).2.1⟩
  · intro key
    rw [lookup_loaded _ (fun e he => ⟨(hf e he).1.2, (hf e he).2.2⟩)
      (survivors_sorted ops sorted hq) key, find_survivors ops sorted hq key]

/-- Hypotheses are met by a history with an overridden and a deleted definition. -/
example : ∃ (ops : List Op) (sorted : List Trans), QSorted (buildArray 0 ops) sorted ∧
    (∀ op ∈ ops, OpFits op) ∧ ops.length < 2 ^ 31 ∧
    latest ops [97] = some [2] ∧ latest ops [98] = none := by
  obtain ⟨s, hs⟩ := qsorted_exists (buildArray 0
    [.defn [98] [9], .defn [97] [1], .del [98], .defn [97] [2]])
  refine ⟨_, s, hs, ?_, by decide, by decide, by decide⟩
  intro op hop
  simp only [List.mem_cons, List.not_mem_nil, or_false] at hop
  rcases hop with rfl | rfl | rfl | rfl <;> simp [OpFits, Fits]

theorem latest_append (a b : List Op) (k : Str) :
    latest (a ++ b) k = if (∃ op ∈ b, keyOf op = k) then latest b k else latest a k := by
  by_cases h : ∃ op ∈ b, keyOf op = k
  · rw [if_pos h]
    obtain ⟨op, h1, h2⟩ := h
    unfold latest
    rw [List.reverse_append, List.find?_append]
    cases hf : b.reverse.find? (fun op => keyOf op == k) with
    | none =>
      have := List.find?_eq_none.1 hf op (by simpa using h1)
      simp [h2] at this
    | some x => rfl
  · rw [if_neg h]
    have : b.reverse.find? (fun op => keyOf op == k) = none := by
      rw [List.find?_eq_none]
      intro x hx hk
      exact h ⟨x, by simpa using hx, by simpa using hk⟩
    unfold latest
    rw [List.reverse_append, List.find?_append, this]
    rfl

theorem readStrings_blob (es : List (Str × Str)) (h : ∀ e ∈ es, (0 : Byte) ∉ e.1 ∧ (0 : Byte) ∉ e.2) :
    readStrings (es.map (fun e => (e.1.length, e.2.length))) (blob es) = some es := by
  have nz : ∀ s : Str, (0 : Byte) ∉ s → s.takeWhile (· != 0) = s := by
    intro s hs
    induction s with
    | nil => rfl
    | cons c s ih =>
      have hc : (c != 0) = true := by simpa using fun h : c = 0 => hs (by simp [h])
      rw [List.takeWhile_cons, hc]
      simp [ih (fun hm => hs (by simp [hm]))]
  induction es with
  | nil => rfl
  | cons e es ih =>
    obtain ⟨k, v⟩ := e
    have he := h (k, v) (by simp)
    simp only [List.map_cons, readStrings, blob]
    have hlen : ¬ (k ++ 0 :: (v ++ 0 :: blob es)).length < k.length + 1 + (v.length + 1) := by
      simp; omega
    rw [if_neg hlen]
    have hd : (k ++ 0 :: (v ++ 0 :: blob es)).drop (k.length + 1 + (v.length + 1)) = blob es := by
      have : k ++ 0 :: (v ++ 0 :: blob es) = (k ++ 0 :: (v ++ [0])) ++ blob es := by simp
      rw [this, List.drop_left' (by simp; omega)]
    have hd2 : (k ++ 0 :: (v ++ 0 :: blob es)).drop (k.length + 1) = v ++ 0 :: blob es := by
      have : k ++ 0 :: (v ++ 0 :: blob es) = (k ++ [0]) ++ (v ++ 0 :: blob es) := by simp
      rw [this, List.drop_left' (by simp)]
    rw [hd, ih (fun e he => h e (by simp [he])), hd2]
    simp [nz k he.1, nz v he.2]

theorem readDatabase_eq {file r area : List Byte} {n : Nat} {ls : List (Nat × Nat)}
    {es : List (Str × Str)}
    (h1 : getLong file = some (n, r)) (h2 : getLens n r = some (ls, area))
    (h3 : readStrings ls area = some es) :
    readDatabase file = some (es.map fun e => Op.defn e.1 e.2) := by
  simp only [readDatabase, h1, h2, h3, Option.map_some]

theorem latest_defns (es : List (Str × Str)) (hs : es.Pairwise (fun a b => a.1 ≠ b.1)) (k v : Str) :
    latest (es.map fun e => Op.defn e.1 e.2) k = some v ↔ (k, v) ∈ es := by
  induction es with
  | nil => simp [latest]
  | cons e es ih =>
    have h1 := (List.pairwise_cons.1 hs).1
    have IH := ih (List.pairwise_cons.1 hs).2
    have : (e :: es).map (fun e => Op.defn e.1 e.2) =
        [Op.defn e.1 e.2] ++ es.map (fun e => Op.defn e.1 e.2) := by simp
    rw [this, latest_append]
    split
    · rename_i hm
      rw [IH]
      obtain ⟨op, hop, hk⟩ := hm
      simp only [List.mem_map] at hop
      obtain ⟨e', he', rfl⟩ := hop
      simp only [keyOf] at hk
      constructor
      · intro h; simp [h]
      · intro h
        rcases List.mem_cons.1 h with h | h
        · exact absurd (by rw [hk, ← h]) (h1 e' he')
        · exact h
    · rename_i hm
      have hn : (k, v) ∉ es := fun h => hm ⟨.defn k v, by simp only [List.mem_map]; exact ⟨_, h, rfl⟩, rfl⟩
      by_cases hk : e.1 = k
      · simp [latest, keyOf, hk, hn]
        constructor
        · intro h; rw [← hk, ← h]
        · intro h; rw [← h]
      · have : (e.1 == k) = false := by simpa using hk
        simp only [latest, List.reverse_cons, List.reverse_nil, List.nil_append, keyOf,
          List.find?_cons, this, List.find?_nil, reduceCtorEq, List.mem_cons, hn, or_false, false_iff]
        intro h; exact hk (by rw [← h])

/-- **C01** Re-running the compiler on top of an existing database file: the old file's
definitions count as the earlier part of the history. -/
theorem recompile_lookup (ops1 ops2 : List Op) (sorted1 : List Trans)
    (hq1 : QSorted (buildArray 0 ops1) sorted1)
    (hfit1 : ∀ op ∈ ops1, OpFits op) (hfit2 : ∀ op ∈ ops2, OpFits op)
    (hn : ops1.length + ops2.length < 2 ^ 31) :
    ∃ file old, writeDatabase (survivors sorted1) = .ok file ∧ readDatabase file = some old ∧
      ∀ sorted2, QSorted (buildArray 0 (old ++ ops2)) sorted2 →
        ∃ file2 d, writeDatabase (survivors sorted2) = .ok file2 ∧ load file2 = some d ∧
          ∀ key, d.lookup key = .ok (latest (ops1 ++ ops2) key) := by
  have hf := survivors_fit ops1 sorted1 hq1 hfit1
  have hl := compress_length ops1 sorted1 hq1
  have h31 : (2:Nat) ^ 31 < 2 ^ 32 := by decide
  refine ⟨fileBytes (survivors sorted1), (survivors sorted1).map fun e => Op.defn e.1 e.2, ?_, ?_, ?_⟩
  · unfold writeDatabase
    rw [if_pos]
    rw [List.all_eq_true]
    intro e he
    have := hf e he
    simp [this.1.1, this.2.1]
  · exact readDatabase_eq (getLong_putLong _ _ (by omega))
      (getLens_lenTable _ _ (fun e he => ⟨(hf e he).1.1, (hf e he).2.1⟩))
      (readStrings_blob _ (fun e he => ⟨(hf e he).1.2, (hf e he).2.2⟩))
  · intro sorted2 hq2
    obtain ⟨file2, d, h1, h2, h3⟩ := compile_lookup _ sorted2 hq2 (by
      intro op hop
      rcases List.mem_append.1 hop with h | h
      · simp only [List.mem_map] at h
        obtain ⟨e, he, rfl⟩ := h
        exact hf e he
      · exact hfit2 op h) (by simp; omega)
    refine ⟨file2, d, h1, h2, ?_⟩
    intro key
    rw [h3, latest_append, latest_append]
    split
    · rfl
    · congr 1
      have hpw : (survivors sorted1).Pairwise (fun a b => a.1 ≠ b.1) :=
        (survivors_sorted ops1 sorted1 hq1).imp (by
          intro a b h heq; rw [heq, strcmp_self] at h; cases h)
      apply Option.ext
      intro v
      rw [latest_defns _ hpw, mem_survivors ops1 sorted1 hq1]

/-! ## Non-interference (C02) -/

/-- **C02** (partial: strings of at most 255 bytes) Adding a definition of `k` anywhere in the
history changes no other word's lookup. -/
theorem noninterference_partial (a b : List Op) (k v : Str) (s1 s2 : List Trans)
    (hq1 : QSorted (buildArray 0 (a ++ b)) s1)
    (hq2 : QSorted (buildArray 0 (a ++ Op.defn k v :: b)) s2)
    (hfit : ∀ op ∈ a ++ Op.defn k v :: b, OpFits op) (hn : a.length + b.length + 1 < 2 ^ 31) :
    ∃ f1 f2 d1 d2, writeDatabase (survivors s1) = .ok f1 ∧ writeDatabase (survivors s2) = .ok f2 ∧
      load f1 = some d1 ∧ load f2 = some d2 ∧
      ∀ k', k' ≠ k → d1.lookup k' = d2.lookup k' := by
  obtain ⟨f1, d1, h1, h2, h3⟩ := compile_lookup _ s1 hq1
    (by
      intro op hop
      apply hfit
      rcases List.mem_append.1 hop with h | h
      · simp [h]
      · simp [h])
    (by simp; omega)
  obtain ⟨f2, d2, g1, g2, g3⟩ := compile_lookup _ s2 hq2 hfit (by simp; omega)
  refine ⟨f1, f2, d1, d2, h1, g1, h2, g2, ?_⟩
  intro k' hk
  rw [h3, g3]
  have hkk : (k == k') = false := by simpa using fun h : k = k' => hk h.symm
  congr 1
  unfold latest
  simp only [List.reverse_append, List.reverse_cons, List.append_assoc, List.find?_append,
    List.singleton_append, List.find?_cons, keyOf, hkk]

example : ∀ op ∈ ([.del [97]] ++ Op.defn [98] [1] :: [.defn [99] [2]] : List Op), OpFits op := by
  intro op hop
  simp only [List.mem_cons, List.mem_append, List.not_mem_nil, or_false] at hop
  rcases hop with rfl | rfl | rfl <;> simp [OpFits, Fits]

/-- **C02** (why only partial) A surviving entry of 256 bytes or more makes the compiler write
outside its histogram array. -/
theorem long_entry_overflows (es : List (Str × Str)) (e : Str × Str) (he : e ∈ es)
    (hlong : 256 ≤ e.1.length ∨ 256 ≤ e.2.length) :
    writeDatabase es = .error .outOfBounds := by
  unfold writeDatabase
  rw [if_neg]
  rw [List.all_eq_true]
  intro h
  have := h e he
  simp at this
  omega

/-- **C02** (why only partial) Even if that stray increment is harmless, the file written is
corrupt: a 256-byte value stored under `a` makes the stored word `b` disappear. -/
theorem long_value_hides_other_word :
    let es : List (Str × Str) := [([97], List.replicate 256 120), ([98], [121])]
    (load (fileBytes es)).map (fun d => d.lookup [98]) = some (.ok none) ∧
      latest (es.map fun e => Op.defn e.1 e.2) [98] = some [121] := by
  decide +kernel

/-! ## Place redefinition (C04) -/

theorem latest_snoc_del (ops post : List Op) (k : Str) (h : ∀ v, Op.defn k v ∉ post)
    (hdel : Op.del k ∈ ops) (hlast : ∀ a b v, ops = a ++ Op.defn k v :: b → Op.del k ∈ b) :
    latest (ops ++ post) k = none := by
  rw [latest_append]
  split
  · unfold latest
    split
    · rename_i k' v' hf
      have h1 := List.mem_of_find?_eq_some hf
      have h2 := List.find?_some hf
      simp [keyOf] at h2; subst h2
      exact absurd (by simpa using h1) (h v')
    · rfl
  · unfold latest
    split
    · rename_i k' v' hf
      have h2 := List.find?_some hf
      simp [keyOf] at h2; subst h2
      rw [List.find?_eq_some_iff_append] at hf
      obtain ⟨_, as, bs, h3, h4⟩ := hf
      have h5 : ops = bs.reverse ++ Op.defn k' v' :: as.reverse := by
        have := congrArg List.reverse h3
        simpa using this
      have := hlast _ _ _ h5
      have := h4 (.del k') (by simpa using this)
      simp [keyOf] at this
    · rfl

/-- The operations a place-defining line produces delete each refinement and never define it. -/
theorem handleMapping_refinements (canon : Str → Option Str) (K v : Str) (ops : List Op)
    (hd : K.getLast?.any isDigit = true) (h : handleMapping canon K v = .ok ops)
    (c : Byte) (hc : c = 0x6E ∨ c = 0x76 ∨ c = 0x61 ∨ c = 0x74) :
    Op.del (K ++ [c]) ∈ ops ∧ ∀ w, Op.defn (K ++ [c]) w ∉ ops := by
  unfold handleMapping at h
  cases hl : K.getLast? with
  | none => simp [hl] at hd
  | some last =>
    simp only [hl, Option.any_some] at hd h
    have hcd : isDigit c = false := by rcases hc with rfl | rfl | rfl | rfl <;> rfl
    have hne : ∀ s : Str, s ++ [last] ≠ K ++ [c] := by
      intro s hs
      have := (List.append_inj' hs rfl).2
      simp at this
      rw [this] at hd; simp [hd] at hcd
    have hne2 : K ≠ K ++ [c] := by intro h; have := congrArg List.length h; simp at this
    have hdel : Op.del (K ++ [c]) ∈ preen K := by
      rcases hc with rfl | rfl | rfl | rfl <;> simp [preen]
    simp only [hd, if_true, Bool.and_true] at h
    split at h
    · split at h
      · rename_i cc _
        injection h with h; subst h
        refine ⟨by simp [hdel], ?_⟩
        intro w hw
        simp only [List.mem_append, Op.defn.injEq, preen, List.mem_cons,
          List.not_mem_nil, or_false, reduceCtorEq, false_or] at hw
        rcases hw with h | h
        · exact hne2 h.1.symm
        · exact hne _ h.1.symm
      · injection h with h; subst h
        refine ⟨by simp [hdel], ?_⟩
        intro w hw
        simp [preen] at hw
    · injection h with h; subst h
      refine ⟨by simp [hdel], ?_⟩
      intro w hw
      simp [preen] at hw

/-- **C04** After a line defining place `K`, none of `K`n, `K`v, `K`a, `K`t can be looked up,
unless a later line defines it again; whatever came before, and whatever `canon_lujvo` does. -/
theorem place_drops_refinements (canon : Str → Option Str) (pre line post : List Op) (K v : Str)
    (hd : K.getLast?.any isDigit = true) (hline : handleMapping canon K v = .ok line)
    (c : Byte) (hc : c = 0x6E ∨ c = 0x76 ∨ c = 0x61 ∨ c = 0x74)
    (hpost : ∀ w, Op.defn (K ++ [c]) w ∉ post)
    (sorted : List Trans) (hq : QSorted (buildArray 0 (pre ++ line ++ post)) sorted)
    (hfit : ∀ op ∈ pre ++ line ++ post, OpFits op) (hn : (pre ++ line ++ post).length < 2 ^ 31) :
    ∃ file d, writeDatabase (survivors sorted) = .ok file ∧ load file = some d ∧
      d.lookup (K ++ [c]) = .ok none := by
  obtain ⟨file, d, h1, h2, h3⟩ := compile_lookup _ sorted hq hfit hn
  refine ⟨file, d, h1, h2, ?_⟩
  rw [h3]
  congr 1
  obtain ⟨hdel, hnodef⟩ := handleMapping_refinements canon K v line hd hline c hc
  apply latest_snoc_del _ _ _ hpost (by simp [hdel])
  intro a b w hab
  rcases List.append_eq_append_iff.1 hab with ⟨m, hm1, hm2⟩ | ⟨m, hm1, hm2⟩
  · exact absurd (by rw [hm2]; simp) (hnodef w)
  · cases m with
    | nil =>
      simp only [List.nil_append] at hm2
      exact absurd (by rw [← hm2]; simp) (hnodef w)
    | cons x m =>
      simp only [List.cons_append, List.cons.injEq] at hm2
      rw [hm2.2]; simp [hdel]

/-- A line meeting the hypotheses, for a key with a canonical form. -/
example : ∃ line, handleMapping (fun _ => some [115, 43]) [115, 111, 105, 114, 115, 97, 49] [7] =
    .ok line ∧ line.length = 10 := ⟨_, rfl, rfl⟩

/-- **C04** The place itself is defined by the line, unless a later line touches it (or its
canonical form is spelled exactly like the key). -/
theorem place_defined (canon : Str → Option Str) (pre line post : List Op) (K v : Str)
    (hline : handleMapping canon K v = .ok line)
    (hcan : ∀ b c l, canon b = some c → c ++ [l] ≠ K)
    (hpost : ∀ op ∈ post, keyOf op ≠ K) : latest (pre ++ line ++ post) K = some v := by
  rw [latest_append, if_neg (by rintro ⟨op, h1, h2⟩; exact hpost op h1 h2)]
  have key : ∃ l1 l2, line = l1 ++ Op.defn K v :: l2 ∧ ∀ op ∈ l2, keyOf op ≠ K := by
    unfold handleMapping at hline
    cases hl : K.getLast? with
    | none => simp [hl] at hline
    | some last =>
      simp only [hl] at hline
      split at hline
      · rename_i hcond
        split at hline
        · rename_i cc hcc
          injection hline with h
          refine ⟨if isDigit last = true then preen K else [],
            preen (cc ++ [last]) ++ [Op.defn (cc ++ [last]) (0x40 :: K)], by
            rw [← h]; simp, ?_⟩
          have hdig : isDigit last = true := by
            simp only [Bool.and_eq_true] at hcond; exact hcond.2
          have hne : ∀ c : Byte, isDigit c = false → (cc ++ [last]) ++ [c] ≠ K := by
            intro c hc hK
            rw [← hK] at hl
            simp at hl
            rw [← hl] at hdig
            rw [hdig] at hc; cases hc
          intro op hop
          simp only [preen, List.mem_append, List.mem_cons, List.not_mem_nil, or_false] at hop
          rcases hop with (rfl | rfl | rfl | rfl) | rfl <;> simp only [keyOf]
          · exact hne _ rfl
          · exact hne _ rfl
          · exact hne _ rfl
          · exact hne _ rfl
          · exact hcan _ _ _ hcc
        · injection hline with h
          exact ⟨_, [], by rw [← h], by simp⟩
      · injection hline with h
        exact ⟨_, [], by rw [← h], by simp⟩
  obtain ⟨l1, l2, h1, h2⟩ := key
  rw [h1, ← List.append_assoc]
  have : pre ++ l1 ++ Op.defn K v :: l2 = (pre ++ l1 ++ [Op.defn K v]) ++ l2 := by simp
  rw [this, latest_append, if_neg (by rintro ⟨op, h3, h4⟩; exact h2 op h3 h4), latest_append,
    if_pos ⟨Op.defn K v, by simp, rfl⟩]
  simp [latest, keyOf]

/-! ## Source lines (C43) -/

/-- What makes a line `src:dest` (or `src:dest:comment`, `tail` being `:comment`) plain: no
separators or control bytes in the wrong place. -/
structure PlainLine (src dest tail : Str) : Prop where
  src_ne : src ≠ []
  src_head : ∀ c, src.head? = some c → isSpace c = false ∧ c ≠ 0x23 ∧ c ≠ 0x21 ∧ c ≠ 0x3B
  src_ok : ∀ c ∈ src, c ≠ 0 ∧ c ≠ 0x0A ∧ c ≠ 0x3A
  dest_ok : ∀ c ∈ dest, c ≠ 0 ∧ c ≠ 0x0A ∧ c ≠ 0x3A
  tail_head : ∀ c, tail.head? = some c → c = 0x3A
  tail_ok : ∀ c ∈ tail, c ≠ 0 ∧ c ≠ 0x0A
  short : src.length + dest.length + tail.length + 2 ≤ 65535

theorem fgets_line (n : Nat) (l r : List Byte) (h : ∀ c ∈ l, c ≠ 0x0A) (hn : l.length < n) :
    fgets n (l ++ 0x0A :: r) = (l ++ [0x0A], r) := by
  induction l generalizing n with
  | nil => cases n with
    | zero => simp at hn
    | succ n => simp [fgets]
  | cons c l ih => cases n with
    | zero => simp at hn
    | succ n =>
      have hc := h c (by simp)
      simp [fgets, hc, ih n (fun c hc => h c (by simp [hc])) (by simp at hn; omega)]

theorem takeWhile_all {p : Byte → Bool} (l r : List Byte) (h : ∀ c ∈ l, p c = true) :
    (l ++ r).takeWhile p = l ++ r.takeWhile p := by
  induction l with
  | nil => simp
  | cons c l ih => simp [h c (by simp), ih (fun c hc => h c (by simp [hc]))]

theorem dropWhile_all {p : Byte → Bool} (l r : List Byte) (h : ∀ c ∈ l, p c = true) :
    (l ++ r).dropWhile p = r.dropWhile p := by
  induction l with
  | nil => simp
  | cons c l ih => simp [h c (by simp), ih (fun c hc => h c (by simp [hc]))]

theorem splitLine_plain (src dest tail : Str) (h : PlainLine src dest tail) (x : Byte) :
    splitLine (src ++ 0x3A :: (dest ++ tail) ++ [x]) = some (src, dest) := by
  have hdl : (src ++ 0x3A :: (dest ++ tail) ++ [x]).dropLast = src ++ 0x3A :: (dest ++ tail) := by
    rw [List.dropLast_concat]
  cases hs : src with
  | nil => exact absurd hs h.src_ne
  | cons c s =>
    have hh := h.src_head c (by rw [hs]; rfl)
    have hsp : (c :: s ++ 0x3A :: (dest ++ tail)).dropWhile isSpace =
        c :: s ++ 0x3A :: (dest ++ tail) := by
      simp [hh.1]
    have hcol : ∀ b ∈ c :: s, (b != 0x3A) = true := by
      intro b hb; rw [← hs] at hb; simpa using (h.src_ok b hb).2.2
    have hcold : ∀ b ∈ dest, (b != 0x3A) = true := by
      intro b hb; simpa using (h.dest_ok b hb).2.2
    unfold splitLine
    rw [hs] at hdl
    rw [hdl, hsp]
    have e1 : (c :: s ++ 0x3A :: (dest ++ tail)).dropWhile (· != 0x3A) = 0x3A :: (dest ++ tail) := by
      rw [dropWhile_all _ _ hcol]; simp
    have e2 : (c :: s ++ 0x3A :: (dest ++ tail)).takeWhile (· != 0x3A) = c :: s := by
      rw [takeWhile_all _ _ hcol]; simp
    have e3 : (dest ++ tail).takeWhile (· != 0x3A) = dest := by
      rw [takeWhile_all dest tail hcold]
      cases ht : tail with
      | nil => simp
      | cons b t =>
        have := h.tail_head b (by rw [ht]; rfl)
        simp [this]
    simp only [e1, e2, e3]
    simp [hh.2]

/-- **C43** A plain line of a source file, ended by a newline, is turned into exactly the
operations of its mapping (a comment field is dropped); the rest of the file is processed
independently. -/
theorem doFile_line (canon : Str → Option Str) (src dest tail : Str) (rest : List Byte)
    (h : PlainLine src dest tail) :
    doFile canon (src ++ 0x3A :: (dest ++ tail) ++ 0x0A :: rest) =
      match handleMapping canon src dest with
      | .error e => .error e
      | .ok ops =>
        match doFile canon rest with
        | .error e => .error e
        | .ok more => .ok (ops ++ more) := by
  have hall : ∀ c ∈ src ++ 0x3A :: (dest ++ tail), c ≠ 0 ∧ c ≠ 0x0A := by
    intro c hc
    simp only [List.mem_append, List.mem_cons] at hc
    rcases hc with hc | rfl | hc | hc
    · exact ⟨(h.src_ok c hc).1, (h.src_ok c hc).2.1⟩
    · decide
    · exact ⟨(h.dest_ok c hc).1, (h.dest_ok c hc).2.1⟩
    · exact h.tail_ok c hc
  have hf := fgets_line 65535 (src ++ 0x3A :: (dest ++ tail)) rest (fun c hc => (hall c hc).2) (by
    have := h.short; simp only [List.length_append, List.length_cons]; omega)
  rw [doFile, hf]
  have hnz : (src ++ 0x3A :: (dest ++ tail) ++ [0x0A] : List Byte).takeWhile (· != 0) =
      src ++ 0x3A :: (dest ++ tail) ++ [0x0A] := by
    have : ∀ c ∈ (src ++ 0x3A :: (dest ++ tail) ++ [0x0A] : List Byte), (c != 0) = true := by
      intro c hc
      rcases List.mem_append.1 hc with hc | hc
      · simpa using (hall c hc).1
      · simp at hc; subst hc; rfl
    have := takeWhile_all _ [] this
    simpa using this
  simp only [hnz]
  rw [splitLine_plain src dest tail h]
  simp only [List.append_eq_nil_iff, reduceCtorEq, and_false, if_false]
  cases handleMapping canon src dest with
  | error e => rfl
  | ok ops => cases doFile canon rest <;> rfl

example : PlainLine [97, 49] [120, 32, 121] [58, 122] :=
  ⟨by simp, by intro c hc; simp at hc; subst hc; decide, by decide, by decide,
    by intro c hc; simp at hc; exact hc.symm, by decide, by decide⟩

/-- **C43** Blank lines and lines whose first non-blank byte is `#`, `!` or `;` contribute
nothing. -/
theorem doFile_comment (canon : Str → Option Str) (blanks body : Str) (rest : List Byte)
    (hb : ∀ c ∈ blanks, isSpace c = true ∧ c ≠ 0x0A)
    (hbody : body = [] ∨ ∃ c t, body = c :: t ∧ (c = 0x23 ∨ c = 0x21 ∨ c = 0x3B))
    (hok : ∀ c ∈ body, c ≠ 0 ∧ c ≠ 0x0A) (hlen : blanks.length + body.length < 65535) :
    doFile canon (blanks ++ body ++ 0x0A :: rest) = doFile canon rest := by
  have hall : ∀ c ∈ blanks ++ body, c ≠ 0 ∧ c ≠ 0x0A := by
    intro c hc
    rcases List.mem_append.1 hc with hc | hc
    · refine ⟨?_, (hb c hc).2⟩
      rintro rfl
      have := (hb 0 hc).1
      revert this; decide
    · exact hok c hc
  have hf := fgets_line 65535 (blanks ++ body) rest (fun c hc => (hall c hc).2)
    (by simp only [List.length_append]; omega)
  rw [doFile, hf]
  have hnz : (blanks ++ body ++ [0x0A] : List Byte).takeWhile (· != 0) = blanks ++ body ++ [0x0A] := by
    have : ∀ c ∈ (blanks ++ body ++ [0x0A] : List Byte), (c != 0) = true := by
      intro c hc
      rcases List.mem_append.1 hc with hc | hc
      · simpa using (hall c hc).1
      · simp at hc; subst hc; rfl
    have := takeWhile_all _ [] this
    simpa using this
  have hsl : splitLine (blanks ++ body ++ [0x0A]) = none := by
    unfold splitLine
    rw [List.dropLast_concat, dropWhile_all blanks body (fun c hc => (hb c hc).1)]
    rcases hbody with rfl | ⟨c, t, rfl, hc⟩
    · simp
    · have hns : isSpace c = false := by rcases hc with rfl | rfl | rfl <;> rfl
      have : (c :: t).dropWhile isSpace = c :: t := by simp [hns]
      rw [this]
      rcases hc with rfl | rfl | rfl <;> simp
  simp only [hnz, hsl]
  simp only [List.append_eq_nil_iff, reduceCtorEq, and_false, if_false]
  cases doFile canon rest <;> rfl

/-- **C43** (the claim needs the final newline) Without it the last byte of the definition is
lost: `ab:cd` defines `ab` as `c`. -/
theorem doFile_unterminated_truncates (canon : Str → Option Str) :
    doFile canon [97, 98, 58, 99, 100] = .ok [.defn [97, 98] [99]] := by
  have h : fgets 65535 [97, 98, 58, 99, 100] = ([97, 98, 58, 99, 100], []) := by
    simp [fgets]
  have h0 : doFile canon [] = .ok [] := by
    rw [doFile]; simp [fgets]
  rw [doFile, h]
  simp only [h0]
  rfl

end Jbo.Dict
