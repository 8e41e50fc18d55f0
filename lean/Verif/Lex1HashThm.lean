import Verif.Lex1Spec
/-!
# Theorems about cmavo lookup (C19)
-/

namespace Jbo.Lex1

/-! ## The table -/

theorem cells_chars : ∀ e ∈ cmavoCells,
    e.word.all (fun c => cmavoChars.contains c) = true ∧ e.idx ≤ 1750 := by decide +kernel

/-- Every spelling in the table hashes to the cell that holds it (all 600 non-empty cells). -/
theorem cells_hash : ∀ e ∈ cmavoCells, hashCmavo e.word = .ok (e.idx : Int) := by decide +kernel

example : (⟨0 + 14, ['a'], .A, 14⟩ : CmavoCell) ∈ cmavoCells := by decide +kernel

/-- The `CM_*` code column agrees with the index in every cell but one. -/
theorem cells_code : ∀ e ∈ cmavoCells, e.code = e.idx ∨ e.word = "va'e".toList := by decide +kernel

/-- Defect (harmless for the readers of the column in `elide.c`): the cell of "va'e" carries the
code of "moi" (`cmavotab.c:1508`). -/
theorem vae_has_moi_code : ∃ e ∈ cmavoCells, e.word = "va'e".toList ∧ e.idx = 1493 ∧
    ∃ f ∈ cmavoCells, f.word = "moi".toList ∧ f.idx = 941 ∧ e.code = f.code := by
  refine ⟨⟨1493, "va'e".toList, .MOI, 941⟩, by decide +kernel, rfl, rfl,
    ⟨941, "moi".toList, .MOI, 941⟩, by decide +kernel, rfl, rfl, rfl⟩

/-- Indices strictly increase from `k` on. -/
def sortedFrom : Nat → List CmavoCell → Bool
  | _, [] => true
  | k, e :: es => decide (k ≤ e.idx) && sortedFrom (e.idx + 1) es

theorem sortedFrom_le {k : Nat} {l : List CmavoCell} (h : sortedFrom k l = true) :
    ∀ e ∈ l, k ≤ e.idx := by
  induction l generalizing k with
  | nil => intro e he; cases he
  | cons a l ih =>
    simp only [sortedFrom, Bool.and_eq_true, decide_eq_true_eq] at h
    intro e he
    rcases List.mem_cons.1 he with rfl | he
    · exact h.1
    · have := ih h.2 e he; omega

theorem sortedFrom_find {k : Nat} {l : List CmavoCell} (h : sortedFrom k l = true) :
    ∀ e ∈ l, l.find? (fun x => x.idx == e.idx) = some e := by
  induction l generalizing k with
  | nil => intro e he; cases he
  | cons a l ih =>
    simp only [sortedFrom, Bool.and_eq_true, decide_eq_true_eq] at h
    intro e he
    rcases List.mem_cons.1 he with rfl | he
    · simp
    · have := sortedFrom_le h.2 e he
      rw [List.find?_cons_of_neg (by simp; omega)]
      exact ih h.2 e he

theorem cells_sorted : sortedFrom 0 cmavoCells = true := by decide +kernel

theorem cellAt_idx {e : CmavoCell} (h : e ∈ cmavoCells) : cellAt e.idx = some e :=
  sortedFrom_find cells_sorted e h

theorem cellAt_mem {h : Nat} {e : CmavoCell} (he : cellAt h = some e) : e ∈ cmavoCells :=
  List.mem_of_find?_eq_some he

/-- Lookup is exact, for every string whatsoever: a cmavo token with selma'o `s` is produced if and
only if the table lists that very spelling with `s` (C19). -/
theorem lookup_iff (w : Word) (s : Sel) (l c : Nat) (st : LexState) :
    processCmavo w l c st = .ok (addTok st (.cmavo s w) l c) ↔
      ∃ e ∈ cmavoCells, e.word = w ∧ e.sel = s := by
  constructor
  · intro h
    have hne : ∀ st' : LexState, st'.toks = st.toks → st' ≠ addTok st (.cmavo s w) l c := by
      intro st' h1 h2
      have := congrArg (fun x => x.toks.length) h2
      simp [addTok, h1] at this
    have hg : addTok { st with bad := true } (.garbage w) l c ≠ addTok st (.cmavo s w) l c := by
      intro h2
      have := congrArg (fun x => x.toks) h2
      simp [addTok] at this
    unfold processCmavo at h
    split at h
    · cases hh : hashCmavo w with
      | error e => rw [hh] at h; cases h
      | ok v =>
        rw [hh] at h
        simp only [bind, Except.bind, pure, Except.pure] at h
        split at h
        · rename_i e he
          simp only [Except.ok.injEq] at h
          have h1 : e ∈ cmavoCells ∧ e.word = w := by
            revert he
            split
            · split
              · split
                · rename_i h3 h4
                  intro h5
                  cases h5
                  exact ⟨cellAt_mem h3, h4⟩
                · intro h5; cases h5
              · intro h5; cases h5
            · intro h5; cases h5
          have h2 := congrArg (fun x => x.toks) h
          simp [addTok] at h2
          exact ⟨e, h1.1, h1.2, h2.1⟩
        · simp only [Except.ok.injEq] at h
          exact absurd h hg
    · simp only [pure, Except.pure, Except.ok.injEq] at h
      exact absurd h (hne _ rfl)
  · rintro ⟨e, he, rfl, rfl⟩
    unfold processCmavo
    rw [if_pos (cells_chars e he).1, cells_hash e he]
    have h1 : (0 : Int) ≤ (e.idx : Int) ∧ (e.idx : Int) ≤ 1750 := by
      have := (cells_chars e he).2; omega
    simp only [bind, Except.bind, pure, Except.pure, h1, and_self, if_true, Int.toNat_natCast,
      cellAt_idx he]

example : processCmavo "klama".toList 1 1 LexState.init =
    .ok ⟨.idle, [⟨.garbage "klama".toList, 1, 1, 0⟩], true⟩ ∧
    processCmavo "mi".toList 1 1 LexState.init =
      .ok ⟨.idle, [⟨.cmavo .KOhA "mi".toList, 1, 1, 0⟩], false⟩ := by
  decide +kernel

/-- No spelling is listed twice. -/
theorem spelling_unique (e f : CmavoCell) (he : e ∈ cmavoCells) (hf : f ∈ cmavoCells)
    (h : e.word = f.word) : e = f := by
  have h1 := cells_hash e he
  rw [h, cells_hash f hf] at h1
  have h0 : (f.idx : Int) = (e.idx : Int) := Except.ok.inj h1
  have h2 : f.idx = e.idx := by omega
  have h3 := cellAt_idx hf
  rw [h2, cellAt_idx he] at h3
  exact Option.some.inj h3

example : ∃ e ∈ cmavoCells, ∃ f ∈ cmavoCells, e ≠ f :=
  ⟨⟨14, ['a'], .A, 14⟩, by decide +kernel, ⟨17, ['a', 'i'], .UI, 17⟩, by decide +kernel, by decide⟩

/-! ## The hash function on well-formed spellings -/

/-- The letters `consonant` digit, `vowel` digits and apostrophe back from a hash value. -/
def unhash (h : Int) : Word :=
  let h := h.toNat
  let cons := "?bcdfgjklmnprstvxz".toList
  let vow := "?aeiouy".toList
  let c := h / 98
  let v := h / 14 % 7
  let r := h % 14
  let rest : Word :=
    if r = 0 then [] else if r < 7 then [vow.getD r '?'] else ['\'', vow.getD (r - 7) '?']
  (if c = 0 then [] else [cons.getD c '?']) ++ vow.getD v '?' :: rest

/-- Everything after the vowel of a well-formed spelling. -/
def allRests : List Word :=
  [[]] ++ "aeiouy".toList.map (fun u => [u]) ++ "aeiouy".toList.map (fun u => ['\'', u])

theorem hash_all : ∀ c ∈ (none :: "bcdfgjklmnprstvxz".toList.map some : List (Option Char)),
    ∀ v ∈ "aeiouy".toList, ∀ r ∈ allRests,
    (match hashCmavo (c.toList ++ v :: r) with
     | .ok h => decide (0 ≤ h) && unhash h == c.toList ++ v :: r
     | .error _ => false) = true := by decide +kernel

theorem hash_wf {w : Word} (hw : CmavoForm w) : ∃ h, hashCmavo w = .ok h ∧ 0 ≤ h ∧ unhash h = w := by
  cases hw with
  | mk c v rest hc hv hr =>
    have h1 : c ∈ (none :: "bcdfgjklmnprstvxz".toList.map some : List (Option Char)) := by
      cases c with
      | none => simp
      | some x => exact List.mem_cons_of_mem _ (List.mem_map_of_mem (hc x rfl))
    have h2 : rest ∈ allRests := by
      unfold allRests
      rcases hr with rfl | ⟨u, hu, rfl | rfl⟩
      · simp
      · exact List.mem_append_left _ (List.mem_append_right _
          (List.mem_map_of_mem (f := fun u => [u]) hu))
      · exact List.mem_append_right _ (List.mem_map_of_mem (f := fun u => ['\'', u]) hu)
    have := hash_all c h1 v hv rest h2
    split at this
    · rename_i h hh
      simp only [Bool.and_eq_true, decide_eq_true_eq, beq_iff_eq] at this
      exact ⟨h, hh, this.1, this.2⟩
    · cases this

/-- Two well-formed spellings with the same hash value are the same spelling (C19). -/
theorem hash_injective {w w' : Word} (hw : CmavoForm w) (hw' : CmavoForm w')
    (h : hashCmavo w = hashCmavo w') : w = w' := by
  obtain ⟨a, h1, _, h2⟩ := hash_wf hw
  obtain ⟨b, h3, _, h4⟩ := hash_wf hw'
  rw [h1, h3] at h
  rw [← h2, ← h4, Except.ok.inj h]

example : CmavoForm "ba'o".toList :=
  .mk (some 'b') 'a' ['\'', 'o'] (by simp) (by decide) (.inr ⟨'o', by decide, .inr rfl⟩)

/-- Hashing a well-formed spelling never reads outside the letter tables. -/
theorem hash_safe {w : Word} (hw : CmavoForm w) : ∃ h, hashCmavo w = .ok h ∧ 0 ≤ h :=
  let ⟨h, h1, h2, _⟩ := hash_wf hw
  ⟨h, h1, h2⟩

example : hashCmavo "ba'o".toList = .ok 123 := by decide +kernel

/-- Defect: a lone consonant, or a trailing apostrophe, makes `hash_cmavo` index its table with the
terminating NUL (`lex1.c:78,90`). -/
theorem hash_reads_outside : hashCmavo ['b'] = .error .outOfBounds ∧
    hashCmavo ['a', '\''] = .error .outOfBounds ∧ hashCmavo [] = .error .outOfBounds := by
  decide +kernel

/-- Letters after the third vowel position do not influence the hash, so only the final string
comparison separates these (`lex1.c:89-92,129`). -/
theorem hash_ignores_tail (p : Word) (x : Word) (hp : p = "mi'o".toList) :
    hashCmavo (p ++ x) = hashCmavo p := by
  subst hp; rfl

example : hashCmavo "mi'oklama".toList = hashCmavo "mi'o".toList :=
  hash_ignores_tail _ "klama".toList rfl

end Jbo.Lex1
