import Verif.CanonTab
import Verif.MkDictThm
/-!
# The table of rafsi and the dictionary agree
-/

namespace Jbo.CanonTab
open Jbo Dict Embed MkDict

theorem squashSp_eq (s : Str) (h : 0x09 ∉ s) : squashSp s = squash s := by
  have hb : ∀ c ∈ s, blank c = decide (c = 0x20) := by
    intro c hc
    have : c ≠ 0x09 := fun e => h (e ▸ hc)
    by_cases hs : c = 0x20
    · rw [hs]; rfl
    · rw [blank_false ⟨hs, this⟩]; simp [hs]
  clear h
  induction s with
  | nil => rfl
  | cons c r ih =>
    have ih := ih (fun d hd => hb d (List.mem_cons_of_mem _ hd))
    have hc := hb c List.mem_cons_self
    conv => lhs; unfold squashSp
    conv => rhs; unfold squash
    rw [hc, ih]
    cases r with
    | nil => simp
    | cons d r =>
      have hd := hb d (by simp)
      simp [hd]

/-- The assignments that stand for a gismu. -/
def rpairs (g : Gismu) : List (Str × Str) :=
  g.rafsi.map (fun r => (r, g.word)) ++ (if g.word.length = 5 then [(g.word.take 4, g.word)] else [])

theorem assigned_line (g : Gismu) (l : Str) (hg : g.Good) (h : Laid g l) (ht : 0x09 ∉ l) (h5 : g.word.length ≤ 5) :
    assigned l = rpairs g := by
  obtain ⟨pad, area, x, sp, rest, e, hp, h6, ha, h12, hsp, h20, hrest⟩ := h
  have e0 : substr l 0 5 = g.word ++ pad.take (5 - g.word.length) := by
    rw [e, substr, List.drop_zero, List.append_assoc, List.append_assoc, List.take_append,
      List.take_of_length_le h5, List.take_append_of_le_length (by rw [List.length_append] at h6; omega)]
  have e1 : substr l 6 12 = area := by
    rw [e, substr, List.append_assoc (g.word ++ pad), List.drop_left' h6]
    exact List.take_left' h12
  have tab : ∀ c ∈ l, c ≠ 0x09 := fun c hc e => ht (e ▸ hc)
  have hpad : ∀ c ∈ pad.take (5 - g.word.length), c = 0x20 := by
    intro c hc
    have hc := List.mem_of_mem_take hc
    exact (hp c hc).resolve_right (tab c (by rw [e]; simp [hc]))
  have harea : (0x09 : Byte) ∉ area := fun hm => tab _ (by rw [e]; simp [hm]) rfl
  have hw : trimSp (g.word ++ pad.take (5 - g.word.length)) = g.word := by
    refine drop_tail _ _ _ (fun c hc => by simp [hpad c hc]) ?_
    intro c hc
    have := hg.word_ok.1 c (List.mem_of_getLast? hc)
    simpa using this.1
  simp only [assigned, e0, e1, hw, squashSp_eq area harea, rafsi_spaced ha, rpairs]
  rfl

theorem assigned_lines {gs : List Gismu} {gl : List Str} (h : Listed gs gl) (ht : ∀ l ∈ gl, 0x09 ∉ l)
    (h5 : ∀ g ∈ gs, g.word.length ≤ 5) : gl.flatMap assigned = gs.flatMap rpairs := by
  induction h with
  | nil => rfl
  | cons h _ ih =>
    rw [List.flatMap_cons, List.flatMap_cons, ih (fun l hl => ht l (List.mem_cons_of_mem _ hl))
      (fun g hg => h5 g (List.mem_cons_of_mem _ hg)),
      assigned_line _ _ h.1 h.2 (ht _ List.mem_cons_self) (h5 _ List.mem_cons_self)]

theorem foldl_sorted (ps : List (Str × Str)) (d : List (Str × Str)) (h : Sorted d) :
    Sorted (ps.foldl (fun d p => Embed.insert p.1 p.2 d) d) := by
  induction ps generalizing d with
  | nil => exact h
  | cons p ps ih => exact ih _ (insert_sorted _ _ _ h)

theorem foldl_find (ps : List (Str × Str)) (d : List (Str × Str)) (key : Str) :
    (ps.foldl (fun d p => Embed.insert p.1 p.2 d) d).find? (fun e => e.1 == key) =
      (ps.reverse.find? (fun e => e.1 == key)).or (d.find? (fun e => e.1 == key)) := by
  induction ps generalizing d with
  | nil => rfl
  | cons p ps ih =>
    rw [List.foldl_cons, ih, List.reverse_cons, List.find?_append, Option.or_assoc]
    congr 1
    obtain ⟨k, v⟩ := p
    rw [find_insert, List.find?_cons]
    by_cases h : k = key
    · simp [h]
    · have : (k == key) = false := by simpa using h
      simp [h, this]

theorem rpairs_find (g : Gismu) (r : Str) :
    (rpairs g).reverse.find? (fun e => e.1 == r) = if g.Has r then some (r, g.word) else none := by
  have mem : ∀ p, p ∈ rpairs g ↔ ∃ q, g.Has q ∧ p = (q, g.word) := by
    intro p
    rw [rpairs, List.mem_append, List.mem_map]
    simp only [Gismu.Has]
    constructor
    · rintro (⟨q, hq, rfl⟩ | h)
      · exact ⟨q, Or.inl hq, rfl⟩
      · split at h
        · rename_i h5
          exact ⟨_, Or.inr ⟨h5, rfl⟩, List.mem_singleton.1 h⟩
        · cases h
    · rintro ⟨q, hq | ⟨h5, rfl⟩, rfl⟩
      · exact Or.inl ⟨q, hq, rfl⟩
      · exact Or.inr (by rw [if_pos h5]; simp)
  rw [find_same (rpairs g) r g.word]
  · have : (∃ p ∈ rpairs g, p.1 = r) ↔ g.Has r := by
      constructor
      · rintro ⟨p, hp, rfl⟩
        obtain ⟨q, hq, rfl⟩ := (mem p).1 hp
        exact hq
      · exact fun h => ⟨(r, g.word), (mem _).2 ⟨r, h, rfl⟩, rfl⟩
    by_cases h : g.Has r
    · rw [if_pos (this.2 h), if_pos h]
    · rw [if_neg (fun x => h (this.1 x)), if_neg h]
  · intro p hp _
    obtain ⟨q, hq, rfl⟩ := (mem p).1 hp
    rfl

theorem find_mem (t : List (Str × Str)) (h : Sorted t) (e : Str × Str) (he : e ∈ t) :
    t.find? (fun a => a.1 == e.1) = some e := by
  induction t with
  | nil => cases he
  | cons a t ih =>
    have ⟨h1, h2⟩ := List.pairwise_cons.1 h
    rcases List.mem_cons.1 he with rfl | he
    · simp
    · have hlt := h1 e he
      have hne : (a.1 == e.1) = false := by
        simp only [beq_eq_false_iff_ne, ne_eq]
        intro x
        rw [x, strcmp_self] at hlt
        cases hlt
      rw [List.find?_cons, hne]
      exact ih h2 he

/-- **The table is in order**, whatever the word list, as `bsearch` needs it. -/
theorem table_sorted (lines : List Str) : Sorted (rafsiTable lines) := foldl_sorted _ _ List.Pairwise.nil

/-- **Every rafsi leads to its gismu**: the last gismu of the list that has it, and `?` if there is none. -/
theorem component_found (b : List (Str × Str) → Str → Option (Str × Str)) (hb : IsBsearch b)
    (gs : List Gismu) (gl : List Str) (h : Listed gs gl) (ht : ∀ l ∈ gl, 0x09 ∉ l)
    (h5 : ∀ g ∈ gs, g.word.length ≤ 5) (r : Str) :
    component b (rafsiTable gl) r = ((lastWith (·.Has r) gs).map (·.word)).getD [0x3F] := by
  have hf : (rafsiTable gl).find? (fun e => e.1 == r) = (lastWith (·.Has r) gs).map (fun g => (r, g.word)) := by
    rw [rafsiTable, assigned_lines h ht h5, foldl_find, find_flat,
      findSome_last gs.reverse (·.Has r) (fun g => (r, g.word)) _ (fun g _ => rpairs_find g r)]
    simp [lastWith]
  obtain ⟨b1, b2⟩ := hb _ (table_sorted gl) r
  rw [component]
  cases hx : b (rafsiTable gl) r with
  | none =>
    have : (rafsiTable gl).find? (fun e => e.1 == r) = none := by
      rw [List.find?_eq_none]
      intro e he
      simpa using b2 hx e he
    rw [this] at hf
    cases hl : lastWith (·.Has r) gs with
    | none => rfl
    | some g => rw [hl] at hf; cases hf
  | some e =>
    obtain ⟨m1, m2⟩ := b1 e hx
    have := find_mem _ (table_sorted gl) e m1
    rw [m2, hf] at this
    cases hl : lastWith (·.Has r) gs with
    | none => rw [hl] at this; cases this
    | some g =>
      rw [hl] at this
      simp only [Option.map_some, Option.some.injEq] at this
      rw [← this]; rfl

/-- **One list, two tables**: the table of `jvocuhadju`'s and `jbofihe`'s canonical forms and the dictionary made
of the same list of gismu name the same gismu for every rafsi, and know the same rafsi. -/
theorem same_as_dictionary (b : List (Str × Str) → Str → Option (Str × Str)) (hb : IsBsearch b)
    (gs : List Gismu) (cs : List Cmavo) (gl cl : List Str) (h : Listed gs gl) (hc : CListed cs cl)
    (ht : ∀ l ∈ gl, 0x09 ∉ l) (h5 : ∀ g ∈ gs, g.word.length ≤ 5) :
    ∃ es, readTable (table (collect (Embed.lines ((mkdict gl cl).flatMap (· ++ [0x0A]))))) = some es ∧ ∀ r,
      (∃ w, lookup es (0x40 :: r) = .ok (some w) ∧ component b (rafsiTable gl) r = w) ∨
      (lookup es (0x40 :: r) = .ok none ∧ component b (rafsiTable gl) r = [0x3F]) := by
  obtain ⟨es, e, h1, _⟩ := dictionary_built gs cs gl cl h hc
  refine ⟨es, e, fun r => ?_⟩
  rw [h1 r, component_found b hb gs gl h ht h5 r]
  cases lastWith (·.Has r) gs with
  | none => exact Or.inr ⟨rfl, rfl⟩
  | some g => exact Or.inl ⟨g.word, rfl, rfl⟩

/-- **Six letters**: the one script takes six columns for the word, the other five.  A word of six letters (the
list has none) is cut in the table of rafsi. -/
theorem six_letters_differ : ∃ l : Str,
    (bytes "abcdef", bytes "x") ∈ pairs ⟨bytes "abcdef", [bytes "ghi"], bytes "x"⟩ ∧
    gismuLines l = (pairs ⟨bytes "abcdef", [bytes "ghi"], bytes "x"⟩).map (fun p => entry p.1 p.2) ∧
    (bytes "ghi", bytes "abcde") ∈ rafsiTable [l] ∧ (bytes "ghi", bytes "abcdef") ∉ rafsiTable [l] :=
  ⟨bytes "abcdefghi          x", by decide +kernel, by decide +kernel, by decide +kernel, by decide +kernel⟩

/-! ## Cases -/

/-- A `bsearch`. -/
example : IsBsearch (fun t x => t.find? (fun e => e.1 == x)) := by
  intro t _ x
  refine ⟨fun e he => ⟨List.mem_of_find?_eq_some he, by simpa using List.find?_some he⟩, fun h e he => ?_⟩
  simpa using List.find?_eq_none.1 h e he

/-- Two lines of the list, and two gismu that share a four-letter form. -/
example : rafsiTable [bytes "badri     dri      sad", bytes "bajra baj          run"] =
    [(bytes "badr", bytes "badri"), (bytes "baj", bytes "bajra"), (bytes "bajr", bytes "bajra"),
     (bytes "dri", bytes "badri")] := by decide +kernel
example : rafsiTable [bytes "broda rod          predicate var 1", bytes "brode bo'e         predicate var 2"] =
    [(bytes "bo'e", bytes "brode"), (bytes "brod", bytes "brode"), (bytes "rod", bytes "broda")] := by decide +kernel

end Jbo.CanonTab
