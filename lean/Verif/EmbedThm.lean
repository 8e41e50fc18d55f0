import Verif.EmbedSpec
import Verif.DictThm
/-!
# The dictionary in the program says what its sources say
-/

namespace Jbo.Embed
open Jbo Dict

/-! ## Lines -/

theorem lines_join (ls : List Str) (h : ∀ l ∈ ls, 0x0A ∉ l) : lines (ls.flatMap (· ++ [0x0A])) = ls := by
  induction ls with
  | nil => rfl
  | cons l ls ih =>
    have hl := h l List.mem_cons_self
    have ih := ih (fun m hm => h m (List.mem_cons_of_mem _ hm))
    rw [List.flatMap_cons]
    generalize ls.flatMap (· ++ [0x0A]) = r at ih ⊢
    induction l with
    | nil => simp [lines, ih]
    | cons c l ihl =>
      have hc : c ≠ 0x0A := fun e => hl (by rw [e]; exact List.mem_cons_self)
      have e := ihl (by
        intro m hm; rcases List.mem_cons.1 hm with rfl | hm
        · exact fun hh => hl (List.mem_cons_of_mem _ hh)
        · exact h m (List.mem_cons_of_mem _ hm)) (fun hh => hl (List.mem_cons_of_mem _ hh))
      have e2 : (c :: l ++ [0x0A]) ++ r = c :: ((l ++ [0x0A]) ++ r) := rfl
      rw [e2, lines, if_neg hc, e]

theorem mem_ne {c : Byte} {l : Str} (h : c ∉ l) : ∀ b ∈ l, (b != c) = true := by
  intro b hb
  simp only [bne_iff_ne, ne_eq]
  exact fun e => h (e ▸ hb)

theorem isComment_iff (l : Str) : isComment l = true ↔ Comment l := by
  induction l with
  | nil =>
    constructor
    · intro h; cases h
    · rintro ⟨b, r, e, _⟩; simp at e
  | cons c l ih =>
    by_cases hc : c = 0x20 ∨ c = 0x09
    · have hb : ((c == 0x20) || (c == 0x09)) = true := by
        simp only [Bool.or_eq_true, beq_iff_eq]; exact hc
      have e : isComment (c :: l) = isComment l := by simp only [isComment, List.dropWhile_cons, hb, if_true]
      rw [e, ih]
      constructor
      · rintro ⟨b, r, e, h⟩
        exact ⟨c :: b, r, by rw [e]; rfl, fun d hd => by
          rcases List.mem_cons.1 hd with rfl | hd
          · exact hc
          · exact h d hd⟩
      · rintro ⟨b, r, e, h⟩
        cases b with
        | nil =>
          simp only [List.nil_append, List.cons.injEq] at e
          rcases hc with h | h <;> rw [h] at e <;> exact absurd e.1 (by decide)
        | cons d b =>
          simp only [List.cons_append, List.cons.injEq] at e
          exact ⟨b, r, e.2, fun x hx => h x (List.mem_cons_of_mem _ hx)⟩
    · have hb : ((c == 0x20) || (c == 0x09)) = false := by
        simp only [Bool.or_eq_false_iff, beq_eq_false_iff_ne, ne_eq]
        exact ⟨fun h => hc (Or.inl h), fun h => hc (Or.inr h)⟩
      have e : isComment (c :: l) = (some c == some 0x23) := by
        simp only [isComment, List.dropWhile_cons, hb]; rfl
      rw [e]
      constructor
      · intro h
        simp only [beq_iff_eq, Option.some.injEq] at h
        exact ⟨[], l, by rw [h]; rfl, fun x hx => absurd hx (by simp)⟩
      · rintro ⟨b, r, e, h⟩
        cases b with
        | nil =>
          simp only [List.nil_append, List.cons.injEq] at e
          simp [e.1]
        | cons d b =>
          simp only [List.cons_append, List.cons.injEq] at e
          exact absurd (by rw [e.1]; exact h d List.mem_cons_self) hc

theorem take_colon (v r : Str) (hv : 0x3A ∉ v) (hr : ∀ c, r.head? = some c → c = 0x3A) :
    (v ++ r).takeWhile (· != 0x3A) = v := by
  rw [takeWhile_all _ _ (mem_ne hv)]
  cases r with
  | nil => simp
  | cons c r => rw [hr c rfl]; simp

theorem fields_iff (l k v : Str) : fields l = some (k, v) ↔
    k ≠ [] ∧ v ≠ [] ∧ 0x3A ∉ k ∧ 0x3A ∉ v ∧
      ∃ rest, l = k ++ 0x3A :: v ++ rest ∧ ∀ c, rest.head? = some c → c = 0x3A := by
  constructor
  · intro h
    unfold fields at h
    split at h
    · cases h
    · cases h
    · rename_i k' d' c r hd hne
      split at h
      · cases h
      · rename_i hv
        simp only [Option.some.injEq, Prod.mk.injEq] at h
        obtain ⟨h1, h2⟩ := h
        have e := List.takeWhile_append_dropWhile (p := (· != (0x3A : Byte))) (l := l)
        have e2 := List.takeWhile_append_dropWhile (p := (· != (0x3A : Byte))) (l := r)
        have notin : ∀ q : Str, 0x3A ∉ q.takeWhile (· != 0x3A) := by
          intro q hq
          have := List.all_takeWhile (p := (· != (0x3A : Byte))) (l := q)
          rw [List.all_eq_true] at this
          exact absurd (this _ hq) (by decide)
        have hdh : ∀ (q : Str) c, (q.dropWhile (· != 0x3A)).head? = some c → c = 0x3A := by
          intro q c hc
          have := List.head?_dropWhile_not (p := (· != (0x3A : Byte))) (l := q)
          rw [hc] at this
          simpa using this
        have hc : c = 0x3A := hdh l c (by rw [hd]; rfl)
        have hc' : l.dropWhile (· != 0x3A) = 0x3A :: r := by rw [hd, hc]
        refine ⟨?_, ?_, ?_, ?_, r.dropWhile (· != 0x3A), ?_, hdh r⟩
        · rw [← h1]; exact hne
        · rw [← h2]; exact hv
        · rw [← h1]; exact notin l
        · rw [← h2]; exact notin r
        · rw [← h1, ← h2, List.append_assoc, List.cons_append, e2, ← hc']; exact e.symm
  · rintro ⟨hk, hv, nk, nv, rest, e, hr⟩
    have e1 : l.takeWhile (· != 0x3A) = k := by
      rw [e, List.append_assoc, takeWhile_all _ _ (mem_ne nk)]; simp
    have e2 : l.dropWhile (· != 0x3A) = 0x3A :: (v ++ rest) := by
      rw [e, List.append_assoc, dropWhile_all _ _ (mem_ne nk)]; simp
    unfold fields
    rw [e1, e2]
    cases k with
    | nil => exact absurd rfl hk
    | cons a k =>
      simp only
      rw [take_colon v rest nv hr]
      cases v with
      | nil => exact absurd rfl hv
      | cons b v => rfl

theorem parse_iff (l k v : Str) : parse l = some (k, v) ↔ Defines l k v := by
  rw [parse, Defines, ← fields_iff, ← isComment_iff]
  by_cases h : isComment l = true
  · simp [h]
  · simp [h]

/-! ## The table -/

def Sorted (es : List (Str × Str)) : Prop := es.Pairwise (fun a b => strcmp a.1 b.1 = .lt)

theorem mem_insert {k v : Str} {es : List (Str × Str)} {e : Str × Str} (h : e ∈ insert k v es) :
    e = (k, v) ∨ e ∈ es := by
  induction es with
  | nil => simpa [insert] using h
  | cons a es ih =>
    rw [insert] at h
    split at h
    · rcases List.mem_cons.1 h with h | h
      · exact Or.inl h
      · exact Or.inr h
    · rcases List.mem_cons.1 h with h | h
      · exact Or.inl h
      · exact Or.inr (List.mem_cons_of_mem _ h)
    · rcases List.mem_cons.1 h with h | h
      · exact Or.inr (by rw [h]; exact List.mem_cons_self)
      · rcases ih h with h | h
        · exact Or.inl h
        · exact Or.inr (List.mem_cons_of_mem _ h)

theorem insert_sorted (k v : Str) (es : List (Str × Str)) (h : Sorted es) : Sorted (insert k v es) := by
  induction es with
  | nil => exact List.pairwise_singleton _ _
  | cons a es ih =>
    have ⟨h1, h2⟩ := List.pairwise_cons.1 h
    rw [insert]
    split
    · rename_i hlt
      refine List.pairwise_cons.2 ⟨?_, h⟩
      intro b hb
      rcases List.mem_cons.1 hb with rfl | hb
      · exact hlt
      · exact strcmp_trans hlt (h1 b hb)
    · rename_i heq
      have := strcmp_eq heq
      refine List.pairwise_cons.2 ⟨?_, h2⟩
      intro b hb
      show strcmp k b.1 = .lt
      rw [this]; exact h1 b hb
    · rename_i hgt
      refine List.pairwise_cons.2 ⟨?_, ih h2⟩
      intro b hb
      rcases mem_insert hb with h | hb
      · rw [h]; exact (strcmp_gt_iff _ _).1 hgt
      · exact h1 b hb

theorem find_insert (k v x : Str) (es : List (Str × Str)) :
    (insert k v es).find? (fun e => e.1 == x) =
      if k = x then some (k, v) else es.find? (fun e => e.1 == x) := by
  induction es with
  | nil =>
    rw [insert, List.find?_cons]
    by_cases h : k = x
    · simp [h]
    · have : (k == x) = false := by simpa using h
      rw [if_neg h]; simp only [this]
  | cons a es ih =>
    rw [insert]
    split
    · rw [List.find?_cons]
      by_cases h : k = x
      · simp [h]
      · have : (k == x) = false := by simpa using h
        rw [if_neg h]; simp only [this]
    · rename_i heq
      have ha : k = a.1 := strcmp_eq heq
      rw [List.find?_cons, List.find?_cons]
      by_cases h : k = x
      · simp [h]
      · have h1 : (a.1 == x) = false := by simpa using fun e => h (ha.trans e)
        have h2 : (k == x) = false := by simpa using h
        rw [if_neg h]; simp only [h1, h2]
    · rename_i hgt
      rw [List.find?_cons, List.find?_cons, ih]
      by_cases h : k = x
      · have : (a.1 == x) = false := by
          simp only [beq_eq_false_iff_ne, ne_eq]
          intro e
          rw [h, ← e, strcmp_self] at hgt
          cases hgt
        simp [h, this]
      · simp [h]

theorem snoc_induction {P : List Str → Prop} (nil : P []) (snoc : ∀ ls l, P ls → P (ls ++ [l])) (ls : List Str) :
    P ls := by
  rw [← List.reverse_reverse ls]
  induction ls.reverse with
  | nil => exact nil
  | cons l ls ih => rw [List.reverse_cons]; exact snoc _ _ ih

theorem collect_snoc (ls : List Str) (l : Str) : collect (ls ++ [l]) =
    match parse l with
    | some (k, v) => insert k v (collect ls)
    | none => collect ls := by
  rw [collect, List.foldl_append]; rfl

theorem collect_sorted (ls : List Str) : Sorted (collect ls) := by
  induction ls using snoc_induction with
  | nil => exact List.Pairwise.nil
  | snoc ls l ih =>
    rw [collect_snoc]
    split
    · exact insert_sorted _ _ _ ih
    · exact ih

theorem mem_collect {ls : List Str} {e : Str × Str} (h : e ∈ collect ls) : ∃ l ∈ ls, Defines l e.1 e.2 := by
  induction ls using snoc_induction with
  | nil => cases h
  | snoc ls l ih =>
    rw [collect_snoc] at h
    split at h
    · rename_i k v hp
      rcases mem_insert h with h | h
      · exact ⟨l, by simp, by rw [h]; exact (parse_iff l k v).1 hp⟩
      · obtain ⟨m, hm, hd⟩ := ih h
        exact ⟨m, by simp [hm], hd⟩
    · obtain ⟨m, hm, hd⟩ := ih h
      exact ⟨m, by simp [hm], hd⟩

theorem find_collect (ls : List Str) (x : Str) :
    (∀ v, (collect ls).find? (fun e => e.1 == x) = some (x, v) → LastSays ls x v) ∧
    ((collect ls).find? (fun e => e.1 == x) = none → Silent ls x) := by
  induction ls using snoc_induction with
  | nil => exact ⟨(fun v h => nomatch h), (fun _ l hl => absurd hl (List.not_mem_nil))⟩
  | snoc ls l ih =>
    obtain ⟨ih1, ih2⟩ := ih
    rw [collect_snoc]
    have keep : (∀ w, ¬ Defines l x w) →
        (∀ v, (collect ls).find? (fun e => e.1 == x) = some (x, v) → LastSays (ls ++ [l]) x v) ∧
        ((collect ls).find? (fun e => e.1 == x) = none → Silent (ls ++ [l]) x) := by
      intro hn
      constructor
      · intro v h
        obtain ⟨pre, m, post, e, hd, hp⟩ := ih1 v h
        refine ⟨pre, m, post ++ [l], by rw [e]; simp, hd, ?_⟩
        intro q hq w
        rcases List.mem_append.1 hq with hq | hq
        · exact hp q hq w
        · rw [List.mem_singleton.1 hq]; exact hn w
      · intro h q hq w
        rcases List.mem_append.1 hq with hq | hq
        · exact ih2 h q hq w
        · rw [List.mem_singleton.1 hq]; exact hn w
    split
    · rename_i k v hp
      rw [find_insert]
      by_cases hk : k = x
      · subst hk
        simp only [if_true]
        constructor
        · intro w h
          simp only [Option.some.injEq, Prod.mk.injEq, true_and] at h
          subst h
          exact ⟨ls, l, [], rfl, (parse_iff _ _ _).1 hp, fun m hm => absurd hm (by simp)⟩
        · intro h; cases h
      · rw [if_neg hk]
        refine keep ?_
        intro w hd
        rw [← parse_iff, hp] at hd
        simp only [Option.some.injEq, Prod.mk.injEq] at hd
        exact hk hd.1
    · rename_i hp
      refine keep ?_
      intro w hd
      rw [← parse_iff, hp] at hd
      cases hd

/-! ## The text of the table -/

theorem expect_append (p r : Str) : expect p (p ++ r) = some r := by
  rw [expect, if_pos (List.isPrefixOf_iff_prefix.2 (List.prefix_append p r)), List.drop_left]

theorem expect_cons (p c : Byte) (q r : Str) (h : p ≠ c) : expect (p :: q) (c :: r) = none := by
  rw [expect, if_neg]
  intro hp
  have := List.isPrefixOf_iff_prefix.1 hp
  rw [List.cons_prefix_cons] at this
  exact h this.1

theorem literal_cons (c : Byte) (r : Str) : literal (c :: r) =
    if c = 0x22 then some ([], r)
    else if c = 0x0A then none
    else if c = 0x5C then
      match r with
      | d :: r' => if d = 0x22 ∨ d = 0x5C then (literal r').map (fun p => (d :: p.1, p.2)) else none
      | [] => none
    else (literal r).map (fun p => (c :: p.1, p.2)) := by
  conv => lhs; unfold literal
  rfl

theorem literal_plain (s r : Str) (h1 : 0x22 ∉ s) (h2 : 0x5C ∉ s) (h3 : 0x0A ∉ s) :
    literal (s ++ 0x22 :: r) = some (s, r) := by
  induction s with
  | nil => rw [List.nil_append, literal_cons, if_pos rfl]
  | cons c s ih =>
    have a1 : c ≠ 0x22 := fun e => h1 (by rw [e]; exact List.mem_cons_self)
    have a2 : c ≠ 0x5C := fun e => h2 (by rw [e]; exact List.mem_cons_self)
    have a3 : c ≠ 0x0A := fun e => h3 (by rw [e]; exact List.mem_cons_self)
    rw [List.cons_append, literal_cons, if_neg a1, if_neg a3, if_neg a2,
      ih (fun h => h1 (List.mem_cons_of_mem _ h)) (fun h => h2 (List.mem_cons_of_mem _ h))
        (fun h => h3 (List.mem_cons_of_mem _ h))]
    rfl

theorem literal_escape (s r : Str) (h2 : 0x5C ∉ s) (h3 : 0x0A ∉ s) :
    literal (escape s ++ 0x22 :: r) = some (s, r) := by
  induction s with
  | nil => rw [escape, List.nil_append, literal_cons, if_pos rfl]
  | cons c s ih =>
    have a2 : c ≠ 0x5C := fun e => h2 (by rw [e]; exact List.mem_cons_self)
    have a3 : c ≠ 0x0A := fun e => h3 (by rw [e]; exact List.mem_cons_self)
    have ih := ih (fun h => h2 (List.mem_cons_of_mem _ h)) (fun h => h3 (List.mem_cons_of_mem _ h))
    rw [escape]
    by_cases a1 : c = 0x22
    · rw [if_pos a1, List.cons_append, List.cons_append, literal_cons, if_neg (by decide), if_neg (by decide), if_pos rfl]
      simp only [true_or, if_true, ih, a1]
      rfl
    · rw [if_neg a1, List.cons_append, literal_cons, if_neg a1, if_neg a3, if_neg a2, ih]
      rfl

/-- An entry that the script writes and the compiler reads back. -/
def EntryClean (e : Str × Str) : Prop :=
  (0x22 ∉ e.1 ∧ 0x5C ∉ e.1 ∧ 0x0A ∉ e.1) ∧ 0x5C ∉ e.2 ∧ 0x0A ∉ e.2

theorem readEntry_text (e : Str × Str) (r : Str) (h : EntryClean e) :
    readEntry (entryText e ++ r) = some (e, r) := by
  obtain ⟨⟨k1, k2, k3⟩, v2, v3⟩ := h
  have m : middle = 0x22 :: bytes ", \"" := by decide
  have c : closing = 0x22 :: bytes "}" := by decide
  have e1 : entryText e ++ r =
      opening ++ (e.1 ++ 0x22 :: (bytes ", \"" ++ (escape e.2 ++ 0x22 :: (bytes "}" ++ r)))) := by
    rw [entryText, m, c]; simp only [List.append_assoc, List.cons_append]
  rw [e1, readEntry, expect_append]
  simp only
  rw [literal_plain _ _ k1 k2 k3]
  simp only
  rw [expect_append]
  simp only
  rw [literal_escape _ _ v2 v3]
  simp only
  rw [expect_append]

theorem ending_head (r : Str) : ∃ q, ending ++ r = 0x7D :: q := ⟨_, rfl⟩

theorem entriesText_long (es : List (Str × Str)) : es.length ≤ (entriesText es).length := by
  induction es with
  | nil => exact Nat.zero_le _
  | cons e es ih =>
    have h1 : 1 ≤ (entryText e).length := by
      have : opening.length = 6 := by decide
      simp only [entryText, List.length_append]; omega
    cases es with
    | nil => simpa [entriesText] using h1
    | cons a es =>
      rw [entriesText]
      · simp only [List.length_append, List.length_cons] at ih ⊢
        omega
      · simp

theorem readEntries_text (es : List (Str × Str)) (hne : es ≠ []) (h : ∀ e ∈ es, EntryClean e) (r : Str) :
    ∀ n, es.length ≤ n → readEntries n (entriesText es ++ (ending ++ r)) = some (es, ending ++ r) := by
  induction es with
  | nil => exact absurd rfl hne
  | cons e es ih =>
    intro n hn
    cases n with
    | zero => simp at hn
    | succ n =>
      have he := h e List.mem_cons_self
      cases es with
      | nil =>
        rw [readEntries, entriesText, readEntry_text e _ he]
        obtain ⟨q, hq⟩ := ending_head r
        rw [hq]
        rfl
      | cons a es =>
        have e1 : entriesText (e :: a :: es) ++ (ending ++ r) =
            entryText e ++ (0x2C :: (entriesText (a :: es) ++ (ending ++ r))) := by
          rw [entriesText]
          · simp only [List.append_assoc, List.cons_append]
          · simp
        rw [readEntries, e1, readEntry_text e _ he]
        simp only
        rw [ih (by simp) (fun x hx => h x (List.mem_cons_of_mem _ hx)) n (by simpa using hn)]
        rfl

/-- **The table compiles to what was collected.** -/
theorem readTable_table (es : List (Str × Str)) (h : ∀ e ∈ es, EntryClean e) : readTable (table es) = some es := by
  have e1 : table es = preface ++ (entriesText es ++ (ending ++ [])) := by
    rw [table, List.append_nil, List.append_assoc]
  rw [e1, readTable, expect_append]
  simp only
  cases es with
  | nil =>
    rw [entriesText, List.nil_append, expect_append]
  | cons e es =>
    have hne : expect ending (entriesText (e :: es) ++ (ending ++ [])) = none := by
      have : ∃ q, entriesText (e :: es) ++ (ending ++ []) = 0x0A :: q := by
        cases es with
        | nil => exact ⟨_, rfl⟩
        | cons a es =>
          rw [entriesText]
          · exact ⟨_, rfl⟩
          · simp
      obtain ⟨q, hq⟩ := this
      rw [hq]
      exact expect_cons 0x7D 0x0A _ q (by decide)
    rw [hne]
    simp only
    rw [readEntries_text (e :: es) (by simp) h [] _ (by
      have := entriesText_long (e :: es)
      simp only [List.length_append] at this ⊢; omega)]
    simp only
    rw [expect_append]
    rfl

/-! ## Looking up -/

theorem lookup_find (es : List (Str × Str)) (hs : Sorted es) (key : Str) :
    lookup es key = .ok ((es.find? (fun e => e.1 == key)).map (·.2)) := by
  have hcmp : ∀ (m : Nat) (e : Str × Str), es[m]? = some e → cmpAt es key m = .ok (strcmp key e.1) := by
    intro m e he; rw [cmpAt, he]
  rw [lookup]
  cases hfnd : es.find? (fun e => e.1 == key) with
  | none =>
    have hnone : ∀ e ∈ es, e.1 ≠ key := by
      intro e he; simpa using List.find?_eq_none.1 hfnd e he
    obtain ⟨r, hr⟩ := bisect_total (cmpAt es key) 0 es.length (by
        intro m _ hm
        exact ⟨_, hcmp m es[m] (List.getElem?_eq_getElem hm)⟩)
    rw [hr]
    cases r with
    | none => rfl
    | some m =>
      obtain ⟨h1, _, h2⟩ := bisect_sound _ _ _ _ hr
      rw [hcmp m es[m] (List.getElem?_eq_getElem h2)] at h1
      injection h1 with h1
      exact absurd (strcmp_eq h1).symm (hnone _ (List.getElem_mem h2))
  | some e =>
    have he1 : e.1 = key := by simpa using List.find?_some hfnd
    obtain ⟨i, hi, hie⟩ := List.getElem_of_mem (List.mem_of_find?_eq_some hfnd)
    have hget : es[i]? = some e := by rw [List.getElem?_eq_getElem hi, hie]
    have hb := bisect_complete (cmpAt es key) 0 es.length i (by omega) hi
      (by rw [hcmp i e hget, he1, strcmp_self])
      (by
        intro m _ hm
        rw [hcmp m es[m] (List.getElem?_eq_getElem (by omega))]
        have := (List.pairwise_iff_getElem.1 hs) m i (by omega) hi hm
        rw [hie, he1] at this
        rw [(strcmp_gt_iff _ _).2 this])
      (by
        intro m hm h2
        rw [hcmp m es[m] (List.getElem?_eq_getElem h2)]
        have := (List.pairwise_iff_getElem.1 hs) i m hi h2 hm
        rw [hie, he1] at this
        rw [this])
    rw [hb]
    simp only [hget, Option.map_some]

/-- **The embedded dictionary**: for every list of lines without backslashes in entries and without quotes in
words, the table that the script writes compiles, and for every word `dict_lookup` gives the meaning on the
last line about it, or nothing if there is none. -/
theorem embedded_lookup (ls : List Str) (hl : ∀ l ∈ ls, 0x0A ∉ l) (hc : Clean ls) :
    ∃ es, readTable (table (collect (lines (ls.flatMap (· ++ [0x0A]))))) = some es ∧ ∀ key,
      (∃ v, lookup es key = .ok (some v) ∧ LastSays ls key v) ∨ (lookup es key = .ok none ∧ Silent ls key) := by
  rw [lines_join ls hl]
  refine ⟨collect ls, readTable_table _ ?_, ?_⟩
  · intro e he
    obtain ⟨l, hm, hd⟩ := mem_collect he
    obtain ⟨h1, h2, h3⟩ := hc l hm _ _ hd
    obtain ⟨_, _, _, _, _, rest, el, _⟩ := hd
    have hn := hl l hm
    rw [el] at hn
    simp only [List.mem_append, List.mem_cons, not_or] at hn
    exact ⟨⟨h1, h2, hn.1.1⟩, h3, hn.1.2.2⟩
  · intro key
    rw [lookup_find _ (collect_sorted ls)]
    obtain ⟨h1, h2⟩ := find_collect ls key
    cases hf : (collect ls).find? (fun e => e.1 == key) with
    | none => exact Or.inr ⟨rfl, h2 hf⟩
    | some e =>
      have he : e.1 = key := by simpa using List.find?_some hf
      refine Or.inl ⟨e.2, rfl, h1 e.2 ?_⟩
      rw [hf, ← he]

/-- **Both readers agree on plain lines**: on a line `src:dest` or `src:dest:comment` whose meaning is not
empty, `dict2inc.pl` takes the same two fields as `smujajgau`. -/
theorem plain_line_same (src dest tail : Str) (h : PlainLine src dest tail) (hd : dest ≠ []) :
    parse (src ++ 0x3A :: (dest ++ tail)) = splitLine (src ++ 0x3A :: (dest ++ tail) ++ [0x0A]) := by
  rw [splitLine_plain src dest tail h, parse_iff]
  refine ⟨?_, h.src_ne, hd, fun hm => (h.src_ok _ hm).2.2 rfl, fun hm => (h.dest_ok _ hm).2.2 rfl, tail, by simp, h.tail_head⟩
  rintro ⟨b, r, e, hb⟩
  cases hs : src with
  | nil => exact h.src_ne hs
  | cons c s =>
    have hh := h.src_head c (by rw [hs]; rfl)
    rw [hs] at e
    cases b with
    | nil =>
      simp only [List.nil_append, List.cons_append, List.cons.injEq] at e
      exact hh.2.1 e.1
    | cons d b =>
      simp only [List.cons_append, List.cons.injEq] at e
      have := hb d List.mem_cons_self
      rw [← e.1] at this
      rcases this with h | h
      · rw [h] at hh; exact absurd hh.1 (by decide)
      · rw [h] at hh; exact absurd hh.1 (by decide)

/-- On other lines they differ: blanks before a word, other signs for comments, empty meanings. -/
theorem lines_differ :
    (parse (bytes " ka:x") = some (bytes " ka", bytes "x") ∧ splitLine (bytes " ka:x\n") = some (bytes "ka", bytes "x")) ∧
    (parse (bytes "!ka:x") = some (bytes "!ka", bytes "x") ∧ splitLine (bytes "!ka:x\n") = none) ∧
    (parse (bytes "ka:") = none ∧ splitLine (bytes "ka:\n") = some (bytes "ka", [])) := by
  refine ⟨⟨?_, ?_⟩, ⟨?_, ?_⟩, ?_, ?_⟩ <;> decide +kernel

/-- A backslash is not escaped: at the end of a meaning it takes away the closing quote. -/
theorem backslash_breaks : readTable (table (collect [bytes "ka:x\\"])) = none := by decide +kernel

/-- Two backslashes become one. -/
theorem backslash_lost : readTable (table (collect [bytes "ka:x\\\\y"])) = some [(bytes "ka", bytes "x\\y")] := by
  decide +kernel

/-! ## Cases -/

def linesEx : List Str :=
  [bytes "mi:I:a comment", bytes "\t # no:thing", bytes "do:you", bytes "nonsense", bytes "mi:\"me\""]

example : collect linesEx = [(bytes "do", bytes "you"), (bytes "mi", bytes "\"me\"")] := by decide +kernel
example : table (collect linesEx) =
    bytes "static Keyval dict[] = {\n  { \"do\", \"you\"},\n  { \"mi\", \"\\\"me\\\"\"}};\n\n" := by decide +kernel
example : readTable (table (collect linesEx)) = some [(bytes "do", bytes "you"), (bytes "mi", bytes "\"me\"")] := by
  decide +kernel
example : (∀ l ∈ linesEx, (0x0A : Byte) ∉ l) ∧ Clean linesEx := by
  refine ⟨by decide +kernel, ?_⟩
  intro l hl k v hd
  rw [← parse_iff] at hd
  have : ∀ l ∈ linesEx, ∀ p ∈ parse l, (0x22 : Byte) ∉ p.1 ∧ (0x5C : Byte) ∉ p.1 ∧ (0x5C : Byte) ∉ p.2 := by
    decide +kernel
  exact this l hl (k, v) hd

end Jbo.Embed
