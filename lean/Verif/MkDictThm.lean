import Verif.MkDictSpec
import Verif.EmbedThm
/-!
# Each rafsi leads to its gismu
-/

namespace Jbo.MkDict
open Jbo Dict Embed

/-! ## Columns -/

theorem blank_true {c : Byte} (h : c = 0x20 ∨ c = 0x09) : blank c = true := by
  simp only [blank, Bool.or_eq_true, beq_iff_eq]; exact h

theorem blank_false {c : Byte} (h : c ≠ 0x20 ∧ c ≠ 0x09) : blank c = false := by
  simp only [blank, Bool.or_eq_false_iff, beq_eq_false_iff_ne, ne_eq]; exact h

theorem drop_tail (p : Byte → Bool) (s t : Str) (ht : ∀ c ∈ t, p c = true) (hs : ∀ c, s.getLast? = some c → p c = false) :
    ((s ++ t).reverse.dropWhile p).reverse = s := by
  rw [List.reverse_append, dropWhile_all _ _ (fun c hc => ht c (List.mem_reverse.1 hc))]
  cases hr : s.reverse with
  | nil =>
    have : s = [] := by simpa using hr
    rw [this]; rfl
  | cons c r =>
    have hl : s.getLast? = some c := by rw [List.getLast?_eq_head?_reverse, hr]; rfl
    rw [List.dropWhile_cons, hs c hl]
    simp only [Bool.false_eq_true, if_false]
    rw [← hr, List.reverse_reverse]

theorem trimEnd_pad (w pad : Str) (hw : NoBlank w) (hp : Blanks pad) : trimEnd (w ++ pad) = w := by
  refine drop_tail blank w pad (fun c hc => blank_true (hp c hc)) ?_
  intro c hc
  exact blank_false (hw c (List.mem_of_getLast? hc))

theorem trimEng_pad (e sp : Str) (he : e ≠ []) (hl : e.getLast? ≠ some 0x20) (hs : ∀ c ∈ sp, c = 0x20) :
    trimEng (e ++ sp) = e := by
  have hn : (e ++ sp).all (· == 0x20) = false := by
    cases hall : (e ++ sp).all (· == 0x20) with
    | false => rfl
    | true =>
      rw [List.all_eq_true] at hall
      refine absurd ?_ hl
      rw [List.getLast?_eq_some_getLast he]
      have := hall _ (List.mem_append_left sp (List.getLast_mem he))
      simp only [beq_iff_eq] at this
      rw [this]
  rw [trimEng, hn]
  simp only [Bool.false_eq_true, if_false]
  refine drop_tail _ e sp (fun c hc => by simp [hs c hc]) ?_
  intro c hc
  simp only [beq_eq_false_iff_ne, ne_eq]
  intro h
  exact hl (by rw [hc, h])

theorem squash_word (r s : Str) (h : NoBlank r) : squash (r ++ s) = r ++ squash s := by
  induction r with
  | nil => rfl
  | cons c r ih =>
    have hc := blank_false (h c List.mem_cons_self)
    have : squash (c :: (r ++ s)) = c :: squash (r ++ s) := by
      conv => lhs; unfold squash
      simp only [hc, Bool.false_eq_true, if_false]
    rw [List.cons_append, this, ih (fun d hd => h d (List.mem_cons_of_mem _ hd))]
    rfl

theorem squash_blanks (b s : Str) (hb : Blanks b) (hne : b ≠ [])
    (hs : ∀ c, s.head? = some c → blank c = false) : squash (b ++ s) = 0x20 :: squash s := by
  induction b with
  | nil => exact absurd rfl hne
  | cons c b ih =>
    have hc := blank_true (hb c List.mem_cons_self)
    rw [List.cons_append]
    cases b with
    | nil =>
      rw [List.nil_append]
      conv => lhs; unfold squash
      simp only [hc, if_true]
      cases s with
      | nil => rfl
      | cons d s => simp [hs d rfl]
    | cons d b =>
      have hd := blank_true (hb d (by simp))
      have ih := ih (fun e he => hb e (List.mem_cons_of_mem _ he)) (by simp)
      rw [← ih]
      conv => lhs; unfold squash
      simp only [hc, if_true, List.cons_append, hd]

/-- Words with one blank between them. -/
def join : List Str → Str
  | [] => []
  | [r] => r
  | r :: rs => r ++ 0x20 :: join rs

theorem join_cons (r a : Str) (rs : List Str) : join (r :: a :: rs) = r ++ 0x20 :: join (a :: rs) := rfl

theorem squash_spaced {rs : List Str} {s : Str} (h : Spaced rs s) :
    ∃ a z : Str, (a = [] ∨ a = [0x20]) ∧ (z = [] ∨ z = [0x20]) ∧ squash s = a ++ join rs ++ z ∧
      (rs = [] → a = []) ∧ (rs ≠ [] → (∃ c, s.head? = some c ∧ (c = 0x20 ∨ c = 0x09)) → a = [0x20]) := by
  induction h with
  | nil b hb =>
    cases hbe : b with
    | nil => exact ⟨[], [], Or.inl rfl, Or.inl rfl, rfl, fun _ => rfl, fun h => absurd rfl h⟩
    | cons c t =>
      refine ⟨[], [0x20], Or.inl rfl, Or.inr rfl, ?_, fun _ => rfl, fun h => absurd rfl h⟩
      have := squash_blanks b [] hb (by rw [hbe]; simp) (by simp)
      rw [List.append_nil, hbe] at this
      rw [this]; rfl
  | cons b r s rs hb hne hr hsep hs ih =>
    obtain ⟨a, z, ha, hz, e, h1, h2⟩ := ih
    have hj : r ++ squash s = join (r :: rs) ++ z := by
      rw [e]
      cases rs with
      | nil => rw [h1 rfl]; rfl
      | cons q rs =>
        rw [h2 (by simp) (hsep.resolve_left (by simp)), join_cons]
        simp
    have hhead : ∀ c, (r ++ s).head? = some c → blank c = false := by
      intro c hc
      cases r with
      | nil => exact absurd rfl hne
      | cons d r =>
        simp only [List.cons_append, List.head?_cons, Option.some.injEq] at hc
        rw [← hc]; exact blank_false (hr d List.mem_cons_self)
    rw [List.append_assoc]
    cases hbe : b with
    | nil =>
      refine ⟨[], z, Or.inl rfl, hz, ?_, fun h => absurd h (by simp), ?_⟩
      · rw [List.nil_append, squash_word r s hr, hj]; rfl
      · rintro _ ⟨c, hc, hcb⟩
        exact absurd (blank_true hcb) (by rw [hhead c hc]; simp)
    | cons c t =>
      refine ⟨[0x20], z, Or.inr rfl, hz, ?_, fun h => absurd h (by simp), fun _ _ => rfl⟩
      rw [← hbe, squash_blanks b (r ++ s) hb (by rw [hbe]; simp) hhead, squash_word r s hr, hj]
      rfl

theorem spaced_words {rs : List Str} {s : Str} (h : Spaced rs s) : ∀ r ∈ rs, r ≠ [] ∧ NoBlank r := by
  induction h with
  | nil => intro r hr; exact absurd hr List.not_mem_nil
  | cons b r s rs hb hne hr hsep hs ih =>
    intro q hq
    rcases List.mem_cons.1 hq with rfl | hq
    · exact ⟨hne, hr⟩
    · exact ih q hq

theorem join_ends (rs : List Str) (hne : rs ≠ []) (h : ∀ r ∈ rs, r ≠ [] ∧ NoBlank r) :
    join rs ≠ [] ∧ (join rs).head? ≠ some 0x20 ∧ (join rs).getLast? ≠ some 0x20 := by
  have word : ∀ r : Str, r ≠ [] ∧ NoBlank r → r ≠ [] ∧ r.head? ≠ some 0x20 ∧ r.getLast? ≠ some 0x20 := by
    rintro r ⟨h1, h2⟩
    refine ⟨h1, fun e => (h2 _ (List.mem_of_head? e)).1 rfl, fun e => (h2 _ (List.mem_of_getLast? e)).1 rfl⟩
  induction rs with
  | nil => exact absurd rfl hne
  | cons r rs ih =>
    have hr := word r (h r List.mem_cons_self)
    cases rs with
    | nil => exact hr
    | cons q rs =>
      obtain ⟨i1, _, i3⟩ := ih (by simp) (fun x hx => h x (List.mem_cons_of_mem _ hx))
      rw [join_cons]
      refine ⟨by simp, ?_, ?_⟩
      · cases r with
        | nil => exact absurd rfl hr.1
        | cons c r => simpa using hr.2.1
      · rw [List.getLast?_append, List.getLast?_cons]
        cases hl : (join (q :: rs)).getLast? with
        | none => exact absurd (List.getLast?_eq_none_iff.1 hl) i1
        | some c =>
          rw [hl] at i3
          simpa using i3

theorem fields_word (r s : Str) (h : NoBlank r) :
    fieldsOf (r ++ s) = (r ++ (fieldsOf s).1, (fieldsOf s).2) := by
  induction r with
  | nil => rfl
  | cons c r ih =>
    have hc := (h c List.mem_cons_self).1
    rw [List.cons_append, fieldsOf, if_neg hc, ih (fun d hd => h d (List.mem_cons_of_mem _ hd))]
    rfl

theorem fields_join (r : Str) (rs : List Str) (h : ∀ q ∈ r :: rs, NoBlank q) : fieldsOf (join (r :: rs)) = (r, rs) := by
  induction rs generalizing r with
  | nil =>
    have := fields_word r [] (h r List.mem_cons_self)
    rw [List.append_nil] at this
    rw [join, this]; simp [fieldsOf]
  | cons q rs ih =>
    rw [join_cons, fields_word r _ (h r List.mem_cons_self), fieldsOf, if_pos rfl,
      ih q (fun x hx => h x (List.mem_cons_of_mem _ hx))]
    simp

theorem rafsi_spaced {rs : List Str} {s : Str} (h : Spaced rs s) :
    splitBlank (noLast (noFirst (squash s))) = rs := by
  obtain ⟨a, z, ha, hz, e, h1, _⟩ := squash_spaced h
  have hw := spaced_words h
  rw [e]
  cases rs with
  | nil =>
    rw [h1 rfl]
    rcases hz with rfl | rfl <;> rfl
  | cons r rs =>
    obtain ⟨j1, j2, j3⟩ := join_ends (r :: rs) (by simp) hw
    have f : noFirst (a ++ join (r :: rs) ++ z) = join (r :: rs) ++ z := by
      rcases ha with rfl | rfl
      · rw [List.nil_append]
        cases hj : join (r :: rs) with
        | nil => exact absurd hj j1
        | cons c t =>
          rw [hj] at j2
          rw [List.cons_append, noFirst, if_neg (by simpa using j2)]
      · rw [List.append_assoc, List.cons_append, List.nil_append, noFirst, if_pos rfl]
    have g : noLast (join (r :: rs) ++ z) = join (r :: rs) := by
      rcases hz with rfl | rfl
      · rw [List.append_nil, noLast, if_neg j3]
      · rw [noLast, if_pos (by simp), List.dropLast_concat]
    rw [f, g, splitBlank, if_neg j1, fields_join r rs (fun q hq => (hw q hq).2)]

/-- The entries that stand for a gismu. -/
def pairs (g : Gismu) : List (Str × Str) :=
  (g.word, g.eng) :: g.rafsi.flatMap (fun r => [(0x25 :: r, g.eng), (0x40 :: r, g.word)]) ++
    (if g.word.length = 5 then [(0x25 :: g.word.take 4, g.eng), (0x40 :: g.word.take 4, g.word)] else [])

/-- **A line of the list**: the columns are cut at the right places, whatever the blanks. -/
theorem gismu_line (g : Gismu) (l : Str) (hg : g.Good) (h : Laid g l) :
    gismuLines l = (pairs g).map (fun p => entry p.1 p.2) := by
  obtain ⟨pad, area, x, sp, rest, e, hp, h6, ha, h12, hsp, h20, hrest⟩ := h
  have e0 : substr l 0 6 = g.word ++ pad := by
    rw [e, substr, List.drop_zero, List.append_assoc (g.word ++ pad)]
    exact List.take_left' h6
  have e1 : substr l 6 12 = area := by
    rw [e, substr, List.append_assoc (g.word ++ pad), List.drop_left' h6]
    exact List.take_left' h12
  have e2 : substr l 19 20 = g.eng ++ sp := by
    have : g.word ++ pad ++ area ++ x :: (g.eng ++ sp ++ rest) =
        (g.word ++ pad ++ area ++ [x]) ++ (g.eng ++ sp ++ rest) := by simp
    rw [e, substr, this, List.drop_left' (by simp only [List.length_append, List.length_singleton] at h6 ⊢; omega)]
    rcases hrest with rfl | hr
    · rw [List.append_nil]; exact List.take_of_length_le h20
    · exact List.take_left' hr
  have hw := trimEnd_pad g.word pad hg.word_ok.1 hp
  have he := trimEng_pad g.eng sp hg.eng_ne hg.eng_end hsp
  simp only [gismuLines, rafsiOf, e0, e1, e2, hw, he, rafsi_spaced ha, pairs]
  have s4 : substr g.word 0 4 = g.word.take 4 := rfl
  rw [s4, List.map_append, List.map_cons, List.map_flatMap]
  split <;> rfl

/-! ## Looking up -/

theorem parse_entry (k v : Str) (hk : k ≠ []) (hv : v ≠ []) (ck : 0x3A ∉ k) (cv : 0x3A ∉ v)
    (hh : ∀ c, k.head? = some c → c ≠ 0x23 ∧ c ≠ 0x20 ∧ c ≠ 0x09) : parse (entry k v) = some (k, v) := by
  rw [parse_iff]
  refine ⟨?_, hk, hv, ck, cv, [], by simp [entry], by simp⟩
  rintro ⟨b, r, e, hb⟩
  cases k with
  | nil => exact hk rfl
  | cons c k =>
    have h := hh c rfl
    cases b with
    | nil =>
      simp only [entry, List.cons_append, List.nil_append, List.cons.injEq] at e
      exact h.1 e.1
    | cons d b =>
      simp only [entry, List.cons_append, List.cons.injEq] at e
      have := hb d List.mem_cons_self
      rw [← e.1] at this
      rcases this with t | t
      · exact h.2.1 t
      · exact h.2.2 t

theorem plain_pairs (g : Gismu) (hg : g.Good) : ∀ p ∈ pairs g,
    p.1 ≠ [] ∧ p.2 ≠ [] ∧ Plain p.1 ∧ Plain p.2 ∧ ∀ c, p.1.head? = some c → c ≠ 0x23 ∧ c ≠ 0x20 ∧ c ≠ 0x09 := by
  have sign : ∀ (s : Byte) (r v : Str), s = 0x25 ∨ s = 0x40 → Plain r → v ≠ [] → Plain v →
      ((s :: r : Str) ≠ [] ∧ v ≠ [] ∧ Plain (s :: r) ∧ Plain v ∧
        ∀ c, (s :: r : Str).head? = some c → c ≠ 0x23 ∧ c ≠ 0x20 ∧ c ≠ 0x09) := by
    intro s r v hs hr hv pv
    refine ⟨by simp, hv, ?_, pv, ?_⟩
    · intro c hc
      rcases List.mem_cons.1 hc with rfl | hc
      · rcases hs with rfl | rfl <;> decide
      · exact hr c hc
    · intro c hc
      simp only [List.head?_cons, Option.some.injEq] at hc
      rw [← hc]
      rcases hs with rfl | rfl <;> decide
  have h4 : Plain (g.word.take 4) := fun c hc => hg.word_ok.2 c (List.mem_of_mem_take hc)
  intro p hp
  rw [pairs] at hp
  rcases List.mem_append.1 hp with hp | hp
  · rcases List.mem_cons.1 hp with rfl | hp
    · refine ⟨hg.word_ne, hg.eng_ne, hg.word_ok.2, hg.eng_ok, ?_⟩
      intro c hc
      have := hg.word_ok.1 c (List.mem_of_head? hc)
      exact ⟨(hg.word_head c hc).1, this⟩
    · obtain ⟨r, hr, hp⟩ := List.mem_flatMap.1 hp
      have pr := hg.rafsi_ok r hr
      rcases List.mem_cons.1 hp with rfl | hp
      · exact sign _ _ _ (Or.inl rfl) pr hg.eng_ne hg.eng_ok
      · rw [List.mem_singleton.1 hp]
        exact sign _ _ _ (Or.inr rfl) pr hg.word_ne hg.word_ok.2
  · split at hp
    · rcases List.mem_cons.1 hp with rfl | hp
      · exact sign _ _ _ (Or.inl rfl) h4 hg.eng_ne hg.eng_ok
      · rw [List.mem_singleton.1 hp]
        exact sign _ _ _ (Or.inr rfl) h4 hg.word_ne hg.word_ok.2
    · cases hp

/-- A turn of the loop of `collect`. -/
def put (d : List (Str × Str)) (l : Str) : List (Str × Str) :=
  match parse l with
  | some (k, v) => Embed.insert k v d
  | none => d

theorem put_some {d : List (Str × Str)} {l : Str} {p : Str × Str} (h : parse l = some p) :
    put d l = Embed.insert p.1 p.2 d := by rw [put, h]

theorem put_none {d : List (Str × Str)} {l : Str} (h : parse l = none) : put d l = d := by rw [put, h]

theorem collect_put (ls : List Str) : collect ls = ls.foldl put [] := rfl

/-- The table keeps for each key the last entry. -/
theorem find_entries (ps : List (Str × Str)) (hp : ∀ p ∈ ps, parse (entry p.1 p.2) = some p) (d : List (Str × Str)) (key : Str) :
    ((ps.map (fun p => entry p.1 p.2)).foldl put d).find? (fun e => e.1 == key) =
      (ps.reverse.find? (fun e => e.1 == key)).or (d.find? (fun e => e.1 == key)) := by
  induction ps generalizing d with
  | nil => rfl
  | cons p ps ih =>
    rw [List.map_cons, List.foldl_cons, ih (fun q hq => hp q (List.mem_cons_of_mem _ hq)),
      put_some (hp p List.mem_cons_self), List.reverse_cons, List.find?_append, Option.or_assoc]
    congr 1
    obtain ⟨k, v⟩ := p
    rw [find_insert, List.find?_cons]
    by_cases h : k = key
    · simp [h]
    · have : (k == key) = false := by simpa using h
      simp [h, this]

theorem find_silent (ls : List Str) (key : Str) (h : Silent ls key) (d : List (Str × Str)) :
    (ls.foldl put d).find? (fun e => e.1 == key) = d.find? (fun e => e.1 == key) := by
  induction ls generalizing d with
  | nil => rfl
  | cons l ls ih =>
    rw [List.foldl_cons, ih (fun m hm => h m (List.mem_cons_of_mem _ hm))]
    cases hp : parse l with
    | none => rw [put_none hp]
    | some p =>
      obtain ⟨k, v⟩ := p
      rw [put_some hp, find_insert, if_neg]
      intro e
      have e : k = key := e
      exact h l List.mem_cons_self v (by rw [← parse_iff, hp, e])

theorem find_flat (gs : List Gismu) (f : Gismu → List (Str × Str)) (p : Str × Str → Bool) :
    (gs.flatMap f).reverse.find? p = gs.reverse.findSome? (fun g => (f g).reverse.find? p) := by
  induction gs with
  | nil => rfl
  | cons g gs ih =>
    rw [List.flatMap_cons, List.reverse_append, List.find?_append, ih, List.reverse_cons, List.findSome?_append]
    congr 1
    simp only [List.findSome?_cons, List.findSome?_nil]
    cases (f g).reverse.find? p <;> rfl

theorem findSome_last (gs : List Gismu) (p : Gismu → Prop) [DecidablePred p] (v : Gismu → Str × Str)
    (F : Gismu → Option (Str × Str)) (hF : ∀ g ∈ gs, F g = if p g then some (v g) else none) :
    gs.findSome? F = (gs.find? (fun g => decide (p g))).map v := by
  induction gs with
  | nil => rfl
  | cons g gs ih =>
    rw [List.findSome?_cons, List.find?_cons, hF g List.mem_cons_self]
    by_cases h : p g
    · simp [h]
    · simp only [h, if_false, decide_false]
      exact ih (fun x hx => hF x (List.mem_cons_of_mem _ hx))

/-- The last of a list of entries, all of which say the same about a key. -/
theorem find_same (ps : List (Str × Str)) (key v : Str) (h : ∀ p ∈ ps, p.1 = key → p.2 = v) :
    ps.reverse.find? (fun e => e.1 == key) = if ∃ p ∈ ps, p.1 = key then some (key, v) else none := by
  split
  · rename_i hex
    obtain ⟨p, hp, hk⟩ := hex
    cases hf : ps.reverse.find? (fun e => e.1 == key) with
    | none =>
      have := List.find?_eq_none.1 hf p (List.mem_reverse.2 hp)
      exact absurd hk (by simpa using this)
    | some q =>
      have h1 : q.1 = key := by simpa using List.find?_some hf
      have h2 := h q (List.mem_reverse.1 (List.mem_of_find?_eq_some hf)) h1
      rw [← h1, ← h2]
  · rename_i hex
    rw [List.find?_eq_none]
    intro q hq
    simp only [beq_iff_eq]
    exact fun e => hex ⟨q, List.mem_reverse.1 hq, e⟩

theorem mem_pairs (g : Gismu) (p : Str × Str) : p ∈ pairs g ↔ p = (g.word, g.eng) ∨
    (∃ r, g.Has r ∧ (p = (0x25 :: r, g.eng) ∨ p = (0x40 :: r, g.word))) := by
  rw [pairs, List.cons_append, List.mem_cons, List.mem_append, List.mem_flatMap]
  simp only [Gismu.Has]
  constructor
  · rintro (h | ⟨r, hr, h⟩ | h)
    · exact Or.inl h
    · simp only [List.mem_cons, List.not_mem_nil, or_false] at h
      exact Or.inr ⟨r, Or.inl hr, h⟩
    · split at h
      · rename_i h5
        simp only [List.mem_cons, List.not_mem_nil, or_false] at h
        exact Or.inr ⟨_, Or.inr ⟨h5, rfl⟩, h⟩
      · cases h
  · rintro (h | ⟨r, hr | ⟨h5, rfl⟩, h⟩)
    · exact Or.inl h
    · exact Or.inr (Or.inl ⟨r, hr, by simpa using h⟩)
    · refine Or.inr (Or.inr ?_)
      rw [if_pos h5]
      simpa using h

theorem word_sign {g : Gismu} (hg : g.Good) {s : Byte} {r : Str} (hs : s = 0x25 ∨ s = 0x40) : g.word ≠ s :: r := by
  intro e
  have := hg.word_head s (by rw [e]; rfl)
  rcases hs with h | h
  · exact this.2.1 h
  · exact this.2.2.1 h

theorem pairs_at (g : Gismu) (hg : g.Good) (r : Str) :
    (pairs g).reverse.find? (fun e => e.1 == 0x40 :: r) = if g.Has r then some (0x40 :: r, g.word) else none := by
  rw [find_same (pairs g) (0x40 :: r) g.word]
  · have : (∃ p ∈ pairs g, p.1 = 0x40 :: r) ↔ g.Has r := by
      constructor
      · rintro ⟨p, hp, e⟩
        rcases (mem_pairs g p).1 hp with rfl | ⟨q, hq, rfl | rfl⟩
        · exact absurd e (word_sign hg (Or.inr rfl))
        · simp at e
        · simp only [List.cons.injEq, true_and] at e
          rw [← e]; exact hq
      · intro h
        exact ⟨_, (mem_pairs g _).2 (Or.inr ⟨r, h, Or.inr rfl⟩), rfl⟩
    by_cases h : g.Has r
    · rw [if_pos (this.2 h), if_pos h]
    · rw [if_neg (fun x => h (this.1 x)), if_neg h]
  · intro p hp e
    rcases (mem_pairs g p).1 hp with rfl | ⟨q, hq, rfl | rfl⟩
    · exact absurd e (word_sign hg (Or.inr rfl))
    · simp at e
    · rfl

theorem pairs_pct (g : Gismu) (hg : g.Good) (r : Str) :
    (pairs g).reverse.find? (fun e => e.1 == 0x25 :: r) = if g.Has r then some (0x25 :: r, g.eng) else none := by
  rw [find_same (pairs g) (0x25 :: r) g.eng]
  · have : (∃ p ∈ pairs g, p.1 = 0x25 :: r) ↔ g.Has r := by
      constructor
      · rintro ⟨p, hp, e⟩
        rcases (mem_pairs g p).1 hp with rfl | ⟨q, hq, rfl | rfl⟩
        · exact absurd e (word_sign hg (Or.inl rfl))
        · simp only [List.cons.injEq, true_and] at e
          rw [← e]; exact hq
        · simp at e
      · intro h
        exact ⟨_, (mem_pairs g _).2 (Or.inr ⟨r, h, Or.inl rfl⟩), rfl⟩
    by_cases h : g.Has r
    · rw [if_pos (this.2 h), if_pos h]
    · rw [if_neg (fun x => h (this.1 x)), if_neg h]
  · intro p hp e
    rcases (mem_pairs g p).1 hp with rfl | ⟨q, hq, rfl | rfl⟩
    · exact absurd e (word_sign hg (Or.inl rfl))
    · rfl
    · simp at e

theorem pairs_word (g : Gismu) (w : Str) (hw : ∀ c, w.head? = some c → c ≠ 0x25 ∧ c ≠ 0x40) :
    (pairs g).reverse.find? (fun e => e.1 == w) = if g.word = w then some (w, g.eng) else none := by
  rw [find_same (pairs g) w g.eng]
  · have : (∃ p ∈ pairs g, p.1 = w) ↔ g.word = w := by
      constructor
      · rintro ⟨p, hp, e⟩
        rcases (mem_pairs g p).1 hp with rfl | ⟨q, hq, rfl | rfl⟩
        · exact e
        · exact absurd rfl (hw 0x25 (by rw [← e]; rfl)).1
        · exact absurd rfl (hw 0x40 (by rw [← e]; rfl)).2
      · intro h
        exact ⟨_, (mem_pairs g _).2 (Or.inl rfl), h⟩
    by_cases h : g.word = w
    · rw [if_pos (this.2 h), if_pos h]
    · rw [if_neg (fun x => h (this.1 x)), if_neg h]
  · intro p hp e
    rcases (mem_pairs g p).1 hp with rfl | ⟨q, hq, rfl | rfl⟩
    · rfl
    · rfl
    · exact absurd rfl (hw 0x40 (by rw [← e]; rfl)).2

theorem flat_lines (gs : List Gismu) (lines : List Str) (h : Listed gs lines) :
    lines.flatMap gismuLines = (gs.flatMap pairs).map (fun p => entry p.1 p.2) := by
  induction h with
  | nil => rfl
  | cons h _ ih => rw [List.flatMap_cons, List.flatMap_cons, List.map_append, ih, gismu_line _ _ h.1 h.2]

theorem good_mem {gs : List Gismu} {lines : List Str} (h : Listed gs lines) :
    ∀ g ∈ gs, g.Good := by
  induction h with
  | nil => intro g hg; exact absurd hg List.not_mem_nil
  | cons h _ ih =>
    intro g hg
    rcases List.mem_cons.1 hg with rfl | hg
    · exact h.1
    · exact ih g hg

/-- What the table holds after a list of gismu and other sources that are silent about the key. -/
theorem find_dict (gs : List Gismu) (lines others : List Str)
    (h : Listed gs lines) (key : Str) (hs : Silent others key) :
    (collect (lines.flatMap gismuLines ++ others)).find? (fun e => e.1 == key) =
      gs.reverse.findSome? (fun g => (pairs g).reverse.find? (fun e => e.1 == key)) := by
  have hg := good_mem h
  rw [collect_put, List.foldl_append, find_silent others key hs, flat_lines gs lines h, find_entries _ _ [] key, find_flat]
  · simp
  · intro p hp
    obtain ⟨g, hgm, hp⟩ := List.mem_flatMap.1 hp
    obtain ⟨a, b, c, d, e⟩ := plain_pairs g (hg g hgm) p hp
    exact parse_entry p.1 p.2 a b (fun x => (c _ x).1 rfl) (fun x => (d _ x).1 rfl) e

/-- **From the word list to the lookup**: for every list of gismu laid out in columns, followed by any other
sources, the embedded dictionary gives

* for `@` and a rafsi (or a gismu without its last letter) the gismu,
* for `%` and a rafsi the meaning of the gismu,
* for a gismu its meaning,

each time of the last gismu of the list that has it, as long as the other sources do not say something else. -/
theorem rafsi_found (gs : List Gismu) (lines others : List Str)
    (h : Listed gs lines)
    (ho : ∀ l ∈ others, 0x0A ∉ l) (hc : Clean others) :
    ∃ es, readTable (table (collect (Embed.lines
        ((lines.flatMap gismuLines ++ others).flatMap (· ++ [0x0A]))))) = some es ∧
      (∀ r, Silent others (0x40 :: r) →
        lookup es (0x40 :: r) = .ok ((lastWith (·.Has r) gs).map (·.word))) ∧
      (∀ r, Silent others (0x25 :: r) →
        lookup es (0x25 :: r) = .ok ((lastWith (·.Has r) gs).map (·.eng))) ∧
      ∀ w, (∀ c, w.head? = some c → c ≠ 0x25 ∧ c ≠ 0x40) → Silent others w →
        lookup es w = .ok ((lastWith (·.word = w) gs).map (·.eng)) := by
  have hg := good_mem h
  have hpl : ∀ l ∈ lines.flatMap gismuLines, ∃ g ∈ gs, ∃ p ∈ pairs g, l = entry p.1 p.2 := by
    intro l hl
    rw [flat_lines gs lines h] at hl
    obtain ⟨p, hp, e⟩ := List.mem_map.1 hl
    obtain ⟨g, hgm, hp⟩ := List.mem_flatMap.1 hp
    exact ⟨g, hgm, p, hp, e.symm⟩
  have hnl : ∀ l ∈ lines.flatMap gismuLines ++ others, (0x0A : Byte) ∉ l := by
    intro l hl
    rcases List.mem_append.1 hl with hl | hl
    · obtain ⟨g, hgm, p, hp, e⟩ := hpl l hl
      obtain ⟨_, _, c, d, _⟩ := plain_pairs g (hg g hgm) p hp
      rw [e, entry]
      intro hm
      rcases List.mem_append.1 hm with hm | hm
      · exact (c _ hm).2.2.2 rfl
      · rcases List.mem_cons.1 hm with hm | hm
        · exact absurd hm (by decide)
        · exact (d _ hm).2.2.2 rfl
    · exact ho l hl
  have hcl : Clean (lines.flatMap gismuLines ++ others) := by
    intro l hl k v hd
    rcases List.mem_append.1 hl with hl | hl
    · obtain ⟨g, hgm, p, hp, e⟩ := hpl l hl
      obtain ⟨a, b, c, d, f⟩ := plain_pairs g (hg g hgm) p hp
      have := parse_entry p.1 p.2 a b (fun x => (c _ x).1 rfl) (fun x => (d _ x).1 rfl) f
      rw [← parse_iff, e, this] at hd
      simp only [Option.some.injEq] at hd
      have e1 : p.1 = k := congrArg Prod.fst hd
      have e2 : p.2 = v := congrArg Prod.snd hd
      rw [← e1, ← e2]
      exact ⟨fun x => (c _ x).2.1 rfl, fun x => (c _ x).2.2.1 rfl, fun x => (d _ x).2.2.1 rfl⟩
    · exact hc l hl k v hd
  rw [lines_join _ hnl]
  have hclean : ∀ e ∈ collect (lines.flatMap gismuLines ++ others), EntryClean e := by
    intro e he
    obtain ⟨l, hm, hd⟩ := mem_collect he
    obtain ⟨h1, h2, h3⟩ := hcl l hm _ _ hd
    obtain ⟨_, _, _, _, _, rest, el, _⟩ := hd
    have hn := hnl l hm
    rw [el] at hn
    simp only [List.mem_append, List.mem_cons, not_or] at hn
    exact ⟨⟨h1, h2, hn.1.1⟩, h3, hn.1.2.2⟩
  refine ⟨_, readTable_table _ hclean, ?_, ?_, ?_⟩
  · intro r hs
    rw [lookup_find _ (collect_sorted _), find_dict gs lines others h _ hs,
      findSome_last gs.reverse (·.Has r) (fun g => (0x40 :: r, g.word)) _
        (fun g hgm => pairs_at g (hg g (List.mem_reverse.1 hgm)) r), Option.map_map]
    rfl
  · intro r hs
    rw [lookup_find _ (collect_sorted _), find_dict gs lines others h _ hs,
      findSome_last gs.reverse (·.Has r) (fun g => (0x25 :: r, g.eng)) _
        (fun g hgm => pairs_pct g (hg g (List.mem_reverse.1 hgm)) r), Option.map_map]
    rfl
  · intro w hw hs
    rw [lookup_find _ (collect_sorted _), find_dict gs lines others h _ hs,
      findSome_last gs.reverse (·.word = w) (fun g => (w, g.eng)) _ (fun g _ => pairs_word g w hw), Option.map_map]
    rfl

/-! ## Cmavo -/

theorem trimStart_pad (b w : Str) (hb : Blanks b) (hw : NoBlank w) : trimStart (b ++ w) = w := by
  rw [trimStart, dropWhile_all _ _ (fun c hc => blank_true (hb c hc))]
  cases w with
  | nil => rfl
  | cons c w => rw [List.dropWhile_cons, blank_false (hw c List.mem_cons_self)]; rfl

/-- The entries that stand for a cmavo. -/
def cpairs (c : Cmavo) : List (Str × Str) := [(c.word, c.eng), (0x2B :: c.word, c.selmaho)]

theorem field_cut (f : Str) (w : Str) (h : Field w f) (hw : NoBlank w) (hd : w.head? ≠ some 0x2E) :
    noDot (trimStart (trimEnd f)) = w := by
  obtain ⟨b, dot, sp, e, hb, hdot, hs⟩ := h
  have hn : NoBlank (dot ++ w) := by
    intro c hc
    rcases List.mem_append.1 hc with hc | hc
    · rcases hdot with rfl | rfl
      · cases hc
      · rw [List.mem_singleton.1 hc]; decide
    · exact hw c hc
  have e1 : trimEnd f = trimEnd (b ++ (dot ++ w) ++ sp) := by rw [e]; simp
  by_cases hne : dot ++ w = []
  · obtain ⟨rfl, rfl⟩ := List.append_eq_nil_iff.1 hne
    have : trimEnd (([] : Str) ++ (b ++ sp)) = [] :=
      trimEnd_pad [] (b ++ sp) (fun c hc => absurd hc List.not_mem_nil) (by
        intro c hc
        rcases List.mem_append.1 hc with hc | hc
        · exact hb c hc
        · exact hs c hc)
    rw [e]
    simp only [List.append_nil, List.nil_append] at this ⊢
    rw [this]; rfl
  · have : trimEnd (b ++ (dot ++ w) ++ sp) = b ++ (dot ++ w) := by
      refine drop_tail blank _ sp (fun c hc => blank_true (hs c hc)) ?_
      intro c hc
      rw [List.getLast?_append, List.getLast?_eq_some_getLast hne, Option.some_or,
        ← List.getLast?_eq_some_getLast hne] at hc
      exact blank_false (hn c (List.mem_of_getLast? hc))
    rw [e1, this, trimStart_pad b _ hb hn]
    rcases hdot with rfl | rfl
    · rw [List.nil_append]
      cases w with
      | nil => rfl
      | cons c w => rw [noDot, if_neg (by simpa using hd)]
    · rfl

/-- **A line of the list of cmavo.** -/
theorem cmavo_line (c : Cmavo) (l : Str) (hc : c.Good) (h : CLaid c l) :
    cmavoLines l = (cpairs c).map (fun p => entry p.1 p.2) := by
  obtain ⟨f1, f2, x, sp, rest, e, h1, hf1, h2, hf2, hx, hsp, h40, hrest⟩ := h
  have e0 : substr l 0 10 = f1 := by
    rw [e, substr, List.drop_zero, List.append_assoc f1, List.append_assoc f1]
    exact List.take_left' h1
  have e1 : substr l 10 6 = f2 := by
    rw [e, substr, List.append_assoc f1, List.append_assoc f1, List.drop_left' h1, List.append_assoc]
    exact List.take_left' h2
  have e2 : substr l 20 40 = c.eng ++ sp := by
    rw [e, substr, List.drop_left' (by simp only [List.length_append]; omega)]
    rcases hrest with rfl | hr
    · rw [List.append_nil]; exact List.take_of_length_le h40
    · exact List.take_left' hr
  have he : trimEnd (c.eng ++ sp) = c.eng := by
    refine drop_tail blank _ sp (fun d hd => blank_true (hsp d hd)) ?_
    intro d hd
    exact blank_false (hc.eng_end d hd)
  simp only [cmavoLines, e0, e1, e2, he, field_cut f1 _ hf1 hc.word_ok.1 hc.word_dot,
    field_cut f2 _ hf2 hc.sel_ok.1 hc.sel_dot]
  rfl

/-- Entries the chain of programs keeps as they are. -/
def OkPair (p : Str × Str) : Prop :=
  p.1 ≠ [] ∧ p.2 ≠ [] ∧ Plain p.1 ∧ Plain p.2 ∧ ∀ c, p.1.head? = some c → c ≠ 0x23 ∧ c ≠ 0x20 ∧ c ≠ 0x09

theorem ok_cpairs (c : Cmavo) (hc : c.Good) : ∀ p ∈ cpairs c, OkPair p := by
  intro p hp
  rcases List.mem_cons.1 hp with rfl | hp
  · refine ⟨hc.word_ne, hc.eng_ne, hc.word_ok.2, hc.eng_ok, ?_⟩
    intro d hd
    exact ⟨(hc.word_head d hd).1, hc.word_ok.1 d (List.mem_of_head? hd)⟩
  · rw [List.mem_singleton.1 hp]
    refine ⟨by simp, hc.sel_ne, ?_, hc.sel_ok.2, ?_⟩
    · intro d hd
      rcases List.mem_cons.1 hd with rfl | hd
      · decide
      · exact hc.word_ok.2 d hd
    · intro d hd
      simp only [List.head?_cons, Option.some.injEq] at hd
      rw [← hd]; decide

theorem parse_ok {p : Str × Str} (h : OkPair p) : parse (entry p.1 p.2) = some p := by
  obtain ⟨a, b, c, d, e⟩ := h
  exact parse_entry p.1 p.2 a b (fun x => (c _ x).1 rfl) (fun x => (d _ x).1 rfl) e

/-- The table made from a list of entries, looked up. -/
theorem table_of_pairs (ps : List (Str × Str)) (h : ∀ p ∈ ps, OkPair p) :
    ∃ es, readTable (table (collect (Embed.lines ((ps.map (fun p => entry p.1 p.2)).flatMap (· ++ [0x0A]))))) = some es ∧
      ∀ key, lookup es key = .ok ((ps.reverse.find? (fun e => e.1 == key)).map (·.2)) := by
  have hnl : ∀ l ∈ ps.map (fun p => entry p.1 p.2), (0x0A : Byte) ∉ l := by
    intro l hl
    obtain ⟨p, hp, rfl⟩ := List.mem_map.1 hl
    obtain ⟨_, _, c, d, _⟩ := h p hp
    intro hm
    rcases List.mem_append.1 hm with hm | hm
    · exact (c _ hm).2.2.2 rfl
    · rcases List.mem_cons.1 hm with hm | hm
      · exact absurd hm (by decide)
      · exact (d _ hm).2.2.2 rfl
  rw [lines_join _ hnl]
  refine ⟨_, readTable_table _ ?_, ?_⟩
  · intro e he
    obtain ⟨l, hm, hd⟩ := mem_collect he
    obtain ⟨p, hp, rfl⟩ := List.mem_map.1 hm
    obtain ⟨_, _, c, d, _⟩ := h p hp
    rw [← parse_iff, parse_ok (h p hp)] at hd
    have hd : p = e := by simpa using hd
    rw [← hd]
    exact ⟨⟨fun x => (c _ x).2.1 rfl, fun x => (c _ x).2.2.1 rfl, fun x => (c _ x).2.2.2 rfl⟩,
      fun x => (d _ x).2.2.1 rfl, fun x => (d _ x).2.2.2 rfl⟩
  · intro key
    rw [lookup_find _ (collect_sorted _), collect_put, find_entries ps (fun p hp => parse_ok (h p hp)) [] key]
    simp

theorem find_flatC (cs : List Cmavo) (p : Str × Str → Bool) :
    (cs.flatMap cpairs).reverse.find? p = cs.reverse.findSome? (fun c => (cpairs c).reverse.find? p) := by
  induction cs with
  | nil => rfl
  | cons g gs ih =>
    rw [List.flatMap_cons, List.reverse_append, List.find?_append, ih, List.reverse_cons, List.findSome?_append]
    congr 1
    simp only [List.findSome?_cons, List.findSome?_nil]
    cases (cpairs g).reverse.find? p <;> rfl

theorem findSome_lastC (cs : List Cmavo) (p : Cmavo → Prop) [DecidablePred p] (v : Cmavo → Str × Str)
    (F : Cmavo → Option (Str × Str)) (hF : ∀ g ∈ cs, F g = if p g then some (v g) else none) :
    cs.findSome? F = (cs.find? (fun g => decide (p g))).map v := by
  induction cs with
  | nil => rfl
  | cons g gs ih =>
    rw [List.findSome?_cons, List.find?_cons, hF g List.mem_cons_self]
    by_cases h : p g
    · simp [h]
    · simp only [h, if_false, decide_false]
      exact ih (fun x hx => hF x (List.mem_cons_of_mem _ hx))

theorem c_sign (c : Cmavo) (hc : c.Good) (s : Byte) (r : Str) (hs : s = 0x25 ∨ s = 0x40) :
    (cpairs c).reverse.find? (fun e => e.1 == s :: r) = none := by
  rw [List.find?_eq_none]
  intro p hp
  simp only [beq_iff_eq]
  intro e
  rcases List.mem_cons.1 (List.mem_reverse.1 hp) with rfl | hp
  · have := hc.word_head s (by rw [show c.word = s :: r from e]; rfl)
    rcases hs with h | h
    · exact this.2.1 h
    · exact this.2.2.1 h
  · rw [List.mem_singleton.1 hp] at e
    simp only [List.cons.injEq] at e
    rcases hs with h | h <;> rw [h] at e <;> exact absurd e.1 (by decide)

theorem c_plus (c : Cmavo) (hc : c.Good) (w : Str) :
    (cpairs c).reverse.find? (fun e => e.1 == 0x2B :: w) = if c.word = w then some (0x2B :: w, c.selmaho) else none := by
  rw [find_same (cpairs c) (0x2B :: w) c.selmaho]
  · have : (∃ p ∈ cpairs c, p.1 = 0x2B :: w) ↔ c.word = w := by
      constructor
      · rintro ⟨p, hp, e⟩
        rcases List.mem_cons.1 hp with rfl | hp
        · exact absurd rfl (hc.word_head 0x2B (by rw [show c.word = 0x2B :: w from e]; rfl)).2.2.2
        · rw [List.mem_singleton.1 hp] at e
          simpa using e
      · intro h
        exact ⟨(0x2B :: c.word, c.selmaho), by simp [cpairs], by rw [h]⟩
    by_cases h : c.word = w
    · rw [if_pos (this.2 h), if_pos h]
    · rw [if_neg (fun x => h (this.1 x)), if_neg h]
  · intro p hp e
    rcases List.mem_cons.1 hp with rfl | hp
    · exact absurd rfl (hc.word_head 0x2B (by rw [show c.word = 0x2B :: w from e]; rfl)).2.2.2
    · rw [List.mem_singleton.1 hp]

theorem c_word (c : Cmavo) (w : Str) (hw : w.head? ≠ some 0x2B) :
    (cpairs c).reverse.find? (fun e => e.1 == w) = if c.word = w then some (w, c.eng) else none := by
  rw [find_same (cpairs c) w c.eng]
  · have : (∃ p ∈ cpairs c, p.1 = w) ↔ c.word = w := by
      constructor
      · rintro ⟨p, hp, e⟩
        rcases List.mem_cons.1 hp with rfl | hp
        · exact e
        · rw [List.mem_singleton.1 hp] at e
          exact absurd (by rw [← e]; rfl) hw
      · intro h
        exact ⟨(c.word, c.eng), by simp [cpairs], h⟩
    by_cases h : c.word = w
    · rw [if_pos (this.2 h), if_pos h]
    · rw [if_neg (fun x => h (this.1 x)), if_neg h]
  · intro p hp e
    rcases List.mem_cons.1 hp with rfl | hp
    · rfl
    · rw [List.mem_singleton.1 hp] at e
      exact absurd (by rw [← e]; rfl) hw

theorem pairs_plus (g : Gismu) (hg : g.Good) (w : Str) :
    (pairs g).reverse.find? (fun e => e.1 == 0x2B :: w) = none := by
  rw [List.find?_eq_none]
  intro p hp
  simp only [beq_iff_eq]
  intro e
  rcases (mem_pairs g p).1 (List.mem_reverse.1 hp) with rfl | ⟨q, hq, rfl | rfl⟩
  · exact absurd rfl (hg.word_head 0x2B (by rw [show g.word = 0x2B :: w from e]; rfl)).2.2.2
  · simp at e
  · simp at e

theorem flat_linesC (cs : List Cmavo) (lines : List Str) (h : CListed cs lines) :
    lines.flatMap cmavoLines = (cs.flatMap cpairs).map (fun p => entry p.1 p.2) := by
  induction h with
  | nil => rfl
  | cons h _ ih => rw [List.flatMap_cons, List.flatMap_cons, List.map_append, ih, cmavo_line _ _ h.1 h.2]

theorem good_memC {cs : List Cmavo} {lines : List Str} (h : CListed cs lines) : ∀ c ∈ cs, c.Good := by
  induction h with
  | nil => intro g hg; exact absurd hg List.not_mem_nil
  | cons h _ ih =>
    intro g hg
    rcases List.mem_cons.1 hg with rfl | hg
    · exact h.1
    · exact ih g hg

theorem findSome_none {α β : Type} (l : List α) (f : α → Option β) (h : ∀ a ∈ l, f a = none) : l.findSome? f = none := by
  rw [List.findSome?_eq_none_iff]; exact h

/-- **The whole way**: for every list of gismu and every list of cmavo laid out in columns, `mkdict.pl`,
`dict2inc.pl` and the compiler give a table in which

* a rafsi leads to the last gismu that has it and to the meaning of that gismu,
* `+` and a cmavo lead to the selma'o of the last line with the cmavo,
* a word leads to its meaning as a cmavo or, failing that, as a gismu. -/
theorem dictionary_built (gs : List Gismu) (cs : List Cmavo) (gl cl : List Str)
    (hg : Listed gs gl) (hc : CListed cs cl) :
    ∃ es, readTable (table (collect (Embed.lines ((mkdict gl cl).flatMap (· ++ [0x0A]))))) = some es ∧
      (∀ r, lookup es (0x40 :: r) = .ok ((lastWith (·.Has r) gs).map (·.word))) ∧
      (∀ r, lookup es (0x25 :: r) = .ok ((lastWith (·.Has r) gs).map (·.eng))) ∧
      (∀ w, lookup es (0x2B :: w) = .ok ((lastCmavo w cs).map (·.selmaho))) ∧
      ∀ w, (∀ c, w.head? = some c → c ≠ 0x25 ∧ c ≠ 0x40 ∧ c ≠ 0x2B) →
        lookup es w = .ok (((lastCmavo w cs).map (·.eng)).or ((lastWith (·.word = w) gs).map (·.eng))) := by
  have gg := good_mem hg
  have gc := good_memC hc
  have hm : mkdict gl cl = (gs.flatMap pairs ++ cs.flatMap cpairs).map (fun p => entry p.1 p.2) := by
    rw [mkdict, flat_lines gs gl hg, flat_linesC cs cl hc, List.map_append]
  obtain ⟨es, h1, h2⟩ := table_of_pairs (gs.flatMap pairs ++ cs.flatMap cpairs) (by
    intro p hp
    rcases List.mem_append.1 hp with hp | hp
    · obtain ⟨g, hgm, hp⟩ := List.mem_flatMap.1 hp
      exact plain_pairs g (gg g hgm) p hp
    · obtain ⟨c, hcm, hp⟩ := List.mem_flatMap.1 hp
      exact ok_cpairs c (gc c hcm) p hp)
  rw [hm]
  have h3 : ∀ key, lookup es key = .ok
      (((cs.reverse.findSome? (fun c => (cpairs c).reverse.find? (fun e => e.1 == key))).or
        (gs.reverse.findSome? (fun g => (pairs g).reverse.find? (fun e => e.1 == key)))).map (·.2)) := by
    intro key
    rw [h2, List.reverse_append, List.find?_append, find_flat, find_flatC]
  refine ⟨es, h1, ?_, ?_, ?_, ?_⟩
  · intro r
    rw [h3, findSome_none cs.reverse _ (fun c hcm => c_sign c (gc c (List.mem_reverse.1 hcm)) _ r (Or.inr rfl)),
      findSome_last gs.reverse (·.Has r) (fun g => (0x40 :: r, g.word)) _
        (fun g hgm => pairs_at g (gg g (List.mem_reverse.1 hgm)) r), Option.none_or, Option.map_map]
    rfl
  · intro r
    rw [h3, findSome_none cs.reverse _ (fun c hcm => c_sign c (gc c (List.mem_reverse.1 hcm)) _ r (Or.inl rfl)),
      findSome_last gs.reverse (·.Has r) (fun g => (0x25 :: r, g.eng)) _
        (fun g hgm => pairs_pct g (gg g (List.mem_reverse.1 hgm)) r), Option.none_or, Option.map_map]
    rfl
  · intro w
    rw [h3, findSome_none gs.reverse _ (fun g hgm => pairs_plus g (gg g (List.mem_reverse.1 hgm)) w),
      findSome_lastC cs.reverse (·.word = w) (fun c => (0x2B :: w, c.selmaho)) _
        (fun c hcm => c_plus c (gc c (List.mem_reverse.1 hcm)) w), Option.or_none, Option.map_map]
    rfl
  · intro w hw
    rw [h3, findSome_last gs.reverse (·.word = w) (fun g => (w, g.eng)) _
        (fun g _ => pairs_word g w (fun c hc => ⟨(hw c hc).1, (hw c hc).2.1⟩)),
      findSome_lastC cs.reverse (·.word = w) (fun c => (w, c.eng)) _
        (fun c _ => c_word c w (fun e => (hw _ e).2.2 rfl)), Option.map_or, Option.map_map, Option.map_map]
    rfl

/-! ## Cases -/

/-- Lines of the lists. -/
example : gismuLines (bytes "badri     dri      sad") =
    [bytes "badri:sad", bytes "%dri:sad", bytes "@dri:badri", bytes "%badr:sad", bytes "@badr:badri"] := by
  decide +kernel
example : cmavoLines (bytes ".a'a       UI1      attentive") = [bytes "a'a:attentive", bytes "+a'a:UI1"] := by
  decide +kernel

def badri : Gismu := ⟨bytes "badri", [bytes "dri"], bytes "sad"⟩

example : badri.Good :=
  ⟨by decide +kernel, ⟨by unfold NoBlank; decide +kernel, by unfold Plain; decide +kernel⟩,
   (by intro c hc; have : c = 0x62 := by simpa [badri, bytes] using hc.symm
       rw [this]; decide),
   by unfold Plain; decide +kernel, by decide +kernel, by decide +kernel, by unfold Plain; decide +kernel⟩

example : Laid badri (bytes "badri     dri      sad") := by
  refine ⟨bytes " ", bytes "    dri     ", 0x20, [], [], by decide +kernel, by unfold Blanks; decide +kernel,
    by decide +kernel, ?_, by decide +kernel, by simp, by decide +kernel, Or.inl rfl⟩
  exact .cons (bytes "    ") (bytes "dri") (bytes "     ") [] (by unfold Blanks; decide +kernel) (by decide +kernel)
    (by unfold NoBlank; decide +kernel) (Or.inl rfl) (.nil _ (by unfold Blanks; decide +kernel))

def ahe : Cmavo := ⟨bytes "a'a", bytes "UI1", bytes "attentive"⟩

example : ahe.Good :=
  ⟨by decide +kernel, ⟨by unfold NoBlank; decide +kernel, by unfold Plain; decide +kernel⟩, by decide +kernel,
   (by intro c hc; have : c = 0x61 := by simpa [ahe, bytes] using hc.symm
       rw [this]; decide),
   by decide +kernel, ⟨by unfold NoBlank; decide +kernel, by unfold Plain; decide +kernel⟩, by decide +kernel,
   by decide +kernel,
   (by intro c hc; have : c = 0x65 := by simpa [ahe, bytes] using hc.symm
       rw [this]; decide),
   by unfold Plain; decide +kernel⟩

example : CLaid ahe (bytes ".a'a       UI1      attentive") :=
  ⟨bytes ".a'a      ", bytes " UI1  ", bytes "    ", [], [], by decide +kernel, by decide +kernel,
    ⟨[], [0x2E], bytes "      ", by decide +kernel, by unfold Blanks; decide +kernel, Or.inr rfl, by unfold Blanks; decide +kernel⟩,
    by decide +kernel,
    ⟨[0x20], [], bytes "  ", by decide +kernel, by unfold Blanks; decide +kernel, Or.inl rfl, by unfold Blanks; decide +kernel⟩,
    by decide +kernel, by unfold Blanks; decide +kernel, by decide +kernel, Or.inl rfl⟩

end Jbo.MkDict
