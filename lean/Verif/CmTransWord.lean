import Verif.CmTransThm
/-!
# Which words `cmafihe` takes for fu'ivla
-/

namespace Jbo.CmTrans
open Jbo.CmTrans.Spec

theorem hyphen_iff {w : Word} {i : Nat} (hi : 1 ≤ i) : hyphenAt w i = true ↔ ∃ a h b, w[i - 1]? = some a ∧ w[i]? = some h ∧ w[i + 1]? = some b ∧ marksFuivla a h b := by
  unfold hyphenAt
  have notR : ∀ c, isConsonantNotR c = true ↔ consonant c ∧ c ≠ 'r' := by
    intro c
    unfold isConsonantNotR consonant
    rw [show "bcdfgjklmnprstvxz".toList = "bcdfgjklmnp".toList ++ 'r' :: "stvxz".toList from rfl,
      show "bcdfgjklmnpstvxz".toList = "bcdfgjklmnp".toList ++ "stvxz".toList from rfl]
    rw [List.contains_iff_mem]
    simp only [List.mem_append, List.mem_cons]
    constructor
    · rintro (h | h)
      · exact ⟨.inl h, fun e => by rw [e] at h; revert h; decide⟩
      · exact ⟨.inr (.inr h), fun e => by rw [e] at h; revert h; decide⟩
    · rintro ⟨h | h | h, h2⟩
      · exact .inl h
      · exact absurd h h2
      · exact .inr h
  have cons : ∀ c, isConsonant c = true ↔ consonant c := by
    intro c
    unfold isConsonant consonant
    rw [List.contains_iff_mem]
  split
  · rename_i a h b e1 e2 e3
    rw [e1, e2, e3]
    simp only [notR, cons, Bool.or_eq_true, Bool.and_eq_true, decide_eq_true_iff, beq_iff_eq, Option.some.injEq]
    constructor
    · intro hh
      refine ⟨a, h, b, rfl, rfl, rfl, ?_⟩
      rcases hh with ⟨⟨⟨h1, h2⟩, rfl⟩, h3, h4⟩ | ⟨⟨h1, h2⟩, (⟨⟨rfl, rfl⟩, rfl⟩ | ⟨⟨rfl, rfl⟩, rfl⟩) | rfl⟩
      · exact ⟨h1, h3, .inl ⟨rfl, h2, h4⟩⟩
      · exact ⟨h1, h2, .inr (.inr ⟨rfl, .inl ⟨rfl, rfl⟩⟩)⟩
      · exact ⟨h1, h2, .inr (.inr ⟨rfl, .inr ⟨rfl, rfl⟩⟩)⟩
      · exact ⟨h1, h2, .inr (.inl rfl)⟩
    · rintro ⟨a', h', b', rfl, rfl, rfl, h1, h2, h3⟩
      rcases h3 with ⟨rfl, h3, h4⟩ | rfl | ⟨rfl, ⟨rfl, rfl⟩ | ⟨rfl, rfl⟩⟩
      · exact .inl ⟨⟨⟨h1, h3⟩, rfl⟩, h2, h4⟩
      · exact .inr ⟨⟨h1, h2⟩, .inr rfl⟩
      · exact .inr ⟨⟨h1, h2⟩, .inl (.inl ⟨⟨rfl, rfl⟩, rfl⟩)⟩
      · exact .inr ⟨⟨h1, h2⟩, .inl (.inr ⟨⟨rfl, rfl⟩, rfl⟩)⟩
  · rename_i hno
    constructor
    · intro h; cases h
    · rintro ⟨a, h, b, e1, e2, e3, _⟩
      exact absurd e3 (hno a h b e1 e2)

/-- No letter of a word marks a fu'ivla. -/
def Calm : Word → Prop
  | a :: h :: b :: r => ¬ marksFuivla a h b ∧ Calm (h :: b :: r)
  | _ => True

theorem calm_none : ∀ {w : Word}, Calm w → ∀ i, 1 ≤ i → hyphenAt w i = false
  | [], _, i, hi => by
    rw [Bool.eq_false_iff]
    intro h
    obtain ⟨_, _, _, h1, _⟩ := (hyphen_iff hi).1 h
    cases h1
  | [_], _, i, hi => by
    rw [Bool.eq_false_iff]
    intro h
    obtain ⟨_, _, _, h1, h2, _⟩ := (hyphen_iff hi).1 h
    rw [List.getElem?_eq_none (by simp; omega)] at h2
    cases h2
  | [_, _], _, i, hi => by
    rw [Bool.eq_false_iff]
    intro h
    obtain ⟨_, _, _, h1, h2, h3, _⟩ := (hyphen_iff hi).1 h
    rw [List.getElem?_eq_none (by simp; omega)] at h3
    cases h3
  | a :: x :: b :: r, hc, i, hi => by
    rw [Bool.eq_false_iff]
    intro h
    obtain ⟨a', x', b', h1, h2, h3, h4⟩ := (hyphen_iff hi).1 h
    obtain ⟨j, rfl⟩ : ∃ j, i = j + 1 := ⟨i - 1, by omega⟩
    cases j with
    | zero =>
      cases h1
      cases h2
      cases h3
      exact hc.1 h4
    | succ j =>
      have := calm_none hc.2 (j + 1) (by omega)
      rw [(hyphen_iff (w := x :: b :: r) (i := j + 1) (by omega)).2 ⟨a', x', b', h1, h2, h3, h4⟩] at this
      cases this

theorem vowel_not {c : Char} (h : vowel c) : ¬ consonant c ∧ c ∉ ['l', 'n', 'r'] := by
  simp only [vowel, List.mem_cons, List.not_mem_nil, or_false] at h
  rcases h with rfl | rfl | rfl | rfl | rfl <;> decide

theorem nb1 {a h b : Char} (ha : ¬ consonant a) : ¬ marksFuivla a h b := fun m => ha m.1
theorem nb3 {a h b : Char} (hb : ¬ consonant b) : ¬ marksFuivla a h b := fun m => hb m.2.1
theorem nb2 {a h b : Char} (hh : h ∉ ['l', 'n', 'r']) : ¬ marksFuivla a h b := by
  rintro ⟨_, _, ⟨rfl, _⟩ | rfl | ⟨rfl, _⟩⟩ <;> exact hh (by decide)

/-- After these two letters a consonant does not make a mark of the second. -/
def Quiet (x y : Char) : Prop := ¬ consonant x ∨ y ∉ ['l', 'n', 'r']

theorem quiet_nb {x y a : Char} (h : Quiet x y) : ¬ marksFuivla x y a := h.elim nb1 nb2

/-- A lujvo of components of the right forms. -/
def Proper (ps : List Part) (last : Word) : Prop := (∀ p ∈ ps, Rafsi p.rafsi) ∧ (Rafsi last ∨ Gismu last)

theorem quiet_vowel {x y : Char} (h : vowel y) : Quiet x y := .inr (vowel_not h).2
theorem quiet_after {x y : Char} (h : vowel x) : Quiet x y := .inl (vowel_not h).1

/-- A rafsi of three letters keeps the word calm, and what stands at its end is quiet. -/
theorem rafsi3 {a b c x y : Char} (hr : Rafsi [a, b, c]) (hq : Quiet x y) : Quiet b c ∧ ∀ t, Calm (b :: c :: t) → Calm (x :: y :: a :: b :: c :: t) := by
  rcases hr with ⟨_, hb, _⟩ | ⟨⟨_, _, ha⟩, hc⟩
  · exact ⟨quiet_after hb, fun t ht => ⟨quiet_nb hq, nb3 (vowel_not hb).1, nb2 (vowel_not hb).2, ht⟩⟩
  · exact ⟨quiet_vowel hc, fun t ht => ⟨quiet_nb hq, nb2 ha, nb3 (vowel_not hc).1, ht⟩⟩

theorem rafsi4 {a b c e x y : Char} (hr : Rafsi [a, b, c, e]) (hq : Quiet x y) (t : Word) (ht : Calm (c :: e :: t)) :
    Calm (x :: y :: a :: b :: c :: e :: t) := by
  rcases hr with ⟨_, hb, _⟩ | ⟨⟨_, _, ha⟩, hc, _⟩
  · exact ⟨quiet_nb hq, nb3 (vowel_not hb).1, nb2 (vowel_not hb).2, nb1 (vowel_not hb).1, ht⟩
  · exact ⟨quiet_nb hq, nb2 ha, nb3 (vowel_not hc).1, nb2 (vowel_not hc).2, ht⟩

theorem calm_lujvo : ∀ (ps : List Part) (last : Word) (first : Bool), Lujvo first ps last → Proper ps last → ∀ x y, Quiet x y → Calm (x :: y :: wordOf ps last) := by
  intro ps
  induction ps with
  | nil =>
    intro last first _ hp x y hq
    rw [wordOf]
    rcases hp.2 with hr | hr
    · match last, hr with
      | [a, b, c], hr => exact (rafsi3 hr hq).2 [] trivial
      | [a, b, c, e], hr => exact rafsi4 hr hq [] trivial
    · match last, hr with
      | [a, b, c, e, f], hr =>
        obtain ⟨hr, hf⟩ := hr
        rcases hr with ⟨_, hb, _, _⟩ | ⟨⟨_, _, ha⟩, hc, _⟩
        · exact ⟨quiet_nb hq, nb3 (vowel_not hb).1, nb2 (vowel_not hb).2, nb1 (vowel_not hb).1, nb3 (vowel_not hf).1, trivial⟩
        · exact ⟨quiet_nb hq, nb2 ha, nb3 (vowel_not hc).1, nb2 (vowel_not hc).2, nb1 (vowel_not hc).1, trivial⟩
  | cons p ps ih =>
    intro last first h hp x y hq
    obtain ⟨raf, tie⟩ := p
    have ih' := ih last false h.2.2.2 ⟨fun q hq => hp.1 q (List.mem_cons_of_mem _ hq), hp.2⟩
    have hr := hp.1 _ (List.mem_cons_self ..)
    have ht := h.2.2.1
    rw [wordOf]
    generalize wordOf ps last = rest at ih' ht ⊢
    simp only at hr ht ⊢
    have hyq : ∀ c, Quiet c 'y' := fun c => .inr (by decide)
    have hyc : ¬ consonant 'y' := by decide
    match raf, hr with
    | [a, b, c], hr =>
      obtain ⟨hq', h3⟩ := rafsi3 hr hq
      rw [List.append_assoc]
      refine h3 _ ?_
      rcases ht with ht | ⟨_, ht⟩
      · simp only at ht
        subst ht
        exact ⟨nb3 hyc, ih' _ _ (hyq c)⟩
      · split at ht
        · rename_i hd
          have hc : vowel c := hd.2.2
          rcases ht with ht | ⟨ht, _⟩ | ⟨ht, _⟩ <;> simp only at ht <;> subst ht
          · exact ⟨nb2 (vowel_not hc).2, ih' _ _ (quiet_after hc)⟩
          · exact ⟨nb2 (vowel_not hc).2, ih' _ _ (quiet_after hc)⟩
          · exact ih' _ _ hq'
        · simp only at ht
          subst ht
          exact ih' _ _ hq'
    | [a, b, c, e], hr =>
      rw [List.append_assoc]
      refine rafsi4 hr hq _ ?_
      rcases ht with ht | ⟨hc, ht⟩
      · simp only at ht
        subst ht
        exact ⟨nb3 hyc, ih' _ _ (hyq e)⟩
      · have hc : c = '\'' := by
          rcases hc with hc | hc
          · cases hc
          · simpa using hc
        subst hc
        have he : vowel e := by
          rcases hr with ⟨_, _, ⟨_, he⟩ | ⟨hn, _⟩⟩ | ⟨_, hn, _⟩
          · exact he
          · exact absurd hn (by decide)
          · exact absurd hn (by decide)
        split at ht
        · rcases ht with ht | ⟨ht, _⟩ | ⟨ht, _⟩ <;> simp only at ht <;> subst ht
          · exact ⟨nb2 (vowel_not he).2, ih' _ _ (quiet_after he)⟩
          · exact ⟨nb2 (vowel_not he).2, ih' _ _ (quiet_after he)⟩
          · exact ih' _ _ (quiet_vowel he)
        · simp only at ht
          subst ht
          exact ih' _ _ (quiet_vowel he)

/-- **A lujvo is never taken for a fu'ivla.** -/
theorem lujvo_not_fuivla (d : Word → Option Word) (ps : List Part) (last : Word) (h : Lujvo true ps last) (hp : Proper ps last) :
    translateUnknown d (wordOf ps last) = translateLujvo d (wordOf ps last) := by
  have hc : Calm (wordOf ps last) := by
    have := calm_lujvo ps last true h hp 'a' 'a' (.inl (by decide))
    obtain ⟨x, y, z, r, e, _⟩ := rest_form h
    rw [e] at this ⊢
    exact this.2.2
  have : findHyphen (wordOf ps last) = none := by
    unfold findHyphen
    rw [List.find?_eq_none]
    intro i hi
    rw [calm_none hc i (List.mem_range'_1.1 hi).1]
    decide
  rw [translateUnknown, this]

/-- **A fu'ivla with a hyphen** is glossed by what stands before the first hyphen, taken as a lujvo, and by the rest as it is. -/
theorem fuivla_glossed (d : Word → Option Word) (w : Word) (i : Nat) (a h b : Char) (hl : i + 2 < w.length) (hi : 1 ≤ i) (h1 : w[i - 1]? = some a)
    (h2 : w[i]? = some h) (h3 : w[i + 1]? = some b) (hm : marksFuivla a h b)
    (hfirst : ∀ j a' h' b', 1 ≤ j → j < i → w[j - 1]? = some a' → w[j]? = some h' → w[j + 1]? = some b' → ¬ marksFuivla a' h' b') :
    translateUnknown d w = translateLujvo d (w.take i) ++ ['-', '['] ++ w.drop (i + 1) ++ [']'] := by
  have : findHyphen w = some i := by
    unfold findHyphen
    rw [List.find?_range'_eq_some]
    refine ⟨(hyphen_iff hi).2 ⟨a, h, b, h1, h2, h3, hm⟩, ?_, fun j hj1 hj2 => ?_⟩
    · rw [List.mem_range'_1]; omega
    · rw [Bool.not_eq_true', Bool.eq_false_iff]
      intro hh
      obtain ⟨a', h', b', e1, e2, e3, e4⟩ := (hyphen_iff hj1).1 hh
      exact hfirst j a' h' b' hj1 hj2 e1 e2 e3 e4
  rw [translateUnknown, this]
  rfl

/-- **All other words** are taken for lujvo: those in which no letter marks a fu'ivla, save perhaps with only one letter after it. -/
theorem not_fuivla (d : Word → Option Word) (w : Word)
    (h : ∀ i a c b, 1 ≤ i → i + 2 < w.length → w[i - 1]? = some a → w[i]? = some c → w[i + 1]? = some b → ¬ marksFuivla a c b) :
    translateUnknown d w = translateLujvo d w := by
  have : findHyphen w = none := by
    unfold findHyphen
    rw [List.find?_eq_none]
    intro i hi hh
    obtain ⟨h1, h2⟩ := List.mem_range'_1.1 hi
    obtain ⟨a, c, b, e1, e2, e3, e4⟩ := (hyphen_iff h1).1 hh
    exact h i a c b h1 (by omega) e1 e2 e3 e4
  rw [translateUnknown, this]

/-- *kalr* followed by a single consonant is one. -/
example : ∀ i a c b, 1 ≤ i → i + 2 < "kalrt".toList.length → "kalrt".toList[i - 1]? = some a → "kalrt".toList[i]? = some c → "kalrt".toList[i + 1]? = some b →
    ¬ marksFuivla a c b := by
  intro i a c b h1 h2 e1 e2 e3
  have : i = 1 ∨ i = 2 := by
    have : "kalrt".toList.length = 5 := rfl
    omega
  rcases this with rfl | rfl <;> cases e1 <;> cases e2 <;> cases e3 <;> decide

/-! ## The buffers -/

theorem comp_short (d : Word → Option Word) (n : Nat) (hd : ∀ w t, d w = some t → t.length ≤ n) (key : Word) (c : Nat) : (gloss d key c).length ≤ n + 11 := by
  have hget : ∀ (x : Word), x.length ≤ 2 → ((d key).getD x).length ≤ n + 2 := by
    intro x hx
    cases h : d key with
    | none => simp; omega
    | some t => have := hd _ _ h; simp; omega
  have hn : (named c).length ≤ 9 := by
    unfold named
    repeat' split
    all_goals decide
  unfold gloss
  split
  · have := hget ['?'] (by decide); omega
  · split
    · rename_i t h
      have := hd _ _ h; omega
    · have := hget ['?', '?'] (by decide)
      rw [List.length_append]; omega

/-- What is written for any text, lujvo or not. -/
theorem loop_short (d : Word → Option Word) (n : Nat) (hd : ∀ w t, d w = some t → t.length ≤ n) : ∀ (fuel : Nat) (w result : Word) (initial : Bool) (conv : Nat)
    (r : Word), (initial = true → result = []) → lujvoLoop d fuel w result initial conv = some r → r.length ≤ result.length + (w.length / 3 + 1) * (n + 12) := by
  intro fuel
  induction fuel with
  | zero => intro _ _ _ _ _ _ h; cases h
  | succ fuel ih =>
    intro w result initial conv r hres h
    have one : ∀ key, (appendTrans (translateComp d key conv).1 result initial).length ≤ result.length + (n + 12) := by
      intro key
      rw [(comp_gloss d key result initial conv).1, List.length_append]
      have := comp_short d n hd key conv
      split <;> simp <;> omega
    have go : ∀ (k : Nat) (r' : Word) (c' : Nat), 3 ≤ k → 5 < w.length → r'.length ≤ result.length + (n + 12) →
        (if w.drop k = [] then some r' else lujvoLoop d fuel (w.drop k) r' false c') = some r → r.length ≤ result.length + (w.length / 3 + 1) * (n + 12) := by
      intro k r' c' hk hw hr' he
      have h3 : 1 ≤ w.length / 3 := by omega
      split at he
      · cases he
        have : 1 * (n + 12) ≤ (w.length / 3 + 1) * (n + 12) := Nat.mul_le_mul_right _ (by omega)
        omega
      · have := ih _ _ false _ _ nofun he
        have h4 : (w.drop k).length / 3 + 1 ≤ w.length / 3 := by rw [List.length_drop]; omega
        have h5 := Nat.mul_le_mul_right (n + 12) h4
        rw [Nat.add_mul, Nat.one_mul]
        omega
    by_cases h5 : w.length ≤ 5
    · obtain h := (step_last d w h5 fuel result initial hres conv).symm.trans h
      cases h
      have := comp_short d n hd (keyOf w) conv
      have h1 : 1 * (n + 12) ≤ (w.length / 3 + 1) * (n + 12) := Nat.mul_le_mul_right _ (by omega)
      rw [List.length_append]
      split <;> simp <;> omega
    rw [lujvoLoop] at h
    simp only at h
    rw [if_neg (by omega), if_neg (by omega)] at h
    have h6 : 5 < w.length := by omega
    split at h
    · split at h
      · exact go _ _ _ (by omega) h6 (by omega) h
      · exact go _ _ _ (by omega) h6 (one _) h
    split at h
    · exact go _ _ _ (by omega) h6 (one _) h
    split at h
    · exact go _ _ _ (by split <;> omega) h6 (one _) h
    · split at h
      · exact go _ _ _ (by split <;> omega) h6 (by omega) h
      · exact go _ _ _ (by split <;> omega) h6 (one _) h

/-- **The buffers of 65536 bytes are large enough**, for any text of up to 300 bytes and entries of up to 600. -/
theorem unknown_fits (d : Word → Option Word) (hd : ∀ w t, d w = some t → t.length ≤ 600) (w : Word) (hw : w.length ≤ 300) :
    (translateLujvo d w).length < 65536 ∧ (translateUnknown d w).length < 65536 := by
  have key : ∀ v : Word, v.length ≤ 300 → (translateLujvo d v).length ≤ 61812 := by
    intro v hv
    have := loop_short d 600 hd _ v [] true 0 _ (fun _ => rfl) (lujvo_ends d v)
    have h1 : v.length / 3 + 1 ≤ 101 := by omega
    have h2 := Nat.mul_le_mul_right (600 + 12) h1
    simp only [List.length_nil] at this
    omega
  have h1 := key w hw
  refine ⟨by omega, ?_⟩
  unfold translateUnknown
  split
  · rename_i h _
    have := key (w.take h) (by rw [List.length_take]; omega)
    simp only [List.length_append, List.length_drop]
    rw [show "-[".toList.length = 2 from rfl, show "]".toList.length = 1 from rfl]
    omega
  · omega

/-! ## Examples -/

/-- A dictionary as `mkdict.pl` makes it: gismu with places, rafsi without. -/
def few (w : Word) : Option Word :=
  ([("klama", "go"), ("klama2", "destination"), ("valsi", "word"), ("%bri", "bridi"), ("%bar", "out"), ("%sai", "scenery"), ("%cidj", "food"), ("%vla", "word")].find?
    (·.1.toList == w)).map (·.2.toList)

/-- *bar-y-sel-klama* is a lujvo with a conversion before a gismu, *bri-vla*, *sai-r-bri-vla* and *sel-bri-vla* are lujvo. -/
example : Lujvo true ([⟨"bar".toList, ['y']⟩] ++ [⟨"sel".toList, []⟩]) "klama".toList ∧ Proper ([⟨"bar".toList, ['y']⟩] ++ [⟨"sel".toList, []⟩]) "klama".toList ∧
    wordOf ([⟨"bar".toList, ['y']⟩] ++ [⟨"sel".toList, []⟩]) "klama".toList = "baryselklama".toList := by
  refine ⟨?_, ⟨?_, ?_⟩, rfl⟩
  · simp only [List.cons_append, List.nil_append, Lujvo, Tied, Hyphened]
    decide
  · intro p hp
    simp only [List.cons_append, List.nil_append, List.mem_cons, List.not_mem_nil, or_false] at hp
    rcases hp with rfl | rfl <;> decide
  · exact .inr (by decide)

example : translateUnknown few "baryselklama".toList = "out-destination".toList ∧
    hyphened (meant few 0 ([⟨"bar".toList, ['y']⟩] ++ [⟨"sel".toList, []⟩]) "klama".toList) = "out-destination".toList := by decide +kernel

example : Lujvo true [⟨"sai".toList, ['r']⟩, ⟨"bri".toList, []⟩] "vla".toList ∧
    translateUnknown few (wordOf [⟨"sai".toList, ['r']⟩, ⟨"bri".toList, []⟩] "vla".toList) = "scenery-bridi-word".toList := by
  refine ⟨?_, by decide +kernel⟩
  simp only [Lujvo, Tied, Hyphened]
  decide

/-- The defects: *selbrivla*, where the conversion is shown twice and a hyphen stands first (`lujvo_leading`, `conversion_spreads`). -/
example : Lujvo true [⟨"sel".toList, []⟩, ⟨"bri".toList, []⟩] "vla".toList ∧
    translateUnknown few "selbrivla".toList = "-2nd conv-bridi-2nd conv-word".toList ∧
    hyphened (meant few 0 [⟨"sel".toList, []⟩, ⟨"bri".toList, []⟩] "vla".toList) = "2nd conv-bridi-word".toList := by
  refine ⟨?_, by decide +kernel, by decide +kernel⟩
  simp only [Lujvo, Tied, Hyphened]
  decide

/-- A fu'ivla (`fuivla_glossed`). -/
example : translateUnknown few "cidjrspageti".toList = "food-[spageti]".toList ∧ marksFuivla 'j' 'r' 's' := by decide +kernel

/-- The hypothesis of `unknown_fits`. -/
example : ∀ w t, few w = some t → t.length ≤ 600 := by
  intro w t h
  obtain ⟨e, he, rfl⟩ := Option.map_eq_some_iff.1 h
  exact (by decide : ∀ e ∈ [("klama", "go"), ("klama2", "destination"), ("valsi", "word"), ("%bri", "bridi"), ("%bar", "out"), ("%sai", "scenery"),
    ("%cidj", "food"), ("%vla", "word")], e.2.toList.length ≤ 600) e (List.mem_of_find?_eq_some he)

end Jbo.CmTrans
