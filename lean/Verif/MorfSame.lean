import Verif.MorfThm
/-!
# Commas and capital letters (C41)
-/

namespace Jbo.Morf
open Jbo.Dfasyn

/-- The same letter, at another position and perhaps with another case. -/
def Alike (f : Nat → Nat) (a b : At) : Prop := b.1 = f a.1 ∧ mapchar a.2 % 32 = mapchar b.2 % 32 ∧ vmapchar a.2 = vmapchar b.2

/-- The same text, last letter first. -/
inductive Like (f : Nat → Nat) : List At → List At → Prop
  | nil : Like f [] []
  | cons {a b r r'} : Alike f a b → Like f r r' → Like f (a :: r) (b :: r')

theorem entry_alike {f : Nat → Nat} {a b : At} (h : Alike f a b) (e : Fe) : e.entry a.2 = e.entry b.2 := by
  unfold Fe.entry; rw [h.2.1]

theorem next_alike {f : Nat → Nat} {a b : At} (h : Alike f a b) (e : Fe) : e.next a.2 = e.next b.2 := by
  unfold Fe.next; rw [entry_alike h, h.2.1, h.2.2]

theorem Like.fe {f : Nat → Nat} {r r' : List At} (h : Like f r r') : fe (chars r) = fe (chars r') := by
  induction h with
  | nil => rfl
  | cons ha _ ih =>
    rw [chars_cons, chars_cons, Morf.fe, Morf.fe, ih, next_alike ha]

theorem Like.toks {f : Nat → Nat} {r r' : List At} (h : Like f r r') : toks (chars r) = toks (chars r') := by
  induction h with
  | nil => rfl
  | cons ha hr ih =>
    simp only [chars_cons, Morf.toks, ih, hr.fe, Fe.tok, ha.2.1, ha.2.2]

theorem Like.node {f : Nat → Nat} {r r' : List At} (h : Like f r r') : node (chars r) = node (chars r') := by
  unfold Morf.node
  rw [h.toks]

theorem Like.inhibited {f : Nat → Nat} {r r' : List At} (h : Like f r r') :
    inhibited (chars r) = inhibited (chars r') := by
  induction h with
  | nil => rfl
  | cons ha hr ih =>
    simp only [chars_cons, Morf.inhibited, ih, hr.fe, Fe.entry, ha.2.1]

theorem Like.isEmpty {f : Nat → Nat} {r r' : List At} (h : Like f r r') :
    (chars r).isEmpty = (chars r').isEmpty := by
  cases h <;> rfl

theorem Like.isStart {f : Nat → Nat} {r r' : List At} (h : Like f r r') {a b : At} (ha : Alike f a b) :
    isStart a.2 (chars r) = isStart b.2 (chars r') := by
  have h2 := (Like.cons ha h).inhibited
  simp only [chars_cons] at h2
  unfold Morf.isStart
  rw [h.isEmpty, h2, h.fe, Fe.entry, Fe.entry, ha.2.1]

theorem Like.starts {f : Nat → Nat} {r r' : List At} (h : Like f r r') : starts r' = (starts r).map f := by
  induction h with
  | nil => rfl
  | cons ha hr ih =>
    simp only [Morf.starts, hr.isStart ha]
    split
    · rw [List.map_cons, ih, ha.1]
    · exact ih

theorem Like.cstarts {f : Nat → Nat} {r r' : List At} (h : Like f r r') : cstarts r' = (cstarts r).map f := by
  induction h with
  | nil => rfl
  | cons ha hr ih =>
    rw [Morf.cstarts, Morf.cstarts, isCstart, isCstart, hr.fe, entry_alike ha]
    split
    · rw [List.map_cons, ih, ha.1]
    · exact ih

theorem Like.p2 {f : Nat → Nat} {r r' : List At} (h : Like f r r') : p2 r' = (p2 r).map f := by
  match h with
  | .nil => rfl
  | .cons _ .nil => rfl
  | .cons _ (.cons ha _) => simp [Morf.p2, ha.1]

theorem Like.hyph {f : Nat → Nat} {r r' : List At} (h : Like f r r') (x y : Name) :
    hyph x y r' = (hyph x y r).map f := by
  induction h with
  | nil => rfl
  | cons ha hr ih =>
    simp only [Morf.hyph, ← hr.node, ih, hr.p2]
    cases Morf.node (chars _) with
    | none => rfl
    | some i => simp only; split <;> rfl

theorem Like.reach {f : Nat → Nat} {r r' : List At} (h : Like f r r') : Like f (reach r) (reach r') := by
  induction h with
  | nil => exact .nil
  | @cons a b r r' ha hr ih =>
    simp only [Morf.reach, ← hr.node]
    cases Morf.node (chars r) with
    | none => exact ih
    | some i => exact .cons ha hr

/-! ## The result -/

def Xtra.mapped (f : Nat → Nat) : Xtra → Xtra
  | .none => .none
  | .stage3 h => .stage3 (h.map f)
  | .cmene a => .cmene ⟨a.bad, a.split, a.found.map (fun p => (f p.1, f p.2))⟩

def mapped (f : Nat → Nat) : Except Crash Result → Except Crash Result
  | .error e => .error e
  | .ok r => .ok ⟨r.type, r.starts.map f, r.xtra.mapped f⟩

def badMapped (f : Nat → Nat) : Except Crash Bc.Answer → Except Crash Bc.Answer
  | .error e => .error e
  | .ok a => .ok ⟨a.bad, a.split, a.found.map (fun p => (f p.1, f p.2))⟩

theorem dec_mapped (f : Nat → Nat) (d : Bool) (l : List Nat) :
    (if d = true then ((l.map f).reverse).dropLast else (l.map f).reverse) =
      (if d = true then l.reverse.dropLast else l.reverse).map f := by
  cases d
  · simp
  · simp [List.map_dropLast]

theorem scan_like {M B : Generated} (hM : Tables M) {cultural : Bool} {s s' : List Char} (hs : s.length ≤ 65536)
    (hs' : s'.length ≤ 65536) {f : Nat → Nat} (h : Like f (backwards s) (backwards s'))
    (hu : upper (chars (backwards s)) = upper (chars (backwards s')))
    (hb : Bc.isBadCmene B s' = badMapped f (Bc.isBadCmene B s)) :
    morfScan M B cultural s' = mapped f (morfScan M B cultural s) := by
  have h1 := morfScan_reach (B := B) hM cultural s hs
  have h2 := morfScan_reach (B := B) hM cultural s' hs'
  rw [← h.node] at h2
  cases hi : node (chars (backwards s)) with
  | none =>
    rw [hi] at h1 h2
    obtain ⟨r1, _, _, e1, e2⟩ := h1
    obtain ⟨r2, _, _, e3, e4⟩ := h2
    rw [e1, e3, e2, e4, h.reach.starts]
    simp [mapped, Xtra.mapped]
  | some i =>
    rw [hi] at h1 h2
    simp only at h1 h2
    rw [h1, h2]
    unfold result
    generalize classify (exitName i) = k
    obtain ⟨w, d⟩ := k
    simp only [h.starts, h.cstarts, h.hyph, ← hu]
    unfold finish
    simp only [dec_mapped]
    cases w
    case cmene =>
      simp only [hb]
      cases Bc.isBadCmene B s with
      | error e => rfl
      | ok a => simp [badMapped, mapped, Xtra.mapped]
    all_goals simp [mapped, Xtra.mapped]

/-! ## Commas -/

theorem bare_append (u v : List Char) : bare (u ++ v) = bare u ++ bare v := by simp [bare]

theorem bare_length (s : List Char) : (bare s).length ≤ s.length := List.length_filter_le ..

theorem letters_bare (s : List Char) : Bc.letters (bare s) = Bc.letters s := by
  simp [Bc.letters, bare]

theorem letters_length (s : List Char) : (Bc.letters s).length = (bare s).length := by
  simp [Bc.letters, bare]

theorem bare_bare (s : List Char) : bare (bare s) = bare s := by simp [bare]

theorem lettersAt_bare (rest done : List Char) :
    lettersAt done.length rest =
      (lettersAt (bare done).length (bare rest)).map (fun a => (atLetter (done ++ rest) a.1, a.2)) := by
  induction rest generalizing done with
  | nil => rfl
  | cons c rest ih =>
    have ih := ih (done ++ [c])
    rw [List.length_append, List.append_assoc, List.singleton_append, bare_append] at ih
    rw [lettersAt]
    by_cases hc : c = ','
    · subst hc
      rw [if_pos rfl]
      exact ih.trans (by simp [bare])
    · rw [if_neg hc]
      have hb : bare (c :: rest) = c :: bare rest := by simp [bare, hc]
      have hb1 : bare [c] = [c] := by simp [bare, hc]
      rw [hb, lettersAt, if_neg hc, List.map_cons]
      rw [hb1, List.length_append] at ih
      refine List.cons_eq_cons.2 ⟨?_, ih⟩
      have := Bc.position_next done rest c hc
      rw [letters_length] at this
      simp [atLetter, this]

theorem like_map (f : Nat → Nat) (r : List At) : Like f r (r.map (fun a => (f a.1, a.2))) := by
  induction r with
  | nil => exact .nil
  | cons a r ih => exact .cons ⟨rfl, rfl, rfl⟩ ih

theorem backwards_bare (s : List Char) :
    backwards s = (backwards (bare s)).map (fun a => (atLetter s a.1, a.2)) := by
  unfold backwards
  rw [List.map_reverse]
  exact congrArg List.reverse (lettersAt_bare s [])

/-- The position of a letter in a word without commas. -/
theorem position_bare (s : List Char) (k : Nat) (hk : k < (bare s).length) : Bc.position (bare s) k = some k := by
  have h := Bc.position_next ((bare s).take k) ((bare s).drop (k + 1)) (bare s)[k] (by
    have : (bare s)[k] ∈ s.filter (· ≠ ',') := List.getElem_mem hk
    simpa using (List.mem_filter.1 this).2)
  rw [letters_length] at h
  have h2 : bare ((bare s).take k) = (bare s).take k := by
    apply List.filter_eq_self.2
    intro a ha
    have := List.mem_of_mem_take ha
    rw [bare, List.mem_filter] at this
    exact this.2
  rw [h2, List.length_take, Nat.min_eq_left (by omega)] at h
  rwa [← List.drop_eq_getElem_cons hk, List.take_append_drop] at h

theorem position_atLetter (s : List Char) (k : Nat) (hk : k < (bare s).length) :
    Bc.position s k = some (atLetter s k) := by
  have hl : (lettersAt 0 (bare s)).length = (bare s).length := by
    have : ∀ n (t : List Char), (∀ c ∈ t, c ≠ ',') → (lettersAt n t).length = t.length := by
      intro n t
      induction t generalizing n with
      | nil => intro _; rfl
      | cons c t ih =>
        intro h
        rw [lettersAt, if_neg (h c List.mem_cons_self), List.length_cons, List.length_cons,
          ih _ (fun c hc => h c (List.mem_cons_of_mem _ hc))]
    apply this
    intro c hc
    rw [bare, List.mem_filter] at hc
    simpa using hc.2
  -- letter number `k` is somewhere in the word
  obtain ⟨u, c, v, e1, e2, e3⟩ : ∃ u c v, s = u ++ c :: v ∧ c ≠ ',' ∧ (bare u).length = k := by
    clear hl
    induction s generalizing k with
    | nil => simp [bare] at hk
    | cons c s ih =>
      by_cases hc : c = ','
      · have hb : bare (c :: s) = bare s := by simp [bare, hc]
        rw [hb] at hk
        obtain ⟨u, d, v, h1, h2, h3⟩ := ih k hk
        exact ⟨c :: u, d, v, by rw [h1]; rfl, h2, by rw [← h3]; simp [bare, hc]⟩
      · have hb : bare (c :: s) = c :: bare s := by simp [bare, hc]
        rw [hb, List.length_cons] at hk
        cases k with
        | zero => exact ⟨[], c, s, rfl, hc, rfl⟩
        | succ k =>
          obtain ⟨u, d, v, h1, h2, h3⟩ := ih k (by omega)
          exact ⟨c :: u, d, v, by rw [h1]; rfl, h2, by rw [← h3]; simp [bare, hc]⟩
  have h := Bc.position_next u v c e2
  rw [letters_length, e3, ← e1] at h
  rw [atLetter, h]; rfl

theorem bad_bare {B : Generated} (hB : Bc.Tables B) (s : List Char) :
    Bc.isBadCmene B s = badMapped (atLetter s) (Bc.isBadCmene B (bare s)) := by
  have hsays := (Bc.bad_cmene_exact hB (bare s) _).1 rfl
  have key : Bc.outcome (Bc.isBadCmene B s) = Bc.outcome (badMapped (atLetter s) (Bc.isBadCmene B (bare s))) := by
    rw [Bc.bad_cmene_exact hB]
    have hp : ∀ k l, Bc.position (bare s) k = some l → Bc.position s k = some (atLetter s l) := by
      intro k l h
      have hk : k < (bare s).length := by
        unfold Bc.position at h
        have := (List.getElem?_eq_some_iff.1 h).1
        have h2 := List.length_filter_le (fun p => decide ((bare s)[p]? ≠ some ',')) (List.range (bare s).length)
        rw [List.length_range] at h2
        omega
      rw [position_bare s k hk] at h
      rw [← Option.some.inj h]
      exact position_atLetter s k hk
    revert hsays
    rcases Bc.isBadCmene B (bare s) with e | ⟨b, c, fo⟩
    · intro hsays
      have : Bc.outcome (badMapped (atLetter s) (.error e)) = Bc.outcome (.error e) := rfl
      rw [this]
      revert hsays
      generalize ho : Bc.outcome (.error e) = o
      intro hsays
      cases hsays with
      | nothing a => exact .nothing (letters_bare s ▸ a)
      | shapeless p a b c => exact .shapeless p (letters_bare s ▸ a) b (letters_bare s ▸ c)
      | _ => cases e <;> simp [Bc.outcome] at ho
    · intro hsays
      change Bc.Says (bare s) (.says b c fo) at hsays
      change Bc.Says s (.says b c (fo.map _))
      cases hsays with
      | cut p i l t a b c d e f =>
        exact .cut p i _ _ (letters_bare s ▸ a) b (letters_bare s ▸ c) d (hp _ _ e) (hp _ _ f)
      | weak p i l t a b c d e f =>
        exact .weak p i _ _ (letters_bare s ▸ a) b (letters_bare s ▸ c) d (hp _ _ e) (hp _ _ f)
      | good a b c => exact .good (letters_bare s ▸ a) (letters_bare s ▸ b) (letters_bare s ▸ c)
      | noEnd a b c d =>
        exact .noEnd (letters_bare s ▸ a) (letters_bare s ▸ b) (letters_bare s ▸ c) (letters_bare s ▸ d)
  have e1 : ∀ e, Bc.isBadCmene B s = .error e → e = .uninit ∨ e = .bounds := fun e h => bad_errors hB h
  have e2 : ∀ e, Bc.isBadCmene B (bare s) = .error e → e = .uninit ∨ e = .bounds := fun e h => bad_errors hB h
  revert key e1 e2
  rcases Bc.isBadCmene B s with e | ⟨b, c, fo⟩ <;> rcases Bc.isBadCmene B (bare s) with e' | ⟨b', c', fo'⟩ <;>
    intro key e1 e2
  · rcases e1 e rfl with rfl | rfl <;> rcases e2 e' rfl with rfl | rfl <;> simp [Bc.outcome, badMapped] at key ⊢
  · rcases e1 e rfl with rfl | rfl <;> simp [Bc.outcome, badMapped] at key
  · rcases e2 e' rfl with rfl | rfl <;> simp [Bc.outcome, badMapped] at key
  · simp only [Bc.outcome, badMapped, Bc.Outcome.says.injEq] at key ⊢
    rw [key.1, key.2.1, key.2.2]

theorem mapped_relocated (s : List Char) : mapped (atLetter s) = relocated s := by
  funext r
  rcases r with e | ⟨t, st, x⟩
  · rfl
  · cases x <;> rfl

/-- **C41**: commas do not matter.  The result for a word is that for the word without its commas, with
every position moved to where the letter is. -/
theorem commas {M B : Generated} (hM : Tables M) (hB : Bc.Tables B) (cultural : Bool) {s : List Char}
    (hs : s.length ≤ 65536) : morfScan M B cultural s = relocated s (morfScan M B cultural (bare s)) := by
  have hlike : Like (atLetter s) (backwards (bare s)) (backwards s) := by
    have := like_map (atLetter s) (backwards (bare s))
    rwa [← backwards_bare] at this
  rw [← mapped_relocated]
  apply scan_like hM (Nat.le_trans (bare_length s) hs) hs hlike
  · rw [backwards_bare s]
    simp [chars, Function.comp_def]
  · exact bad_bare hB s

/-! ## Capital letters -/

def caseOk (c : Char) : Bool :=
  Nat.beq (mapchar c % 32) (mapchar c.toLower % 32) && Nat.beq (vmapchar c) (vmapchar c.toLower) &&
    (decide (128 ≤ mapchar c) == decide ('A' ≤ c ∧ c ≤ 'Z')) && (decide (c.toLower = ',') == decide (c = ','))

theorem caseOk_small : ∀ n < 128, caseOk (Char.ofNat n) = true := by decide +kernel

theorem caseOk_all (c : Char) : caseOk c = true := by
  by_cases h : c.toNat < 128
  · have := caseOk_small c.toNat h
    rwa [Char.ofNat_toNat] at this
  · have hn : ¬ (c ≤ 'Z') := fun hh => by
      have : c.toNat ≤ 'Z'.toNat := hh
      rw [show 'Z'.toNat = 90 from rfl] at this; omega
    have hl : c.toLower = c := by
      unfold Char.toLower
      split
      · rename_i hc
        exact absurd hc.2 (by
          intro h'
          have : c.toNat ≤ 90 := h'
          omega)
      · rfl
    unfold caseOk
    rw [hl, mapchar_big (by omega)]
    simp [hn]

theorem same_case {c d : Char} (h : c.toLower = d.toLower) :
    mapchar c % 32 = mapchar d % 32 ∧ vmapchar c = vmapchar d ∧ (c = ',' ↔ d = ',') := by
  have h1 := caseOk_all c
  have h2 := caseOk_all d
  unfold caseOk at h1 h2
  simp only [Bool.and_eq_true, beq_iff_eq] at h1 h2
  obtain ⟨⟨⟨a1, a2⟩, _⟩, a4⟩ := h1
  obtain ⟨⟨⟨b1, b2⟩, _⟩, b4⟩ := h2
  have a1 := Nat.eq_of_beq_eq_true a1
  have a2 := Nat.eq_of_beq_eq_true a2
  have b1 := Nat.eq_of_beq_eq_true b1
  have b2 := Nat.eq_of_beq_eq_true b2
  rw [h] at a1 a2 a4
  refine ⟨a1.trans b1.symm, a2.trans b2.symm, ?_⟩
  have := a4.symm.trans b4
  simpa using this

theorem like_case (k : Nat) : ∀ {s s' : List Char}, s.map Char.toLower = s'.map Char.toLower →
    Like id (lettersAt k s).reverse (lettersAt k s').reverse := by
  have happ : ∀ {r r' : List At}, Like id r r' → ∀ {a b}, Alike id a b → Like id (r ++ [a]) (r' ++ [b]) := by
    intro r r' h
    induction h with
    | nil => intro a b hab; exact .cons hab .nil
    | cons ha _ ih => intro a b hab; exact .cons ha (ih hab)
  intro s
  induction s generalizing k with
  | nil =>
    intro s' h
    cases s' with
    | nil => exact .nil
    | cons d s' => simp at h
  | cons c s ih =>
    intro s' h
    cases s' with
    | nil => simp at h
    | cons d s' =>
      simp only [List.map_cons, List.cons.injEq] at h
      obtain ⟨h1, h2, h3⟩ := same_case h.1
      rw [lettersAt, lettersAt]
      by_cases hc : c = ','
      · rw [if_pos hc, if_pos (h3.1 hc)]
        exact ih (k + 1) h.2
      · rw [if_neg hc, if_neg (fun hd => hc (h3.2 hd)), List.reverse_cons, List.reverse_cons]
        exact happ (ih (k + 1) h.2) ⟨rfl, h1, h2⟩

theorem chars_backwards (s : List Char) : chars (backwards s) = (bare s).reverse := by
  have : ∀ k, chars (lettersAt k s) = bare s := by
    induction s with
    | nil => intro k; rfl
    | cons c s ih =>
      intro k
      rw [lettersAt]
      by_cases hc : c = ','
      · rw [if_pos hc, ih]; simp [bare, hc]
      · rw [if_neg hc, chars_cons, ih]; simp [bare, hc]
  unfold backwards
  rw [← this 0]
  simp [chars, List.map_reverse]

theorem upper_caps (s : List Char) : upper (chars (backwards s)) = true ↔ Caps s := by
  rw [chars_backwards]
  unfold upper Caps
  rw [List.any_eq_true]
  have hcap : ∀ c, decide (128 ≤ mapchar c) = true ↔ ('A' ≤ c ∧ c ≤ 'Z') := by
    intro c
    have := caseOk_all c
    unfold caseOk at this
    simp only [Bool.and_eq_true, beq_iff_eq] at this
    rw [this.1.2, decide_eq_true_eq]
  constructor
  · rintro ⟨c, h1, h2⟩
    rw [List.mem_reverse, bare, List.mem_filter] at h1
    exact ⟨c, h1.1, (hcap c).1 h2⟩
  · rintro ⟨c, h1, h2⟩
    refine ⟨c, ?_, (hcap c).2 h2⟩
    rw [List.mem_reverse, bare, List.mem_filter]
    refine ⟨h1, ?_⟩
    have : c ≠ ',' := by rintro rfl; revert h2; decide
    simpa using this

theorem mapped_id (r : Except Crash Result) : mapped id r = r := by
  rcases r with e | ⟨t, st, x⟩
  · rfl
  · rcases x with _ | h | ⟨b, c, f⟩
    · simp [mapped, Xtra.mapped]
    · simp [mapped, Xtra.mapped]
    · cases f <;> simp [mapped, Xtra.mapped]

theorem bad_case {B : Generated} (hB : Bc.Tables B) {s s' : List Char}
    (h : s.map Char.toLower = s'.map Char.toLower) : Bc.isBadCmene B s' = Bc.isBadCmene B s := by
  have hlet : ∀ {s s' : List Char}, s.map Char.toLower = s'.map Char.toLower → Bc.letters s = Bc.letters s' := by
    intro s
    induction s with
    | nil => intro s' h; cases s' with
      | nil => rfl
      | cons d s' => simp at h
    | cons c s ih =>
      intro s' h
      cases s' with
      | nil => simp at h
      | cons d s' =>
        simp only [List.map_cons, List.cons.injEq] at h
        have h3 := (same_case h.1).2.2
        have := ih h.2
        unfold Bc.letters at this ⊢
        by_cases hc : c = ','
        · simp only [List.filter_cons, hc, h3.1 hc]; simpa using this
        · have hd : d ≠ ',' := fun hd => hc (h3.2 hd)
          rw [List.filter_cons, List.filter_cons, if_pos (by simpa using hc), if_pos (by simpa using hd)]
          rw [List.map_cons, List.map_cons, h.1, this]
  have hlen : s.length = s'.length := by
    have := congrArg List.length h
    simpa using this
  have hpos : ∀ k, Bc.position s k = Bc.position s' k := by
    intro k
    unfold Bc.position
    rw [hlen]
    congr 1
    apply List.filter_congr
    intro p _
    have hp : (s.map Char.toLower)[p]? = (s'.map Char.toLower)[p]? := by rw [h]
    rw [List.getElem?_map, List.getElem?_map] at hp
    cases h1 : s[p]? <;> cases h2 : s'[p]? <;> rw [h1, h2] at hp <;> simp at hp
    have := (same_case hp).2.2
    simp [this]
  have key := Bc.bad_cmene_letters hB s s' (hlet h) hpos
  have e1 : ∀ e, Bc.isBadCmene B s = .error e → e = .uninit ∨ e = .bounds := fun e h => bad_errors hB h
  have e2 : ∀ e, Bc.isBadCmene B s' = .error e → e = .uninit ∨ e = .bounds := fun e h => bad_errors hB h
  revert key e1 e2
  rcases Bc.isBadCmene B s with e | ⟨b, c, fo⟩ <;> rcases Bc.isBadCmene B s' with e' | ⟨b', c', fo'⟩ <;>
    intro key e1 e2
  · rcases e1 e rfl with rfl | rfl <;> rcases e2 e' rfl with rfl | rfl <;> simp [Bc.outcome] at key ⊢
  · rcases e1 e rfl with rfl | rfl <;> simp [Bc.outcome] at key
  · rcases e2 e' rfl with rfl | rfl <;> simp [Bc.outcome] at key
  · simp only [Bc.outcome, Bc.Outcome.says.injEq] at key ⊢
    rw [key.1, key.2.1, key.2.2]

theorem badMapped_id (r : Except Crash Bc.Answer) : badMapped id r = r := by
  rcases r with e | ⟨b, c, f⟩
  · rfl
  · cases f <;> rfl

/-- **C41**: the case of the letters does not matter, except for there being capital letters at all. -/
theorem case_only_flag {M B : Generated} (hM : Tables M) (hB : Bc.Tables B) (cultural : Bool) {s s' : List Char}
    (hs : s.length ≤ 65536) (h : s.map Char.toLower = s'.map Char.toLower) (hc : Caps s ↔ Caps s') :
    morfScan M B cultural s = morfScan M B cultural s' := by
  have hlen : s.length = s'.length := by simpa using congrArg List.length h
  have := scan_like (B := B) hM (cultural := cultural) hs (by omega) (like_case 0 h)
    (by rw [Bool.eq_iff_iff, upper_caps, upper_caps]; exact hc) (by rw [badMapped_id]; exact bad_case hB h)
  rw [mapped_id] at this
  exact this.symm

/-- **C41**: capital letters make a name of nothing and spoil everything else: a word with capital letters
is divided as without them, but only a name keeps its type. -/
theorem caps_effect {M B : Generated} (hM : Tables M) (hB : Bc.Tables B) (cultural : Bool) {s s' : List Char}
    (hs : s.length ≤ 65536) (h : s.map Char.toLower = s'.map Char.toLower) (hc : ¬ Caps s) (hc' : Caps s')
    {r' : Result} (hr' : morfScan M B cultural s' = .ok r') :
    ∃ r, morfScan M B cultural s = .ok r ∧ Capital r.type r'.type ∧ r'.starts = r.starts ∧ r'.xtra = r.xtra := by
  have hlen : s.length = s'.length := by simpa using congrArg List.length h
  have hl : Like id (backwards s) (backwards s') := like_case 0 h
  have hb := bad_case hB h
  have hu : upper (chars (backwards s)) = false := by
    rw [← Bool.not_eq_true, upper_caps]; exact hc
  have hu' : upper (chars (backwards s')) = true := (upper_caps s').2 hc'
  have h1 := morfScan_reach (B := B) hM cultural s hs
  have h2 := morfScan_reach (B := B) hM cultural s' (by omega)
  rw [← hl.node] at h2
  cases hi : node (chars (backwards s)) with
  | none =>
    rw [hi] at h1 h2
    obtain ⟨r1, _, _, e1, e2⟩ := h1
    obtain ⟨r2, _, _, e3, e4⟩ := h2
    rw [e3, e4, hl.reach.starts] at hr'
    injection hr' with hr'
    subst hr'
    exact ⟨_, e1, .bogus, by rw [e2]; simp, rfl⟩
  | some i =>
    rw [hi] at h1 h2
    simp only at h1 h2
    rw [h2] at hr'
    rw [h1]
    clear h1 h2
    unfold result at hr' ⊢
    generalize classify (exitName i) = k at hr' ⊢
    obtain ⟨w, d⟩ := k
    simp only [hl.starts, hl.cstarts, hl.hyph, hu, hu', List.map_id, Option.map_id_fun, id_eq] at hr' ⊢
    unfold finish small at hr' ⊢
    simp only [if_true, if_false, Bool.false_eq_true, hb] at hr' ⊢
    cases w
    case cmene =>
      simp only at hr' ⊢
      cases ha : Bc.isBadCmene B s with
      | error e => rw [ha] at hr'; cases hr'
      | ok a =>
        rw [ha] at hr'
        injection hr' with hr'
        subst hr'
        exact ⟨_, rfl, .cmene, rfl, rfl⟩
    case badTosmabru => injection hr' with hr'; subst hr'; exact ⟨_, rfl, .bogus, rfl, rfl⟩
    case culturalBadTosmabru => injection hr' with hr'; subst hr'; exact ⟨_, rfl, .bogus, rfl, rfl⟩
    case badSlinkui => injection hr' with hr'; subst hr'; exact ⟨_, rfl, .bogus, rfl, rfl⟩
    case unknown => injection hr' with hr'; subst hr'; exact ⟨_, rfl, .bogus, rfl, rfl⟩
    case culturalLujvo =>
      injection hr' with hr'; subst hr'
      exact ⟨_, rfl, .bad _ (by cases cultural <;> simp), rfl, rfl⟩
    all_goals
      injection hr' with hr'; subst hr'
      exact ⟨_, rfl, .bad _ (by simp), rfl, rfl⟩

/-- A name with commas and capitals; a gismu that is spoilt. -/
example {M B : Generated} (hM : Tables M) (hB : Bc.Tables B) :
    bare "do,lA,djan".toList = "dolAdjan".toList ∧
    morfScan M B false "dolAdjan".toList = .ok ⟨.cmene, [0], .cmene ⟨true, true, some (2, 4)⟩⟩ ∧
    morfScan M B false "do,lA,djan".toList = .ok ⟨.cmene, [0], .cmene ⟨true, true, some (3, 6)⟩⟩ ∧
    "leKlama".toList.map Char.toLower = "leklama".toList.map Char.toLower ∧
    ¬ Caps "leklama".toList ∧ Caps "leKlama".toList ∧
    morfScan M B false "leklama".toList = .ok ⟨.gismu, [0, 2], .none⟩ ∧
    morfScan M B false "leKlama".toList = .ok ⟨.badUppercase, [0, 2], .none⟩ := by
  refine ⟨by decide, ?_, ?_, by decide, by decide, by decide, ?_, ?_⟩ <;>
    exact known_scan hM hB (by decide) (by decide +kernel)

end Jbo.Morf
