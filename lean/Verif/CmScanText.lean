import Verif.CmScanWord
/-!
# Texts in the scanner of `cmafihe`
-/

namespace Jbo.CmScan
open Jbo.CmTrans (Word)
open Jbo.CmScan.Spec Re

/-! ## Words and blanks -/

def blankRe : Re := plus (set fun c => c == ' ' || c == '\t')

theorem void_newline : ∀ r ∈ rules, ∀ x ∈ starts, void ((r.1.deriv '\n').deriv x) = true := by decide +kernel
theorem first_newline : firstRule rules ['\n'] = some (.skip, 0) := by decide +kernel

theorem void_blank : ∀ b ∈ [' ', '\t'], void (BM.deriv b) = true ∧ void (CM.deriv b) = true ∧ void ((seq C LV).deriv b) = true ∧
    void (nameRe.deriv b) = true ∧ void ((plus L).deriv b) = true ∧ void (NL.deriv b) = true ∧ void ((seq NL (plus NL)).deriv b) = true ∧
    void ((set isOpen).deriv b) = true ∧ void ((plus (set isAlpha)).deriv b) = true := by decide +kernel

/-- **Blanks are one match that is left out.** -/
theorem blank_found {s : Word} (h : Blank s) (rest : Word) (hr : ∀ c, rest.head? = some c → wordChar c) :
    munch rules (s ++ rest) (s ++ rest).length = some (s.length, .skip, 0) := by
  rcases h with ⟨hn, hb⟩ | rfl
  · match s, hn with
    | b :: s, _ =>
      obtain ⟨o1, o2, o3, o4, o5, o6, o7, o8, o9⟩ := void_blank b (by
        rcases hb b (List.mem_cons_self ..) with rfl | rfl <;> decide)
      refine munch_eq _ _ _ _ (by simp) ?_ _ (by simp) ?_
      · rw [List.take_left]
        have hB : blankRe.Lang (b :: s) := lang_plus_set.2 ⟨nofun, fun c hc => by rcases hb c hc with rfl | rfl <;> rfl⟩
        have q : ∀ {r : Re}, void (r.deriv b) = true → r.accepts (b :: s) = false := fun o => not_accepts (void_first o)
        have q4 := q o4
        rw [nameRe] at q4
        have hB' := (accepts_iff _ _).2 hB
        rw [blankRe] at hB'
        simp [firstRule, rules, q o1, q o2, q o3, q4, q o5, hB']
      · intro n h1 h2
        rw [List.take_append, List.take_of_length_le (by omega)]
        obtain ⟨d, hd⟩ : ∃ d, n - (b :: s).length = d + 1 := ⟨n - (b :: s).length - 1, by omega⟩
        rw [hd]
        cases rest with
        | nil => rw [List.append_nil] at h2; omega
        | cons c t =>
          rw [List.take_succ_cons]
          have hc := hr c rfl
          have hcb : ¬ (c = ' ' ∨ c = '\t') := by
            rintro (rfl | rfl)
            · exact absurd (wordChar_starts hc) (by decide)
            · exact absurd (wordChar_starts hc) (by decide)
          generalize List.take d t = t'
          rw [firstRule, Option.map_eq_none_iff, List.find?_eq_none]
          intro r hr
          rw [accepts_iff]
          rw [rules] at hr
          simp only [List.mem_cons, List.not_mem_nil, or_false] at hr
          have q : ∀ {r : Re}, void (r.deriv b) = true → ¬ r.Lang (b :: s ++ c :: t') := fun o => void_first o
          rcases hr with rfl | rfl | rfl | rfl | rfl | rfl | rfl | rfl | rfl | rfl | rfl
          · exact q o1
          · exact q o2
          · exact q o3
          · exact q o4
          · exact q o5
          · intro e
            have := (lang_plus_set.1 e).2 c (List.mem_append_right _ (List.mem_cons_self ..))
            rw [Bool.or_eq_true, beq_iff_eq, beq_iff_eq] at this
            exact hcb this
          · exact q o6
          · exact q o7
          · exact q o8
          · exact q o9
          · rintro ⟨x, e, _⟩
            rw [List.cons_append, List.cons.injEq] at e
            have := e.2
            simp at this
  · refine munch_eq _ _ _ _ (by simp) ?_ _ (by simp) ?_
    · rw [List.take_left]; exact first_newline
    · intro n h1 h2
      rw [List.take_append, List.take_of_length_le (by omega)]
      obtain ⟨d, hd⟩ : ∃ d, n - ['\n'].length = d + 1 := ⟨n - ['\n'].length - 1, by omega⟩
      rw [hd]
      cases rest with
      | nil => rw [List.append_nil] at h2; omega
      | cons c t =>
        rw [List.take_succ_cons, firstRule, Option.map_eq_none_iff, List.find?_eq_none]
        intro r hr'
        rw [accepts_iff]
        have := void_newline r hr' c (wordChar_starts (hr c rfl))
        intro e
        exact void_first this ((deriv_iff _ _ _).2 e)

theorem scan_word {fuel : Nat} {w rest : Word} {k : Kind} (h : Is w k) (he : Ends rest) :
    scan (fuel + 1) 0 (w ++ rest) = (scan fuel 0 rest).map ((k, w) :: ·) :=
  scan_step (depth := 0) (is_chars h).1 (word_found h rest he)

theorem scan_blank {fuel : Nat} {s rest : Word} (h : Blank s) (hr : ∀ c, rest.head? = some c → wordChar c) :
    scan (fuel + 1) 0 (s ++ rest) = (scan fuel 0 rest).map ((.skip, s) :: ·) :=
  scan_step (depth := 0) (h.elim (·.1) (fun e => by rw [e]; nofun)) (blank_found h rest hr)

theorem blank_ends {s rest : Word} (h : Blank s) : Ends (s ++ rest) := by
  have hb : ∀ b ∈ [' ', '\t', '\n'], ¬ letter b ∧ b ≠ ',' ∧ b ≠ '.' ∧ ¬ ('a' ≤ b ∧ b ≤ 'z') ∧ ¬ ('A' ≤ b ∧ b ≤ 'Z') := by decide
  intro c hc
  apply hb
  rcases h with ⟨hn, h⟩ | rfl
  · match s, hn with
    | b :: s, _ =>
      cases hc
      rcases h _ (List.mem_cons_self ..) with rfl | rfl <;> decide
  · cases hc; decide

theorem scan_mono' {fuel : Nat} {depth : Int} {w : Word} {ts : List (Kind × Word)} (h : scan fuel depth w = some ts) (n : Nat) :
    scan (fuel + n) depth w = some ts := by
  induction n with
  | zero => exact h
  | succ n ih => exact scan_mono _ _ _ _ ih

/-- **A text of words.**  Each word is found whole with its kind, and nothing else is found. -/
theorem text_words (xs : List (Word × Kind × Word)) (hx : ∀ x ∈ xs, Is x.1 x.2.1 ∧ Blank x.2.2) :
    ∀ fuel, (xs.flatMap fun x => x.1 ++ x.2.2).length ≤ fuel →
      scan fuel 0 (xs.flatMap fun x => x.1 ++ x.2.2) = some (xs.flatMap fun x => [(x.2.1, x.1), (.skip, x.2.2)]) := by
  suffices h : ∃ f, scan f 0 (xs.flatMap fun x => x.1 ++ x.2.2) = some (xs.flatMap fun x => [(x.2.1, x.1), (.skip, x.2.2)]) by
    intro fuel hf
    obtain ⟨f, h⟩ := h
    obtain ⟨ts, h2, _⟩ := scan_all fuel 0 _ hf
    have e1 := scan_mono' h fuel
    have e2 := scan_mono' h2 f
    rw [Nat.add_comm, e1] at e2
    rw [h2, ← e2]
  induction xs with
  | nil => exact ⟨0, rfl⟩
  | cons x xs ih =>
    obtain ⟨f, ih⟩ := ih (fun y hy => hx y (List.mem_cons_of_mem _ hy))
    obtain ⟨h1, h2⟩ := hx x (List.mem_cons_self ..)
    refine ⟨f + 1 + 1, ?_⟩
    rw [List.flatMap_cons, List.flatMap_cons, List.append_assoc, scan_word h1 (blank_ends h2), scan_blank h2, ih]
    · rfl
    · intro c hc
      cases xs with
      | nil => cases hc
      | cons z zs =>
        obtain ⟨hn, hz⟩ := is_chars (hx z (List.mem_cons_of_mem _ (List.mem_cons_self ..))).1
        rw [List.flatMap_cons] at hc
        match hz1 : z.1, hn with
        | a :: w, _ =>
          rw [hz1] at hc hz
          cases hc
          exact hz _ (List.mem_cons_self ..)

/-! ## Brackets -/

def bracket (c : Char) : Bool := isOpen c || isClose c

theorem bracket_iff (c : Char) : bracket c = true ↔ c ∈ ['(', '[', ')', ']'] := by
  simp [bracket, isOpen, isClose, or_assoc]

/-- Regular expressions that match at most the empty text. -/
def flat : Re → Bool
  | .none | .eps => true
  | .set _ | .star _ => false
  | .seq a b => void a || void b || (flat a && flat b)
  | .alt a b => flat a && flat b

theorem flat_lang : ∀ (r : Re) (w : Word), flat r = true → r.Lang w → w = []
  | .none, _, _, h => h.elim
  | .eps, _, _, h => h
  | .seq a b, w, hf, ⟨u, v, e, h1, h2⟩ => by
    rw [flat, Bool.or_eq_true, Bool.or_eq_true, Bool.and_eq_true] at hf
    rcases hf with (hf | hf) | hf
    · exact absurd h1 (void_lang a u hf)
    · exact absurd h2 (void_lang b v hf)
    · rw [e, flat_lang a u hf.1 h1, flat_lang b v hf.2 h2]; rfl
  | .alt a b, w, hf, h => by
    rw [flat, Bool.and_eq_true] at hf
    rcases h with h | h
    · exact flat_lang a w hf.1 h
    · exact flat_lang b w hf.2 h

theorem flat_open : ∀ r ∈ rules, ∀ a ∈ ['(', '['], flat (r.1.deriv a) = true := by decide +kernel
theorem flat_in : ∀ r ∈ parenRules, ∀ a ∈ ['(', '[', ')', ']'], flat (r.1.deriv a) = true := by decide +kernel

theorem first_open : ∀ a ∈ ['(', '['], firstRule rules [a] = some (.paren, 1) := by decide +kernel
theorem first_in : ∀ a ∈ ['(', '['], firstRule parenRules [a] = some (.paren, 1) := by decide +kernel
theorem first_out : ∀ a ∈ [')', ']'], firstRule parenRules [a] = some (.paren, -1) := by decide +kernel

theorem single {rs : List (Re × Kind × Int)} {a : Char} {e : Kind × Int} (h1 : firstRule rs [a] = some e)
    (h2 : ∀ r ∈ rs, flat (r.1.deriv a) = true) (rest : Word) : munch rs ([a] ++ rest) ([a] ++ rest).length = some ([a].length, e) := by
  refine munch_eq _ _ _ _ (by simp) (by rw [List.take_left]; exact h1) _ (by simp) ?_
  intro n hn hn2
  match n, rest with
  | 0, _ => cases hn
  | 1, _ => simp at hn
  | n + 2, [] => simp at hn2
  | n + 2, c :: t =>
    rw [firstRule, Option.map_eq_none_iff, List.find?_eq_none]
    intro r hr
    rw [accepts_iff]
    intro h
    exact absurd (flat_lang _ _ (h2 r hr) ((deriv_iff _ _ _).2 h)) nofun

theorem scan_enter {fuel : Nat} {a : Char} (h : a ∈ ['(', '[']) (rest : Word) :
    scan (fuel + 1) 0 (a :: rest) = (scan fuel 1 rest).map ((.paren, [a]) :: ·) :=
  scan_step (depth := 0) (w := [a]) nofun (single (first_open a h) (fun r hr => flat_open r hr a h) rest)

theorem scan_in {fuel : Nat} {d : Int} (hd : d ≠ 0) {a : Char} (h : a ∈ ['(', '[']) (rest : Word) :
    scan (fuel + 1) d (a :: rest) = (scan fuel (d + 1) rest).map ((.paren, [a]) :: ·) :=
  scan_step (w := [a]) nofun (by
    rw [rulesAt, if_neg hd]
    exact single (first_in a h) (fun r hr => flat_in r hr a (by
      rcases List.mem_cons.1 h with rfl | h
      · decide
      · rw [List.mem_singleton.1 h]; decide)) rest)

theorem scan_out {fuel : Nat} {d : Int} (hd : d ≠ 0) {a : Char} (h : a ∈ [')', ']']) (rest : Word) :
    scan (fuel + 1) d (a :: rest) = (scan fuel (d + -1) rest).map ((.paren, [a]) :: ·) :=
  scan_step (w := [a]) nofun (by
    rw [rulesAt, if_neg hd]
    exact single (first_out a h) (fun r hr => flat_in r hr a (by
      rcases List.mem_cons.1 h with rfl | h
      · decide
      · rw [List.mem_singleton.1 h]; decide)) rest)

theorem first_run {u : Word} (hn : u ≠ []) (h : ∀ c ∈ u, bracket c = false) : firstRule parenRules u = some (.paren, 0) := by
  have hl : (plus (set fun c => !isOpen c && !isClose c)).accepts u = true := by
    rw [accepts_iff, lang_plus_set]
    refine ⟨hn, fun c hc => ?_⟩
    have := h c hc
    rw [bracket, Bool.or_eq_false_iff] at this
    simp [this.1, this.2]
  have ho : (set isOpen).accepts u = false := by
    apply not_accepts
    rintro ⟨c, rfl, hc⟩
    have := h c (List.mem_singleton.2 rfl)
    rw [bracket, hc] at this
    cases this
  simp [firstRule, parenRules, ho, hl]

/-- Text without brackets is one match. -/
theorem scan_run {fuel : Nat} {d : Int} (hd : d ≠ 0) {u rest : Word} (hn : u ≠ []) (hu : ∀ c ∈ u, bracket c = false)
    (hr : ∀ c, rest.head? = some c → bracket c = true) : scan (fuel + 1) d (u ++ rest) = (scan fuel d rest).map ((.paren, u) :: ·) := by
  have := scan_step (fuel := fuel) (depth := d) (w := u) (rest := rest) (k := .paren) (e := 0) hn (by
    rw [rulesAt, if_neg hd]
    refine munch_eq _ _ _ _ (by cases u with | nil => exact absurd rfl hn | cons => simp) (by rw [List.take_left]; exact first_run hn hu) _ (by simp) ?_
    intro n h1 h2
    rw [List.take_append, List.take_of_length_le (by omega)]
    obtain ⟨k, hk⟩ : ∃ k, n - u.length = k + 1 := ⟨n - u.length - 1, by omega⟩
    rw [hk]
    cases rest with
    | nil => rw [List.append_nil] at h2; omega
    | cons c t =>
      rw [List.take_succ_cons]
      generalize List.take k t = t'
      match u, hn with
      | x :: u, _ =>
        have hx := hu x (List.mem_cons_self ..)
        rw [bracket, Bool.or_eq_false_iff] at hx
        have hc := hr c rfl
        rw [firstRule, Option.map_eq_none_iff, List.find?_eq_none]
        intro r hr'
        rw [accepts_iff]
        rw [parenRules] at hr'
        simp only [List.mem_cons, List.not_mem_nil, or_false] at hr'
        rcases hr' with rfl | rfl | rfl
        · rintro ⟨y, e, _⟩
          rw [List.cons_append, List.cons.injEq] at e
          have := e.2
          simp at this
        · intro h
          have := (lang_plus_set.1 h).2 c (List.mem_append_right _ (List.mem_cons_self ..))
          rw [bracket] at hc
          revert this hc
          cases isOpen c <;> cases isClose c <;> decide
        · rintro ⟨y, e, _⟩
          rw [List.cons_append, List.cons.injEq] at e
          have := e.2
          simp at this)
  rw [Int.add_zero] at this
  exact this

/-- The scanner finds these matches, given enough rounds. -/
def Scans (d : Int) (w : Word) (ts : List (Kind × Word)) : Prop := ∃ fuel, scan fuel d w = some ts

theorem scans_step {d d' : Int} {w rest : Word} {t : Kind × Word} {ts : List (Kind × Word)}
    (h : ∀ fuel, scan (fuel + 1) d w = (scan fuel d' rest).map (t :: ·)) (hs : Scans d' rest ts) : Scans d w (t :: ts) := by
  obtain ⟨f, hf⟩ := hs
  exact ⟨f + 1, by rw [h, hf]; rfl⟩

theorem scans_unique {d : Int} {w : Word} {ts us : List (Kind × Word)} (h : Scans d w ts) (h' : Scans d w us) : ts = us := by
  obtain ⟨f, hf⟩ := h
  obtain ⟨g, hg⟩ := h'
  have e1 := scan_mono' hf g
  have e2 := scan_mono' hg f
  rw [Nat.add_comm, e1] at e2
  exact Option.some.inj e2

/-- The text in front of the first bracket. -/
theorem split_run (w : Word) (b : Char) (r : Word) (hb : bracket b = true) :
    ∃ u v x, w ++ b :: r = u ++ x :: v ∧ (∀ c ∈ u, bracket c = false) ∧ bracket x = true ∧ (u = [] ∨ ∃ w', w = u ++ w') := by
  induction w with
  | nil => exact ⟨[], r, b, rfl, nofun, hb, .inl rfl⟩
  | cons c w ih =>
    cases hc : bracket c with
    | true => exact ⟨[], w ++ b :: r, c, rfl, nofun, hc, .inl rfl⟩
    | false =>
      obtain ⟨u, v, x, e, hu, hx, hw⟩ := ih
      refine ⟨c :: u, v, x, by rw [List.cons_append, e]; rfl, ?_, hx, .inr ?_⟩
      · intro y hy
        rcases List.mem_cons.1 hy with rfl | hy
        · exact hc
        · exact hu y hy
      · rcases hw with rfl | ⟨w', rfl⟩
        · exact ⟨w, rfl⟩
        · exact ⟨w', rfl⟩

/-- Inside brackets a balanced text is passed over. -/
theorem balanced_scanned {u : Word} (h : Balanced u) : ∀ (d : Int) (b : Char) (r : Word) (ts : List (Kind × Word)), 0 < d → bracket b = true →
    Scans d (b :: r) ts → ∃ ps, (∀ p ∈ ps, p.1 = .paren) ∧ ps.flatMap (·.2) = u ∧ Scans d (u ++ b :: r) (ps ++ ts) := by
  induction h with
  | nil => intro d b r ts _ _ h; exact ⟨[], nofun, rfl, h⟩
  | char c w hc _ ih =>
    intro d b r ts hd hb h
    have hcb : bracket c = false := Bool.eq_false_iff.2 fun e => hc ((bracket_iff c).1 e)
    obtain ⟨ps, h1, h2, h3⟩ := ih d b r ts hd hb h
    cases w with
    | nil =>
      refine ⟨(.paren, [c]) :: [], fun p hp => by rw [List.mem_singleton.1 hp], rfl, ?_⟩
      refine scans_step (fun f => scan_run (by omega) (u := [c]) nofun (fun x hx => by rw [List.mem_singleton.1 hx]; exact hcb) ?_) h
      intro x hx
      cases hx
      exact hb
    | cons y w =>
      cases hy : bracket y with
      | true =>
        refine ⟨(.paren, [c]) :: ps, ?_, by rw [List.flatMap_cons, h2]; rfl, ?_⟩
        · intro p hp
          rcases List.mem_cons.1 hp with rfl | hp
          · rfl
          · exact h1 p hp
        · refine scans_step (fun f => scan_run (by omega) (u := [c]) nofun (fun x hx => by rw [List.mem_singleton.1 hx]; exact hcb) ?_) h3
          intro x hx
          cases hx
          exact hy
      | false =>
        obtain ⟨u, v, x, e, hu, hx, hw⟩ := split_run (y :: w) b r hb
        have hun : u ≠ [] := by
          rintro rfl
          rw [List.nil_append, List.cons_append, List.cons.injEq] at e
          rw [e.1, hx] at hy
          cases hy
        have hrun := fun f => scan_run (fuel := f) (d := d) (u := u) (rest := x :: v) (by omega) hun hu (fun z hz => by cases hz; exact hx)
        obtain ⟨f, hf⟩ := h3
        rw [e] at hf
        have hf' := scan_mono _ _ _ _ hf
        rw [hrun] at hf'
        obtain ⟨ts', hts, e2⟩ := Option.map_eq_some_iff.1 hf'
        have hnew : Scans d (c :: (u ++ x :: v)) ((.paren, c :: u) :: ts') :=
          scans_step (fun f => scan_run (d := d) (u := c :: u) (rest := x :: v) (by omega) nofun (fun z hz => by
            rcases List.mem_cons.1 hz with rfl | hz
            · exact hcb
            · exact hu z hz) (fun z hz => by cases hz; exact hx)) ⟨f, hts⟩
        cases ps with
        | nil => cases h2
        | cons p ps =>
          rw [List.cons_append, List.cons.injEq] at e2
          obtain ⟨rfl, rfl⟩ := e2
          refine ⟨(.paren, c :: u) :: ps, ?_, ?_, ?_⟩
          · intro p hp
            rcases List.mem_cons.1 hp with rfl | hp
            · rfl
            · exact h1 p (List.mem_cons_of_mem _ hp)
          · rw [List.flatMap_cons] at h2 ⊢
            rw [← h2]
            rfl
          · rw [List.cons_append, e]
            exact hnew
  | group a c u v ha hc _ _ ihu ihv =>
    intro d b r ts hd hb h
    have hcb : bracket c = true := by
      rcases List.mem_cons.1 hc with rfl | hc
      · decide
      · rw [List.mem_singleton.1 hc]; decide
    obtain ⟨ps, h1, h2, h3⟩ := ihv d b r ts hd hb h
    have hclose : Scans (d + 1) (c :: (v ++ b :: r)) ((.paren, [c]) :: (ps ++ ts)) := by
      refine scans_step (d' := d) (fun f => ?_) h3
      rw [scan_out (by omega) hc]
      congr 2
      omega
    obtain ⟨qs, h4, h5, h6⟩ := ihu (d + 1) c _ _ (by omega) hcb hclose
    refine ⟨(.paren, [a]) :: (qs ++ (.paren, [c]) :: ps), ?_, ?_, ?_⟩
    · intro p hp
      rcases List.mem_cons.1 hp with rfl | hp
      · rfl
      rcases List.mem_append.1 hp with hp | hp
      · exact h4 p hp
      rcases List.mem_cons.1 hp with rfl | hp
      · rfl
      · exact h1 p hp
    · rw [List.flatMap_cons, List.flatMap_append, List.flatMap_cons, h2, h5]
      simp
    · have := scans_step (fun f => scan_in (fuel := f) (by omega) ha _) h6
      simpa using this

/-- **Text in brackets is passed through.**  It is found as such, up to the bracket that closes the first, and what follows is scanned as if it stood
alone. -/
theorem brackets_found {a b : Char} {u : Word} (ha : a ∈ ['(', '[']) (hb : b ∈ [')', ']']) (hu : Balanced u) (rest : Word) (ts : List (Kind × Word))
    (h : Scans 0 rest ts) : ∃ ps, (∀ p ∈ ps, p.1 = .paren) ∧ ps.flatMap (·.2) = a :: u ++ [b] ∧ Scans 0 (a :: u ++ b :: rest) (ps ++ ts) := by
  have hclose : Scans 1 (b :: rest) ((.paren, [b]) :: ts) := scans_step (fun f => scan_out (by omega) hb _) h
  have hbb : bracket b = true := by
    rcases List.mem_cons.1 hb with rfl | hb
    · decide
    · rw [List.mem_singleton.1 hb]; decide
  obtain ⟨ps, h1, h2, h3⟩ := balanced_scanned hu 1 b rest _ (by omega) hbb hclose
  refine ⟨(.paren, [a]) :: (ps ++ [(.paren, [b])]), ?_, ?_, ?_⟩
  · intro p hp
    rcases List.mem_cons.1 hp with rfl | hp
    · rfl
    rcases List.mem_append.1 hp with hp | hp
    · exact h1 p hp
    · rw [List.mem_singleton.1 hp]
  · rw [List.flatMap_cons, List.flatMap_append, h2]
    simp
  · have := scans_step (fun f => scan_enter (fuel := f) ha _) h3
    simpa using this

end Jbo.CmScan
