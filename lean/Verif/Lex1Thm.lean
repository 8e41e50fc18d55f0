import Verif.Lex1Spec
/-!
# Theorems about the first lexer stage (C16-C19)
-/

namespace Jbo.Lex1

/-! ## Scanner against the specification -/

theorem charWord_eq (c : Char) : charWord c = digitNames.lookup c := by
  unfold charWord
  split <;> first | rfl | decide | skip
  rename_i h0 h1 h2 h3 h4 h5 h6 h7 h8 h9 h10
  have e : ∀ d : Char, (c = d → False) → (c == d) = false := by
    intro d hd
    exact beq_eq_false_iff_ne.2 hd
  simp [digitNames, List.lookup, e _ h0, e _ h1, e _ h2, e _ h3, e _ h4, e _ h5, e _ h6, e _ h7,
    e _ h8, e _ h9, e _ h10]

theorem isSep_eq (c : Char) : isSep c = separators.contains c := by
  simp only [isSep, separators, List.contains_cons, List.contains_nil, Bool.or_false, Bool.or_assoc]

theorem plain_iff (c : Char) : plain c = true ↔ isSep c = false ∧ charWord c = none := by
  rw [isSep_eq, charWord_eq]
  unfold plain
  cases separators.contains c <;> cases digitNames.lookup c <;> simp

theorem depthOf_snoc (pre : List Char) (c : Char) :
    depthOf (pre ++ [c]) =
      if depthOf pre = 0 then (if c = '(' then 1 else 0)
      else if c = '(' then depthOf pre + 1 else if c = ')' then depthOf pre - 1
      else depthOf pre := by
  unfold depthOf; rw [List.foldl_append]; rfl

theorem lineOf_snoc (pre : List Char) (c : Char) :
    lineOf (pre ++ [c]) = if c = '\n' then lineOf pre + 1 else lineOf pre := by
  by_cases h : c = '\n' <;> simp [lineOf, List.filter_cons, h]; omega

theorem colOf_snoc (pre : List Char) (c : Char) :
    colOf (pre ++ [c]) = if c = '\n' then 1 else colOf pre + 1 := by
  by_cases h : c = '\n' <;> simp [colOf, h]; omega

theorem boundary_snoc (pre : List Char) (c : Char) :
    boundary (pre ++ [c]) = (!(plain c) || depthOf pre != 0) := by
  simp [boundary]

/-- Items of a suffix. -/
def itemsFrom (pre cs : List Char) : List Event :=
  (List.range cs.length).filterMap (fun i => itemAt (pre ++ cs.take i) (cs.drop i))

theorem itemsFrom_cons (pre : List Char) (c : Char) (cs : List Char) :
    itemsFrom pre (c :: cs) = (itemAt pre (c :: cs)).toList ++ itemsFrom (pre ++ [c]) cs := by
  unfold itemsFrom
  rw [List.length_cons, List.range_succ_eq_map, List.filterMap_cons, List.filterMap_map]
  have : ((fun i => itemAt (pre ++ List.take i (c :: cs)) (List.drop i (c :: cs))) ∘ Nat.succ) =
      fun i => itemAt (pre ++ [c] ++ List.take i cs) (List.drop i cs) := by
    funext i; simp
  rw [this]
  cases h : itemAt pre (c :: cs) <;> simp [h]

theorem items_eq (t : List Char) : items t = itemsFrom [] t := by
  simp [items, itemsFrom]

/-- Forget the position unless `b`. -/
def norm (b : Bool) : Event → Event
  | .word w l c => if b then .word w l c else .word w 0 0
  | .eol => .eol

/-- The word still in the buffer, as it will be emitted. -/
def pending (s : Scan) (cs : List Char) : List Event :=
  if s.buf = [] then [] else [.word (s.buf ++ cs.takeWhile plain) s.startLine s.startCol]

/-- What the scanner variables mean after reading `pre`. -/
structure Inv (b : Bool) (pre : List Char) (s : Scan) : Prop where
  depth : s.depth = depthOf pre
  line : s.line = lineOf pre
  col : s.col + 1 = colOf pre
  buf : s.buf ≠ [] → ∃ p0, pre = p0 ++ s.buf ∧ depthOf p0 = 0 ∧
    (b = true → s.startLine = lineOf p0 ∧ s.startCol = colOf p0)
  plainBuf : ∀ c ∈ s.buf, plain c = true
  bound : s.buf = [] → depthOf pre = 0 → boundary pre = true
  comm : depthOf pre ≠ 0 → s.buf = []
  newTok : b = true → s.newTok = s.buf.isEmpty

theorem plain_ne {c : Char} (h : plain c = true) : c ≠ '(' ∧ c ≠ '\n' := by
  constructor <;> (rintro rfl; revert h; decide)

theorem depthOf_plain (p0 w : List Char) (h0 : depthOf p0 = 0) (hw : ∀ c ∈ w, plain c = true) :
    depthOf (p0 ++ w) = 0 := by
  induction w generalizing p0 with
  | nil => simpa using h0
  | cons c w ih =>
    have : p0 ++ c :: w = (p0 ++ [c]) ++ w := by simp
    rw [this]
    apply ih
    · rw [depthOf_snoc, if_pos h0, if_neg (plain_ne (hw c (by simp))).1]
    · intro d hd; exact hw d (by simp [hd])

/-- Inside a run of word characters no new item starts. -/
theorem notBoundary {pre p0 w : List Char} (hw : w ≠ []) (hp : pre = p0 ++ w)
    (h0 : depthOf p0 = 0) (hpl : ∀ c ∈ w, plain c = true) : boundary pre = false := by
  subst hp
  obtain ⟨w', c, rfl⟩ : ∃ w' c, w = w' ++ [c] :=
    ⟨w.dropLast, w.getLast hw, (List.dropLast_concat_getLast hw).symm⟩
  rw [← List.append_assoc, boundary_snoc]
  have h1 : depthOf (p0 ++ w') = 0 :=
    depthOf_plain p0 w' h0 (fun d hd => hpl d (by simp [hd]))
  simp [hpl c (by simp), h1]

/-- One round of the loop on a character. -/
theorem step_spec (b : Bool) (c : Char) (cs pre : List Char) (s : Scan) (I : Inv b pre s)
    (hdig : b = true → digitNames.lookup c = none) :
    ∃ s' ev, step s (some c) = (some s', ev) ∧ Inv b (pre ++ [c]) s' ∧
      (ev ++ pending s' cs).map (norm b) =
        (pending s (c :: cs) ++ (itemAt pre (c :: cs)).toList).map (norm b) := by
  by_cases hd : depthOf pre = 0
  · have hnd : ¬ s.depth > 0 := by rw [I.depth]; omega
    cases hcw : charWord c with
    | some w =>
      have hlk : digitNames.lookup c = some w := by rw [← charWord_eq]; exact hcw
      have hbf : b = false := by
        cases b
        · rfl
        · have := hdig rfl; rw [hlk] at this; cases this
      subst hbf
      have hnp : plain c = false := by
        refine Bool.eq_false_iff.2 (fun h => ?_)
        have := ((plain_iff c).1 h).2; rw [hcw] at this; cases this
      have hnl : c ≠ '\n' := by rintro rfl; cases hcw
      have hnpar : c ≠ '(' := by rintro rfl; cases hcw
      refine ⟨setStart (closeToken { s with col := s.col + 1 }).1, _,
        by simp [step, hnd, hcw]; rfl, ?_, ?_⟩
      · constructor
        · unfold setStart closeToken
          rw [depthOf_snoc, if_pos hd, if_neg hnpar]
          have := I.depth
          split <;> split <;> simp [this, hd]
        · unfold setStart closeToken
          rw [lineOf_snoc, if_neg hnl, ← I.line]
          split <;> split <;> rfl
        · unfold setStart closeToken
          rw [colOf_snoc, if_neg hnl, ← I.col]
          split <;> split <;> rfl
        · unfold setStart closeToken
          split <;> split <;> simp_all
        · unfold setStart closeToken
          split <;> split <;> simp_all
        · intro _ _
          rw [boundary_snoc]; simp [hnp]
        · intro h
          rw [depthOf_snoc, if_pos hd, if_neg hnpar] at h
          exact absurd rfl h
        · intro h; cases h
      · have hit : itemAt pre (c :: cs) = some (.word w (lineOf pre) (colOf pre)) := by
          simp [itemAt, hd, hnl, hlk]
        rw [hit]
        unfold pending setStart closeToken
        by_cases hb : s.buf = []
        · by_cases hn : s.newTok <;> simp [hb, hn, norm]
        · simp [hb, norm, List.takeWhile_cons, hnp]
    | none =>
      have hlk : digitNames.lookup c = none := by rw [← charWord_eq]; exact hcw
      by_cases hsep : isSep c = true
      · have hnp : plain c = false := by
          refine Bool.eq_false_iff.2 (fun h => ?_)
          have := ((plain_iff c).1 h).1; rw [hsep] at this; cases this
        by_cases hnl : c = '\n'
        · subst hnl
          refine ⟨_, _, by simp [step, hnd, hcw, hsep]; exact ⟨rfl, rfl⟩, ?_, ?_⟩
          · constructor
            · rw [depthOf_snoc, if_pos hd]
              have := I.depth
              unfold closeToken
              split <;> simp [this, hd]
            · rw [lineOf_snoc, if_pos rfl, ← I.line]
              unfold closeToken; split <;> rfl
            · rw [colOf_snoc, if_pos rfl]
            · unfold closeToken; split <;> simp_all
            · unfold closeToken; split <;> simp_all
            · intro _ _; rw [boundary_snoc]; simp [hnp]
            · rw [depthOf_snoc, if_pos hd]; intro h; exact absurd (by decide) h
            · intro hb; have := I.newTok hb
              unfold closeToken; split <;> simp_all
          · have hit : itemAt pre ('\n' :: cs) = some .eol := by simp [itemAt, hd]
            rw [hit]
            unfold pending closeToken
            by_cases hb : s.buf = [] <;> simp [hb, norm, List.takeWhile_cons, hnp]
        · have hit : itemAt pre (c :: cs) = none := by
            simp [itemAt, hd, hnl, hlk, hnp]
          refine ⟨_, _, by simp [step, hnd, hcw, hsep, hnl]; exact ⟨rfl, rfl⟩, ?_, ?_⟩
          · constructor
            · rw [depthOf_snoc, if_pos hd]
              have := I.depth
              unfold closeToken
              split <;> split <;> simp [this, hd]
            · rw [lineOf_snoc, if_neg hnl, ← I.line]
              unfold closeToken; split <;> split <;> rfl
            · rw [colOf_snoc, if_neg hnl, ← I.col]
              unfold closeToken; split <;> split <;> rfl
            · unfold closeToken; split <;> split <;> simp_all
            · unfold closeToken; split <;> split <;> simp_all
            · intro _ _; rw [boundary_snoc]; simp [hnp]
            · intro _; unfold closeToken; split <;> split <;> simp_all
            · intro hb; have := I.newTok hb
              unfold closeToken; split <;> split <;> simp_all
          · rw [hit]
            unfold pending closeToken
            by_cases hb : s.buf = [] <;> by_cases hp : c = '(' <;>
              simp [hb, hp, norm, List.takeWhile_cons, hnp]
            all_goals (subst hp; simp [hnp])
      · have hsep' : isSep c = false := by simpa using hsep
        have hpl : plain c = true := (plain_iff c).2 ⟨hsep', hcw⟩
        have hnl := (plain_ne hpl).2
        have hnpar := (plain_ne hpl).1
        refine ⟨_, _, by simp [step, hnd, hcw, hsep']; exact ⟨rfl, rfl⟩, ?_, ?_⟩
        · constructor
          · rw [depthOf_snoc, if_pos hd, if_neg hnpar]
            have := I.depth
            unfold setStart
            split <;> simp [this, hd]
          · rw [lineOf_snoc, if_neg hnl, ← I.line]
            unfold setStart; split <;> rfl
          · rw [colOf_snoc, if_neg hnl, ← I.col]
            unfold setStart; split <;> rfl
          · intro _
            by_cases hb : s.buf = []
            · refine ⟨pre, ?_, hd, ?_⟩
              · unfold setStart; split <;> simp [hb]
              · intro hbt
                have := I.newTok hbt
                rw [hb] at this
                simp only [List.isEmpty_nil] at this
                unfold setStart
                simp [this, I.line, I.col]
            · obtain ⟨p0, h1, h2, h3⟩ := I.buf hb
              refine ⟨p0, ?_, h2, ?_⟩
              · unfold setStart; split <;> simp [h1]
              · intro hbt
                have hn := I.newTok hbt
                have : s.newTok = false := by rw [hn]; simp [hb]
                unfold setStart
                simpa [this] using h3 hbt
          · intro d hdm
            have : d ∈ s.buf ++ [c] := by
              revert hdm; unfold setStart; split <;> simp
            rcases List.mem_append.1 this with h | h
            · exact I.plainBuf d h
            · rw [List.mem_singleton.1 h]; exact hpl
          · intro h; revert h; unfold setStart; split <;> simp
          · rw [depthOf_snoc, if_pos hd, if_neg hnpar]; intro h; exact absurd rfl h
          · intro hbt
            have hn := I.newTok hbt
            unfold setStart
            by_cases hnt : s.newTok <;> simp [hnt]
        · by_cases hb : s.buf = []
          · have hbd := I.bound hb hd
            have hit : itemAt pre (c :: cs) =
                some (.word ((c :: cs).takeWhile plain) (lineOf pre) (colOf pre)) := by
              simp [itemAt, hd, hnl, hlk, hpl, hbd]
            rw [hit]
            unfold pending setStart
            cases hbt : b
            · by_cases hn : s.newTok <;> simp [hb, hn, norm, List.takeWhile_cons, hpl]
            · have hn := I.newTok hbt
              rw [hb] at hn
              simp only [List.isEmpty_nil] at hn
              simp [hb, hn, norm, List.takeWhile_cons, hpl, I.line, I.col]
          · obtain ⟨p0, h1, h2, h3⟩ := I.buf hb
            have hbd := notBoundary hb h1 h2 I.plainBuf
            have hit : itemAt pre (c :: cs) = none := by
              simp [itemAt, hd, hnl, hlk, hpl, hbd]
            rw [hit]
            unfold pending setStart
            cases hbt : b
            · by_cases hn : s.newTok <;> simp [hb, hn, norm, List.takeWhile_cons, hpl]
            · have hn := I.newTok hbt
              have : s.newTok = false := by rw [hn]; simp [hb]
              simp [hb, this, norm, List.takeWhile_cons, hpl]
  · have h1 : s.depth > 0 := by rw [I.depth]; omega
    have hb := I.comm hd
    have hit : itemAt pre (c :: cs) = none := by simp [itemAt, hd]
    rw [hit]
    have key : ∀ s' : Scan, s'.buf = [] → ([] ++ pending s' cs).map (norm b) =
        (pending s (c :: cs) ++ (none : Option Event).toList).map (norm b) := by
      intro s' h; simp [pending, hb, h]
    by_cases hcl : c = ')'
    · subst hcl
      refine ⟨_, _, by simp [step, h1]; rfl, ?_, key _ (by simp [hb])⟩
      constructor
      · rw [depthOf_snoc, if_neg hd]; simp [I.depth]
      · rw [lineOf_snoc]; simp [I.line]
      · rw [colOf_snoc]; simp [I.col]
      · intro h; simp [hb] at h
      · intro d hdm; simp [hb] at hdm
      · intro _ _; rw [boundary_snoc]; simp [hd]
      · intro _; simp [hb]
      · intro _; simp [hb]
    · by_cases hop : c = '('
      · subst hop
        refine ⟨_, _, by simp [step, h1]; rfl, ?_, key _ (by simp [hb])⟩
        constructor
        · rw [depthOf_snoc, if_neg hd]; simp [I.depth]
        · rw [lineOf_snoc]; simp [I.line]
        · rw [colOf_snoc]; simp [I.col]
        · intro h; simp [hb] at h
        · intro d hdm; simp [hb] at hdm
        · intro _ _; rw [boundary_snoc]; simp [hd]
        · intro _; simp [hb]
        · intro hbt; have := I.newTok hbt; simpa [hb] using this
      · by_cases hnl : c = '\n'
        · subst hnl
          refine ⟨_, _, by simp [step, h1]; rfl, ?_, key _ (by simp [hb])⟩
          constructor
          · rw [depthOf_snoc, if_neg hd]; simp [I.depth]
          · rw [lineOf_snoc]; simp [I.line]
          · rw [colOf_snoc]; simp
          · intro h; simp [hb] at h
          · intro d hdm; simp [hb] at hdm
          · intro _ _; rw [boundary_snoc]; simp [hd]
          · intro _; simp [hb]
          · intro hbt; have := I.newTok hbt; simpa [hb] using this
        · refine ⟨_, _, by simp [step, h1, hcl, hop, hnl]; rfl, ?_,
            key _ (by simp [hb])⟩
          constructor
          · rw [depthOf_snoc, if_neg hd]; simp [I.depth, hcl, hop]
          · rw [lineOf_snoc]; simp [I.line, hnl]
          · rw [colOf_snoc]; simp [I.col, hnl]
          · intro h; simp [hb] at h
          · intro d hdm; simp [hb] at hdm
          · intro _ _; rw [boundary_snoc]; simp [hd]
          · intro _; simp [hb]
          · intro hbt; have := I.newTok hbt; simpa [hb] using this

theorem run_spec (b : Bool) (cs : List Char) : ∀ (pre : List Char) (s : Scan), Inv b pre s →
    (b = true → ∀ c ∈ cs, digitNames.lookup c = none) →
    (run s cs).1.map (norm b) = (pending s cs ++ itemsFrom pre cs).map (norm b) ∧
    (run s cs).2 = (depthOf (pre ++ cs) == 0) := by
  induction cs with
  | nil =>
    intro pre s I _
    unfold run
    have hit : itemsFrom pre [] = [] := rfl
    by_cases hd : depthOf pre = 0
    · have : ¬ s.depth > 0 := by rw [I.depth]; omega
      by_cases hb : s.buf = [] <;>
        simp [step, this, closeToken, pending, hb, hit, hd]
    · have h1 : s.depth > 0 := by rw [I.depth]; omega
      have hb := I.comm hd
      simp [step, h1, pending, hb, hit, hd]
  | cons c cs ih =>
    intro pre s I hdig
    have hdig' : b = true → ∀ x ∈ cs, digitNames.lookup x = none :=
      fun hb x hx => hdig hb x (by simp [hx])
    have happ : pre ++ c :: cs = pre ++ [c] ++ cs := by simp
    obtain ⟨s', ev, hs, I', hev⟩ :=
      step_spec b c cs pre s I (fun hb => hdig hb c (by simp))
    have := ih (pre ++ [c]) s' I' hdig'
    unfold run
    rw [hs]
    dsimp only
    rw [happ, this.2, List.map_append, this.1, itemsFrom_cons]
    refine ⟨?_, rfl⟩
    rw [List.map_append, ← List.append_assoc, ← List.map_append, hev]
    simp

theorem inv_init (b : Bool) : Inv b [] Scan.init := by
  constructor <;> simp [Scan.init, depthOf, lineOf, colOf, boundary]

/-- The scanner returns exactly when every comment is closed (C18). -/
theorem scan_ends_iff (text : List Char) : (scan text).2 = true ↔ depthOf text = 0 := by
  have := (run_spec false text [] Scan.init (inv_init false) (by intro h; cases h)).2
  unfold scan
  rw [this]
  simp

example : (scan "mi (a (b) c) klama".toList).2 = true ∧ (scan "mi (a (b) klama".toList).2 = false := by
  decide +kernel

/-- Once EOF is met inside a comment the loop goes on for ever: each further round reads EOF again,
emits nothing, and stays in the comment (C18). -/
theorem eof_in_comment_stuck (s : Scan) (h : s.depth > 0) :
    ∃ s', step s none = (some s', []) ∧ s'.depth = s.depth ∧ s'.buf = s.buf :=
  ⟨{ s with col := s.col + 1 }, by simp [step, h], rfl, rfl⟩

example : (run Scan.init "a (b".toList).1 = [.word ['a'] 1 1] := by decide +kernel

/-- The state after `n` rounds that each read EOF, when the loop is still running. -/
def eofRounds (s : Scan) : Nat → Option Scan
  | 0 => some s
  | n + 1 => (eofRounds s n).bind (fun s => (step s none).1)

/-- No number of rounds gets the scanner out of an unclosed comment at end of file (C18). -/
theorem eof_in_comment_forever (s : Scan) (h : s.depth > 0) (n : Nat) :
    ∃ s', eofRounds s n = some s' ∧ s'.depth = s.depth := by
  induction n with
  | zero => exact ⟨s, rfl, rfl⟩
  | succ n ih =>
    obtain ⟨s', h1, h2⟩ := ih
    obtain ⟨s'', h3, h4, _⟩ := eof_in_comment_stuck s' (by omega)
    exact ⟨s'', by simp [eofRounds, h1, h3], by omega⟩

example : ∃ s', eofRounds { Scan.init with depth := 2 } 5 = some s' ∧ s'.depth = 2 :=
  eof_in_comment_forever { Scan.init with depth := 2 } (by decide) 5

theorem norm_erase (e : Event) : (norm false e).erase = e.erase := by
  cases e <;> rfl

theorem map_erase_of_norm {a b : List Event} (h : a.map (norm false) = b.map (norm false)) :
    a.map Event.erase = b.map Event.erase := by
  have : ∀ l : List Event, l.map Event.erase = (l.map (norm false)).map Event.erase := by
    intro l; simp [norm_erase]
  rw [this a, this b, h]

/-- For every text the scanner produces exactly the words and line ends the specification lists,
in the same order: maximal runs of word characters outside comments, and the names of digits
(C17, C18). -/
theorem scan_words (text : List Char) :
    (scan text).1.map Event.erase = (items text).map Event.erase := by
  have := (run_spec false text [] Scan.init (inv_init false) (by intro h; cases h)).1
  rw [items_eq]
  apply map_erase_of_norm
  simpa [scan, pending, Scan.init] using this

example : (items "mi 12a\n(x(y)) do".toList).map Event.erase =
    [some "mi".toList, some "pa".toList, some "re".toList, some ['a'], none, some "do".toList] := by
  decide +kernel

/-- In a text without digits and colons every word is reported with the line and column of its
first character (C17).  Missing from the full claim: texts with digits or colons, for which it is
false (`digit_position_stale`). -/
theorem scan_positions_partial (text : List Char)
    (h : ∀ c ∈ text, digitNames.lookup c = none) : (scan text).1 = items text := by
  have := (run_spec true text [] Scan.init (inv_init true) (fun _ => h)).1
  rw [items_eq]
  have hid : norm true = id := by funext e; cases e <;> rfl
  rw [hid, List.map_id, List.map_id] at this
  simpa [scan, pending, Scan.init] using this

example : (∀ c ∈ "mi (a\nb) klama\n\tdo".toList, digitNames.lookup c = none) ∧
    (scan "mi (a\nb) klama\n\tdo".toList).1 =
      [.word "mi".toList 1 1, .word "klama".toList 2 4, .eol, .word "do".toList 3 2] := by
  decide +kernel

/-- Defect: a word (or digit) after a digit is reported at the digit's position, because
`CLOSE_TOKEN` does not set `new_tok` when the buffer is empty (`lex1.c:419-422`, C17). -/
theorem digit_position_stale :
    (scan "1\nklama".toList).1 =
        [.word "pa".toList 1 1, .eol, .word "klama".toList 1 1] ∧
    items "1\nklama".toList =
        [.word "pa".toList 1 1, .eol, .word "klama".toList 2 1] := by decide +kernel

/-! ### Comments -/

theorem run_body {b : List Char} (hb : CommentBody b) : ∀ (s : Scan) (rest : List Char),
    s.depth > 0 → s.buf = [] →
    ∃ s', run s (b ++ rest) = run s' rest ∧ s'.buf = [] ∧ s'.depth = s.depth := by
  induction hb with
  | nil => intro s rest _ h; exact ⟨s, rfl, h, rfl⟩
  | char c t h1 h2 _ ih =>
    intro s rest hd hbuf
    by_cases h3 : c = '\n'
    · obtain ⟨s', ha, hb', hc⟩ := ih { s with line := s.line + 1, col := 0 } rest hd hbuf
      refine ⟨s', ?_, hb', hc⟩
      rw [← ha, List.cons_append, run]; simp [step, hd, h3]
    · obtain ⟨s', ha, hb', hc⟩ := ih { s with col := s.col + 1 } rest hd hbuf
      refine ⟨s', ?_, hb', hc⟩
      rw [← ha, List.cons_append, run]; simp [step, hd, h1, h2, h3]
  | nest b t _ _ ih1 ih2 =>
    intro s rest hd hbuf
    obtain ⟨s1, ha1, hb1, hc1⟩ := ih1 { s with col := s.col + 1, depth := s.depth + 1 }
      (')' :: (t ++ rest)) (by simp) hbuf
    obtain ⟨s2, ha2, hb2, hc2⟩ := ih2
      { s1 with col := s1.col + 1, depth := s1.depth - 1, newTok := true } rest
      (by simp only [hc1]; omega) hb1
    refine ⟨s2, ?_, hb2, by simp only [hc2, hc1]; omega⟩
    have e1 : run s ('(' :: (b ++ ')' :: t) ++ rest) =
        run { s with col := s.col + 1, depth := s.depth + 1 } (b ++ ')' :: (t ++ rest)) := by
      rw [List.cons_append, run]; simp [step, hd]
    have e2 : run s1 (')' :: (t ++ rest)) =
        run { s1 with col := s1.col + 1, depth := s1.depth - 1, newTok := true } (t ++ rest) := by
      have : s1.depth > 0 := by simp only [hc1]; omega
      rw [run]; simp [step, this]
    rw [e1, ha1, e2, ha2]

/-- Two scanner states that agree except for positions produce the same words. -/
theorem run_sim (cs : List Char) : ∀ (s s' : Scan), s.buf = s'.buf → s.depth = s'.depth →
    (run s cs).1.map Event.erase = (run s' cs).1.map Event.erase ∧
      (run s cs).2 = (run s' cs).2 := by
  induction cs with
  | nil =>
    intro s s' hb hd
    unfold run step closeToken
    by_cases h : s.depth > 0 <;> by_cases h2 : s.buf = [] <;>
      simp_all [Event.erase]
  | cons c cs ih =>
    intro s s' hb hd
    suffices H : ∃ s1 s1' ev ev', step s (some c) = (some s1, ev) ∧
        step s' (some c) = (some s1', ev') ∧ s1.buf = s1'.buf ∧ s1.depth = s1'.depth ∧
        ev.map Event.erase = ev'.map Event.erase by
      obtain ⟨s1, s1', ev, ev', h1, h2, h3, h4, h5⟩ := H
      have := ih s1 s1' h3 h4
      unfold run
      rw [h1, h2]
      simp only [List.map_append, h5, this, and_self]
    have hget : ∀ s : Scan, ∃ s1, (step s (some c)).1 = some s1 := by
      intro s
      unfold step
      dsimp only
      repeat' split
      all_goals simp_all
    obtain ⟨s1, h1⟩ := hget s
    obtain ⟨s1', h1'⟩ := hget s'
    refine ⟨s1, s1', (step s (some c)).2, (step s' (some c)).2, Prod.ext h1 rfl, Prod.ext h1' rfl, ?_⟩
    revert h1 h1'
    obtain ⟨buf, l, co, sl, sc, nt, d⟩ := s
    obtain ⟨buf', l', co', sl', sc', nt', d'⟩ := s'
    dsimp only at hb hd
    subst hb; subst hd
    unfold step closeToken setStart
    dsimp only
    by_cases hd0 : d > 0
    · simp only [hd0, if_true]
      by_cases c1 : c = ')' <;> by_cases c2 : c = '(' <;> by_cases c3 : c = '\n' <;>
        simp [c1, c2, c3] <;> (try subst c1) <;> rintro rfl rfl <;> simp
    · simp only [hd0, if_false]
      cases hcw : charWord c with
      | some w =>
        by_cases hbb : buf = [] <;> by_cases n1 : nt <;> by_cases n2 : nt' <;>
          simp [hbb, n1, n2] <;> rintro rfl rfl <;> simp [Event.erase]
      | none =>
        by_cases hs : isSep c
        · by_cases hbb : buf = [] <;> by_cases c2 : c = '(' <;> by_cases c3 : c = '\n' <;>
            simp [hbb, hs, c2, c3, show isSep '(' = true from rfl, show isSep '\n' = true from rfl]
              <;> rintro rfl rfl <;> simp [Event.erase]
        · by_cases n1 : nt <;> by_cases n2 : nt' <;>
            simp [hs, n1, n2] <;> rintro rfl rfl <;> simp

/-- State of the loop after a prefix, with what it emitted. -/
theorem run_append (a : List Char) : ∀ (s : Scan) (pre : List Char), Inv false pre s →
    ∃ s' ev, Inv false (pre ++ a) s' ∧
      ∀ b, run s (a ++ b) = (ev ++ (run s' b).1, (run s' b).2) := by
  induction a with
  | nil => intro s pre I; exact ⟨s, [], by simpa using I, fun b => by simp⟩
  | cons c a ih =>
    intro s pre I
    obtain ⟨s1, ev, h1, I1, _⟩ := step_spec false c [] pre s I (by intro h; cases h)
    obtain ⟨s', ev', I', h'⟩ := ih s1 (pre ++ [c]) I1
    refine ⟨s', ev ++ ev', by simpa using I', fun b => ?_⟩
    rw [List.cons_append, run, h1]
    simp [h']

/-- A comment, however nested and whatever it contains, acts exactly like a space: the words and
line ends of the rest of the text are unchanged and so is whether the scanner returns (C18). -/
theorem comment_is_space (a b c : List Char) (ha : depthOf a = 0) (hb : CommentBody b) :
    (scan (a ++ '(' :: (b ++ ')' :: c))).1.map Event.erase =
      (scan (a ++ ' ' :: c)).1.map Event.erase ∧
    (scan (a ++ '(' :: (b ++ ')' :: c))).2 = (scan (a ++ ' ' :: c)).2 := by
  obtain ⟨s, ev, I, h⟩ := run_append a Scan.init [] (inv_init false)
  rw [List.nil_append] at I
  have hd : ¬ s.depth > 0 := by rw [I.depth]; omega
  have hd0 : s.depth = 0 := by omega
  unfold scan
  rw [h, h]
  simp only [List.map_append]
  -- after the opening parenthesis and after the space
  have e1 : ∃ s1, run s ('(' :: (b ++ ')' :: c)) =
      ((closeToken { s with col := s.col + 1 }).2 ++ (run s1 (b ++ ')' :: c)).1,
        (run s1 (b ++ ')' :: c)).2) ∧ s1.buf = [] ∧ s1.depth = 1 := by
    refine ⟨{ (closeToken { s with col := s.col + 1 }).1 with depth := 1 }, ?_, ?_, rfl⟩
    · rw [run]; simp [step, hd0, charWord, isSep]
    · unfold closeToken; split <;> simp_all
  have e2 : ∃ s1, run s (' ' :: c) =
      ((closeToken { s with col := s.col + 1 }).2 ++ (run s1 c).1, (run s1 c).2) ∧
        s1.buf = [] ∧ s1.depth = 0 := by
    refine ⟨(closeToken { s with col := s.col + 1 }).1, ?_, ?_, ?_⟩
    · rw [run]; simp [step, hd0, charWord, isSep]
    · unfold closeToken; split <;> simp_all
    · unfold closeToken; split <;> simp_all
  obtain ⟨s1, f1, f2, f3⟩ := e1
  obtain ⟨s2, g1, g2, g3⟩ := e2
  obtain ⟨s3, h1, h2, h3⟩ := run_body hb s1 (')' :: c) (by omega) f2
  have hd3 : s3.depth > 0 := by omega
  have e3 : run s3 (')' :: c) =
      run { s3 with col := s3.col + 1, depth := s3.depth - 1, newTok := true } c := by
    rw [run]; simp [step, hd3]
  have := run_sim c { s3 with col := s3.col + 1, depth := s3.depth - 1, newTok := true } s2
    (by simp [h2, g2]) (by simp [h3, f3, g3])
  rw [f1, g1, h1, e3]
  simp [this]

example : depthOf "mi ".toList = 0 ∧ CommentBody "a(b\n)1".toList ∧
    (scan "mi (a(b\n)1) klama".toList).1.map Event.erase =
      [some "mi".toList, some "klama".toList] := by
  refine ⟨by decide, ?_, by decide +kernel⟩
  exact .char 'a' _ (by decide) (by decide) (.nest ['b', '\n'] ['1']
    (.char _ _ (by decide) (by decide) (.char _ _ (by decide) (by decide) .nil))
    (.char _ _ (by decide) (by decide) .nil))

/-! ## cmavo hashing (C19) -/

end Jbo.Lex1
