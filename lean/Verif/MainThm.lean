import Verif.MainSpec
/-!
# The command line, the order of the passes and the exit status
-/

namespace Jbo.Main
open Jbo.Main.Spec

/-! ## The options -/

/-- What one argument changes. -/
def apply (o : Opts) : Item → Opts
  | .width v => { o with width := atoi v }
  | .word a => { o with
      debug := o.debug || decide (a = "-d".toList)
      tokenLists := o.tokenLists || decide (a = "-k".toList)
      gloss := o.gloss || decide (a = "-g".toList)
      showTree := o.showTree || decide (a = "-t".toList) || decide (a = "-tf".toList)
      fullTree := o.fullTree || decide (a = "-tf".toList)
      latex := o.latex || decide (a = "-l".toList)
      textout := o.textout || decide (a = "-x".toList)
      htmlout := o.htmlout || decide (a = "-H".toList)
      block := o.block || decide (a = "-b".toList)
      showMemory := o.showMemory || decide (a = "-m".toList)
      insertElidables := o.insertElidables || decide (a = "-ie".toList)
      requireElidables := o.requireElidables || decide (a = "-re".toList)
      showElisions := o.showElisions || decide (a = "-se".toList) || decide (a = "-sev".toList)
      showElisionsVerbose := o.showElisionsVerbose || decide (a = "-sev".toList)
      cultural := o.cultural || decide (a = "-cr".toList)
      backtrace := o.backtrace || decide (a = "-bt".toList)
      defects := o.defects || decide (a = "-dd".toList)
      file := if IsFile a then some a else o.file }

theorem parse_switch {a : Word} (h : a ∈ switches) (o : Opts) (r : List Word) : parse o (a :: r) = parse (apply o (.word a)) r := by
  simp only [switches, List.map_cons, List.map_nil, List.mem_cons, List.not_mem_nil, or_false] at h
  rw [parse.eq_def]
  simp only
  rcases h with h | h | h | h | h | h | h | h | h | h | h | h | h | h | h | h | h <;> subst h <;>
    simp (config := { decide := true }) only [apply, if_true, if_false, decide_true, decide_false, Bool.or_true, Bool.or_false]

theorem file_ne {a s : Word} (h : IsFile a) (hs : s.head? = some '-') : a ≠ s := fun e => h (e ▸ hs)

theorem file_take {a : Word} (h : IsFile a) : a.take 2 ≠ "-w".toList ∧ a.take 1 ≠ "-".toList := by
  cases a with
  | nil => decide
  | cons c a =>
    have hc : c ≠ '-' := fun e => h (by rw [e]; rfl)
    constructor <;> intro e
    · cases a with
      | nil => cases e
      | cons b a => injection e with e _; exact hc e
    · injection e with e _; exact hc e

theorem parse_file {a : Word} (h : IsFile a) (o : Opts) (r : List Word) : parse o (a :: r) = parse (apply o (.word a)) r := by
  rw [parse.eq_def]
  simp only
  rw [if_neg (file_ne h rfl), if_neg (file_ne h rfl), if_neg (file_ne h rfl), if_neg (file_ne h rfl), if_neg (file_ne h rfl), if_neg (file_ne h rfl),
    if_neg (file_ne h rfl), if_neg (file_ne h rfl), if_neg (file_ne h rfl), if_neg (file_ne h rfl), if_neg (file_ne h rfl), if_neg (file_ne h rfl),
    if_neg (file_ne h rfl), if_neg (file_ne h rfl), if_neg (file_ne h rfl), if_neg (file_ne h rfl), if_neg (file_ne h rfl), if_neg (file_ne h rfl),
    if_neg (file_take h).1, if_neg (file_ne h rfl), if_neg (file_ne h rfl), if_neg (file_ne h rfl), if_neg (file_take h).2]
  have hd : ∀ s : String, s.toList.head? = some '-' → decide (a = s.toList) = false := fun s hs => decide_eq_false (file_ne h hs)
  simp only [apply, hd "-d" rfl, hd "-k" rfl, hd "-g" rfl, hd "-t" rfl, hd "-tf" rfl, hd "-l" rfl, hd "-x" rfl, hd "-H" rfl, hd "-b" rfl, hd "-m" rfl,
    hd "-ie" rfl, hd "-re" rfl, hd "-se" rfl, hd "-sev" rfl, hd "-cr" rfl, hd "-bt" rfl, hd "-dd" rfl, Bool.or_false, if_pos h]

/-- An argument that starts with `-w` is none of the options before it in the chain. -/
theorem w_ne {v s : Word} (hs : s[1]? ≠ some 'w') : "-w".toList ++ v ≠ s := fun e => hs (e ▸ rfl)

theorem parse_w (v : Word) (o : Opts) (r : List Word) : parse o (("-w".toList ++ v) :: r) =
    if ("-w".toList ++ v).length > 2 then parse { o with width := atoi (("-w".toList ++ v).drop 2) } r
      else match r with
        | [] => .null
        | b :: r' => parse { o with width := atoi b } r' := by
  rw [parse.eq_def]
  simp only
  rw [if_neg (w_ne (by decide)), if_neg (w_ne (by decide)), if_neg (w_ne (by decide)), if_neg (w_ne (by decide)), if_neg (w_ne (by decide)),
    if_neg (w_ne (by decide)), if_neg (w_ne (by decide)), if_neg (w_ne (by decide)), if_neg (w_ne (by decide)), if_neg (w_ne (by decide)),
    if_neg (w_ne (by decide)), if_neg (w_ne (by decide)), if_neg (w_ne (by decide)), if_neg (w_ne (by decide)), if_neg (w_ne (by decide)),
    if_neg (w_ne (by decide)), if_neg (w_ne (by decide)), if_neg (w_ne (by decide)), if_pos (show ("-w".toList ++ v).take 2 = "-w".toList from rfl)]
  cases r <;> rfl

/-- The loop goes over good arguments one by one. -/
theorem parse_fine {args : List Word} {is : List Item} (h : Reads args is) (hf : ∀ i ∈ is, Fine i) (o : Opts) (rest : List Word) :
    parse o (args ++ rest) = parse (is.foldl apply o) rest := by
  induction h generalizing o with
  | nil => rfl
  | @word a r is hw _ ih =>
    have ih := ih (fun i hi => hf i (List.mem_cons_of_mem _ hi))
    rw [List.foldl_cons, ← ih, List.cons_append]
    rcases hf _ (List.mem_cons_self ..) with h | h
    · exact parse_switch h o _
    · exact parse_file h o _
  | @width v r is _ ih =>
    have ih := ih (fun i hi => hf i (List.mem_cons_of_mem _ hi))
    rw [List.foldl_cons, ← ih]
    exact parse_w [] o _
  | @glued v r is hv _ ih =>
    have ih := ih (fun i hi => hf i (List.mem_cons_of_mem _ hi))
    rw [List.foldl_cons, ← ih, List.cons_append, parse_w, if_pos]
    · rfl
    · cases v with
      | nil => exact absurd rfl hv
      | cons c v => simp

theorem fold_bool (f : Opts → Bool) (ws : List String) (hf : ∀ o i, f (apply o i) = (f o || ws.any (fun s => decide (i = .word s.toList)))) (is : List Item) (o : Opts) :
    f (is.foldl apply o) = (f o || ws.any (given is)) := by
  induction is generalizing o with
  | nil => simp [given]
  | cons i is ih =>
    rw [List.foldl_cons, ih, hf, Bool.or_assoc]
    congr 1
    rw [Bool.eq_iff_iff]
    simp only [Bool.or_eq_true, List.any_eq_true, given, decide_eq_true_eq, List.mem_cons]
    constructor
    · rintro (⟨s, h1, h2⟩ | ⟨s, h1, h2⟩)
      · exact ⟨s, h1, .inl h2.symm⟩
      · exact ⟨s, h1, .inr h2⟩
    · rintro ⟨s, h1, h2 | h2⟩
      · exact .inl ⟨s, h1, h2.symm⟩
      · exact .inr ⟨s, h1, h2⟩

theorem fold_one (f : Opts → Bool) (s : String) (h0 : f {} = false) (hw : ∀ o v, f (apply o (.width v)) = f o)
    (ha : ∀ o a, f (apply o (.word a)) = (f o || decide (a = s.toList))) (is : List Item) : f (is.foldl apply {}) = given is s := by
  rw [fold_bool f [s] (fun o i => ?_), h0]
  · simp
  · cases i with
    | width v => rw [hw]; simp
    | word a => rw [ha]; simp

theorem fold_two (f : Opts → Bool) (s t : String) (h0 : f {} = false) (hw : ∀ o v, f (apply o (.width v)) = f o)
    (ha : ∀ o a, f (apply o (.word a)) = (f o || decide (a = s.toList) || decide (a = t.toList))) (is : List Item) :
    f (is.foldl apply {}) = (given is s || given is t) := by
  rw [fold_bool f [s, t] (fun o i => ?_), h0]
  · simp
  · cases i with
    | width v => rw [hw]; simp
    | word a => rw [ha, Bool.or_assoc]; simp

theorem fold_width (is : List Item) (o : Opts) : (is.foldl apply o).width = ((is.filterMap width?).getLast?.map atoi).getD o.width := by
  induction is generalizing o with
  | nil => rfl
  | cons i is ih =>
    rw [List.foldl_cons, ih]
    cases i with
    | word a => rfl
    | width v =>
      rw [List.filterMap_cons_some (show width? (.width v) = some v from rfl), List.getLast?_cons]
      cases (is.filterMap width?).getLast? <;> rfl

theorem fold_file (is : List Item) (o : Opts) : (is.foldl apply o).file = (is.filterMap file?).getLast?.or o.file := by
  induction is generalizing o with
  | nil => rfl
  | cons i is ih =>
    rw [List.foldl_cons, ih]
    cases i with
    | width v => rfl
    | word a =>
      by_cases h : IsFile a
      · rw [List.filterMap_cons_some (show file? (.word a) = some a from if_pos h), List.getLast?_cons]
        show _ = Option.or (some _) _
        simp only [apply, if_pos h]
        cases (is.filterMap file?).getLast? <;> rfl
      · rw [List.filterMap_cons_none (show file? (.word a) = none from if_neg h)]
        simp only [apply, if_neg h]

/-- **Every option counts wherever it stands**, and of several widths or files the last. -/
theorem options_read (args : List Word) (is : List Item) (h : Reads args is) (hf : ∀ i ∈ is, Fine i) :
    ∃ o, parse {} args = .run o ∧ Means is o := by
  refine ⟨is.foldl apply {}, ?_, ?_⟩
  · have := parse_fine h hf {} []
    rw [List.append_nil] at this
    rw [this]
    rfl
  · constructor
    · exact fold_one (·.debug) _ rfl (fun _ _ => rfl) (fun _ _ => rfl) is
    · exact fold_one (·.tokenLists) _ rfl (fun _ _ => rfl) (fun _ _ => rfl) is
    · exact fold_one (·.gloss) _ rfl (fun _ _ => rfl) (fun _ _ => rfl) is
    · exact fold_two (·.showTree) _ _ rfl (fun _ _ => rfl) (fun _ _ => rfl) is
    · exact fold_one (·.fullTree) _ rfl (fun _ _ => rfl) (fun _ _ => rfl) is
    · exact fold_one (·.latex) _ rfl (fun _ _ => rfl) (fun _ _ => rfl) is
    · exact fold_one (·.textout) _ rfl (fun _ _ => rfl) (fun _ _ => rfl) is
    · exact fold_one (·.htmlout) _ rfl (fun _ _ => rfl) (fun _ _ => rfl) is
    · exact fold_one (·.block) _ rfl (fun _ _ => rfl) (fun _ _ => rfl) is
    · exact fold_one (·.showMemory) _ rfl (fun _ _ => rfl) (fun _ _ => rfl) is
    · exact fold_one (·.insertElidables) _ rfl (fun _ _ => rfl) (fun _ _ => rfl) is
    · exact fold_one (·.requireElidables) _ rfl (fun _ _ => rfl) (fun _ _ => rfl) is
    · exact fold_two (·.showElisions) _ _ rfl (fun _ _ => rfl) (fun _ _ => rfl) is
    · exact fold_one (·.showElisionsVerbose) _ rfl (fun _ _ => rfl) (fun _ _ => rfl) is
    · exact fold_one (·.cultural) _ rfl (fun _ _ => rfl) (fun _ _ => rfl) is
    · exact fold_one (·.backtrace) _ rfl (fun _ _ => rfl) (fun _ _ => rfl) is
    · exact fold_one (·.defects) _ rfl (fun _ _ => rfl) (fun _ _ => rfl) is
    · exact fold_width is {}
    · rw [fold_file]; exact Option.or_none

/-- The first argument that is no known option ends the program with status 1, one that asks for a text with status 0. -/
theorem first_stop (w : World) (args : List Word) (is : List Item) (a : Word) (rest : List Word) (h : Reads args is) (hf : ∀ i ∈ is, Fine i)
    (hw : ¬ "-w".toList <+: a) (ha : ¬ Fine (.word a)) : main w (args ++ a :: rest) = .exit [] (if a ∈ asking then 0 else 1) := by
  unfold main
  rw [parse_fine h hf]
  have key : ∀ o, parse o (a :: rest) = .quit (if a ∈ asking then 0 else 1) := by
    intro o
    have h1 : a ∉ switches := fun e => ha (.inl e)
    have h2 : ¬ IsFile a := fun e => ha (.inr e)
    have ht2 : a.take 2 ≠ "-w".toList := fun e => hw ⟨a.drop 2, by rw [← e]; exact List.take_append_drop 2 a⟩
    have ht1 : a.take 1 = "-".toList := by
      cases a with
      | nil => exact absurd (by decide) h2
      | cons c a =>
        have : c = '-' := by
          simpa [IsFile] using h2
        rw [this]; rfl
    simp only [switches, List.map_cons, List.map_nil, List.mem_cons, List.not_mem_nil, or_false, not_or] at h1
    obtain ⟨n1, n2, n3, n4, n5, n6, n7, n8, n9, n10, n11, n12, n13, n14, n15, n16, n17⟩ := h1
    rw [parse.eq_def]
    simp only
    rw [if_neg n1]
    by_cases hv : a = "-v".toList
    · rw [if_pos hv, if_pos (by rw [hv]; decide)]
    rw [if_neg hv, if_neg n2, if_neg n3, if_neg n4, if_neg n5, if_neg n6, if_neg n7, if_neg n8, if_neg n9, if_neg n10, if_neg n11, if_neg n12, if_neg n13,
      if_neg n14, if_neg n15, if_neg n16, if_neg n17, if_neg ht2]
    by_cases hh : a = "--help".toList
    · rw [if_pos hh, if_pos (by rw [hh]; decide)]
    by_cases hh2 : a = "-h".toList
    · rw [if_neg hh, if_pos hh2, if_pos (by rw [hh2]; decide)]
    by_cases hq : a = "-?".toList
    · rw [if_neg hh, if_neg hh2, if_pos hq, if_pos (by rw [hq]; decide)]
    rw [if_neg hh, if_neg hh2, if_neg hq, if_pos ht1, if_neg]
    simp only [asking, List.map_cons, List.map_nil, List.mem_cons, List.not_mem_nil, or_false, not_or]
    exact ⟨hv, hh, hh2, hq⟩
  rw [key]

/-- A defect: after `-w` at the end of the command line `atoi` gets a null pointer. -/
theorem width_missing (w : World) (args : List Word) (is : List Item) (h : Reads args is) (hf : ∀ i ∈ is, Fine i) : main w (args ++ ["-w".toList]) = .null := by
  unfold main
  rw [parse_fine h hf, show ["-w".toList] = [("-w".toList ++ [])] from rfl, parse_w]
  rfl

/-- There are no other command lines. -/
theorem all_read (args : List Word) :
    (∃ is, Reads args is ∧ ∀ i ∈ is, Fine i) ∨
    (∃ pre is a rest, args = pre ++ a :: rest ∧ Reads pre is ∧ (∀ i ∈ is, Fine i) ∧ ¬ "-w".toList <+: a ∧ ¬ Fine (.word a)) ∨
    (∃ pre is, args = pre ++ ["-w".toList] ∧ Reads pre is ∧ ∀ i ∈ is, Fine i) := by
  induction hk : args.length using Nat.strongRecOn generalizing args with
  | ind k ih =>
    subst hk
    -- one argument in front of a command line
    have step : ∀ (head : List Word) (i : Item) (r : List Word), args = head ++ r → r.length < args.length → Fine i →
        (∀ r is, Reads r is → Reads (head ++ r) (i :: is)) →
        (∃ is, Reads args is ∧ ∀ i ∈ is, Fine i) ∨
        (∃ pre is a rest, args = pre ++ a :: rest ∧ Reads pre is ∧ (∀ i ∈ is, Fine i) ∧ ¬ "-w".toList <+: a ∧ ¬ Fine (.word a)) ∨
        (∃ pre is, args = pre ++ ["-w".toList] ∧ Reads pre is ∧ ∀ i ∈ is, Fine i) := by
      intro head i r he hl hi hr
      rcases ih _ hl r rfl with ⟨is, h1, h2⟩ | ⟨pre, is, a, rest, h0, h1, h2, h3, h4⟩ | ⟨pre, is, h0, h1, h2⟩
      · exact .inl ⟨_, he ▸ hr r is h1, List.forall_mem_cons.2 ⟨hi, h2⟩⟩
      · exact .inr (.inl ⟨_, _, a, rest, by rw [he, h0, List.append_assoc], hr pre is h1, List.forall_mem_cons.2 ⟨hi, h2⟩, h3, h4⟩)
      · exact .inr (.inr ⟨_, _, by rw [he, h0, List.append_assoc], hr pre is h1, List.forall_mem_cons.2 ⟨hi, h2⟩⟩)
    cases args with
    | nil => exact .inl ⟨[], .nil, nofun⟩
    | cons a r =>
      by_cases hw : "-w".toList <+: a
      · obtain ⟨v, rfl⟩ := hw
        cases v with
        | nil =>
          cases r with
          | nil => exact .inr (.inr ⟨[], [], rfl, .nil, nofun⟩)
          | cons v r => exact step [_, v] (.width v) r rfl (by simp only [List.length_cons]; omega) trivial fun r is h => .width h
        | cons c v => exact step [_] (.width (c :: v)) r rfl (by simp) trivial fun r is h => .glued (by simp) h
      · by_cases hf : Fine (.word a)
        · exact step [a] (.word a) r rfl (by simp) hf fun r is h => .word hw h
        · exact .inr (.inl ⟨[], [], a, r, rfl, .nil, nofun, hw, hf⟩)

/-- **Every command line is understood, answered or refused.**  Full claim: without the hypothesis; see `width_missing`. -/
theorem command_line_partial (w : World) (args : List Word)
    (h : ¬ ∃ pre is, args = pre ++ ["-w".toList] ∧ Reads pre is ∧ ∀ i ∈ is, Fine i) :
    (∃ is o, Reads args is ∧ (∀ i ∈ is, Fine i) ∧ parse {} args = .run o ∧ Means is o) ∨
    (∃ pre is a rest, args = pre ++ a :: rest ∧ Reads pre is ∧ (∀ i ∈ is, Fine i) ∧ ¬ Fine (.word a) ∧
      main w args = .exit [] (if a ∈ asking then 0 else 1)) := by
  rcases all_read args with ⟨is, h1, h2⟩ | ⟨pre, is, a, rest, h0, h1, h2, h3, h4⟩ | h'
  · obtain ⟨o, h3, h4⟩ := options_read args is h1 h2
    exact .inl ⟨is, o, h1, h2, h3, h4⟩
  · exact .inr ⟨pre, is, a, rest, h0, h1, h2, h4, h0 ▸ first_stop w pre is a rest h1 h2 h3 h4⟩
  · exact absurd h' h

/-! ## The width -/

theorem digits_eq (w : Word) (h : ∀ c ∈ w, c.isDigit = true) (n : Nat) : digits n w = Nat.ofDigitChars 10 w n := by
  induction w generalizing n with
  | nil => simp [digits]
  | cons c w ih =>
    rw [digits, if_pos (h c (List.mem_cons_self ..)), ih (fun c hc => h c (List.mem_cons_of_mem _ hc)), Nat.ofDigitChars_cons]

/-- A number written in decimal digits is read as this number. -/
theorem atoi_number (n : Nat) : atoi (toString n).toList = n := by
  have hd : ∀ c ∈ Nat.toDigits 10 n, c.isDigit = true := fun c hc => Nat.isDigit_of_mem_toDigits (by decide) (by decide) hc
  have hl : (toString n).toList = Nat.toDigits 10 n := by simp
  rw [hl]
  have h2 : digits 0 (Nat.toDigits 10 n) = n := by rw [digits_eq _ hd]; simp
  generalize Nat.toDigits 10 n = w at hd h2 ⊢
  unfold atoi
  cases w with
  | nil => rw [← h2]; rfl
  | cons c w =>
    have hc := hd c (List.mem_cons_self ..)
    have hb : blank c = false := by
      rw [Bool.eq_false_iff]
      intro hb
      simp only [blank, Bool.or_eq_true, beq_iff_eq, Bool.and_eq_true, decide_eq_true_eq] at hb
      simp only [Char.isDigit, Bool.and_eq_true, decide_eq_true_eq] at hc
      rcases hb with rfl | ⟨h, hb⟩
      · revert hc; decide
      · have := hb
        have h1 := hc.1
        change c.val ≤ _ at hb
        have h3 : c.val.toNat ≤ 13 := hb
        have h4 : 48 ≤ c.val.toNat := h1
        omega
    rw [List.dropWhile_cons_of_neg (by simp [hb])]
    split
    · rename_i e; injection e with e _; rw [e] at hc; exact absurd hc (by decide)
    · rename_i e; injection e with e _; rw [e] at hc; exact absurd hc (by decide)
    · rw [h2]

/-! ## The run -/

theorem means_compatible {is : List Item} {o : Opts} (h : Means is o) :
    compatible o = { o with showElisions := (given is "-se" || given is "-sev") && !given is "-re" } := by
  have h1 := h.requireElidables
  have h2 := h.showElisions
  unfold compatible
  rw [h1, ← h2]
  cases h
  cases o
  simp only at h1 h2 ⊢
  subst h1
  subst h2
  cases given is "-re" <;> cases given is "-se" <;> cases given is "-sev" <;> rfl

theorem display_shows {is : List Item} {o : Opts} (h : Means is o) : (display o).filter shows = [kind is] := by
  unfold display kind
  rw [h.showTree, h.fullTree, h.latex, h.textout, h.htmlout, h.block, h.gloss]
  cases given is "-t" <;> cases given is "-tf" <;> cases given is "-l" <;> cases given is "-x" <;> cases given is "-H" <;> cases given is "-b" <;> rfl

theorem tokens_shows (o : Opts) : (tokens o).filter shows = [] := by unfold tokens; split <;> rfl
theorem memory_shows (o : Opts) : (memory o).filter shows = [] := by unfold memory; split <;> rfl

/-- The file that is opened is there. -/
theorem opened_iff {w : World} {is : List Item} {o : Opts} (h : Means is o) :
    o.file.any (! w.opens ·) = false ↔ ∀ f, (is.filterMap file?).getLast? = some f → w.opens f = true := by
  rw [h.file]
  cases (is.filterMap file?).getLast? with
  | none => exact ⟨fun _ _ e => (by cases e), fun _ => rfl⟩
  | some f =>
    constructor
    · intro h g e
      cases e
      simpa using h
    · intro h
      simp [h f rfl]

/-- **The text is shown exactly when everything went well, exactly once, and as the options ask**; and then, and only then, the status
is 0. -/
theorem shown_when_good (w : World) (args : List Word) (is : List Item) (h : Reads args is) (hf : ∀ i ∈ is, Fine i) :
    ∃ steps status, main w args = .exit steps status ∧ (status = 0 ↔ Good w is) ∧ (Good w is → steps.filter shows = [kind is]) ∧
      (¬ Good w is → steps.filter shows = []) := by
  obtain ⟨o, h1, h2⟩ := options_read args is h hf
  unfold main
  rw [h1]
  refine ⟨_, _, rfl, ?_⟩
  have hc : compatible o = { o with showElisions := (given is "-se" || given is "-sev") && !given is "-re" } := means_compatible h2
  have hdisp : (display (compatible o)).filter shows = [kind is] := by rw [← display_shows h2, hc]; rfl
  have hfile : (compatible o).file = o.file := by rw [hc]
  have hreq : (compatible o).requireElidables = given is "-re" := by rw [hc]; exact h2.requireElidables
  generalize compatible o = c at hdisp hfile hreq
  unfold go
  have ho := opened_iff (w := w) h2
  rw [← hfile] at ho
  by_cases hop : c.file.any (! w.opens ·) = true
  · rw [if_pos hop]
    have hg : ¬ Good w is := fun hg => by rw [ho.2 hg.1] at hop; cases hop
    exact ⟨⟨fun e => (by cases e), fun g => absurd g hg⟩, fun g => absurd g hg, fun _ => rfl⟩
  have hop := Bool.eq_false_iff.2 hop
  rw [if_neg (by rw [hop]; decide)]
  by_cases hb : w.badLex = true
  · rw [if_pos hb]
    have hg : ¬ Good w is := fun hg => by rw [hg.2.1] at hb; cases hb
    exact ⟨⟨fun e => (by cases e), fun g => absurd g hg⟩, fun g => absurd g hg, fun _ => rfl⟩
  rw [if_neg hb]
  by_cases hp : w.badPre = true
  · rw [if_pos hp]
    have hg : ¬ Good w is := fun hg => by rw [hg.2.2.1] at hp; cases hp
    refine ⟨⟨fun e => (by cases e), fun g => absurd g hg⟩, fun g => absurd g hg, fun _ => ?_⟩
    simp [tokens_shows, shows]
  rw [if_neg hp]
  simp only [hreq]
  have good_iff : Good w is ↔ w.parser (given is "-re") = (0, false) :=
    ⟨fun hg => hg.2.2.2, fun e => ⟨ho.1 hop, Bool.eq_false_iff.2 hb, Bool.eq_false_iff.2 hp, e⟩⟩
  rw [good_iff]
  rcases w.parser (given is "-re") with ⟨res, err⟩
  refine ⟨?_, ?_, ?_⟩
  · simp only [Prod.mk.injEq]
    by_cases hr : res = 0 <;> cases err <;> simp [hr]
  · intro e
    cases e
    simp [tokens_shows, memory_shows, hdisp, shows]
  · intro e
    have hne : ¬ (res = 0 ∧ err = false) := fun ⟨e1, e2⟩ => e (by rw [e1, e2])
    simp [tokens_shows, memory_shows, shows, hne]

/-- **The other values of the status**: 3 for words that are none, 1 for a file that is not there or when the parser gives up, 2 for errors
after which it went on. -/
theorem status_of (w : World) (args : List Word) (is : List Item) (h : Reads args is) (hf : ∀ i ∈ is, Fine i) :
    ∃ steps status, main w args = .exit steps status ∧
      ((∃ f, (is.filterMap file?).getLast? = some f ∧ w.opens f = false) → status = 1 ∧ steps = []) ∧
      ((∀ f, (is.filterMap file?).getLast? = some f → w.opens f = true) →
        (status = 3 ↔ w.badLex = true ∨ w.badPre = true) ∧
        (w.badLex = false → w.badPre = false → ∀ r e, w.parser (given is "-re") = (r, e) → (status = 1 ↔ r ≠ 0) ∧ (status = 2 ↔ r = 0 ∧ e = true))) := by
  obtain ⟨o, h1, h2⟩ := options_read args is h hf
  unfold main
  rw [h1]
  refine ⟨_, _, rfl, ?_⟩
  have hc : compatible o = { o with showElisions := (given is "-se" || given is "-sev") && !given is "-re" } := means_compatible h2
  have hfile : (compatible o).file = o.file := by rw [hc]
  have hreq : (compatible o).requireElidables = given is "-re" := by rw [hc]; exact h2.requireElidables
  generalize compatible o = c at hfile hreq
  unfold go
  have ho := opened_iff (w := w) h2
  rw [← hfile] at ho
  constructor
  · rintro ⟨f, e, hn⟩
    have : c.file.any (! w.opens ·) = true := by
      cases hx : c.file.any (! w.opens ·) with
      | true => rfl
      | false =>
      rw [ho.1 hx f e] at hn
      cases hn
    rw [if_pos this]
    exact ⟨rfl, rfl⟩
  · intro hop
    rw [if_neg (by rw [ho.2 hop]; decide)]
    cases w.badLex with
    | true => exact ⟨⟨fun _ => .inl rfl, fun _ => rfl⟩, nofun⟩
    | false =>
      cases w.badPre with
      | true => exact ⟨⟨fun _ => .inr rfl, fun _ => rfl⟩, fun _ => nofun⟩
      | false =>
        simp only [hreq, Bool.false_eq_true, if_false]
        rcases w.parser (given is "-re") with ⟨res, err⟩
        refine ⟨⟨fun e => ?_, fun e => by rcases e with e | e <;> cases e⟩, fun _ _ r e he => ?_⟩
        · by_cases hr : res = 0 <;> cases err <;> simp [hr] at e
        · cases he
          by_cases hr : res = 0 <;> cases err <;> simp [hr]

/-- **All steps in order**: the two lexers, the parser, and then what the kind of display needs. -/
theorem passes_in_order (w : World) (args : List Word) (is : List Item) (h : Reads args is) (hf : ∀ i ∈ is, Fine i)
    (hg : Good w is) : main w args = .exit ([.lex (is.filterMap file?).getLast?] ++ (if given is "-k" then [.tokens] else []) ++ [.preprocess] ++
      (if given is "-k" then [.tokens] else []) ++ [.parse (given is "-re"), .expand, .errorScan] ++ route is ++ (if given is "-m" then [.memory] else [])) 0 := by
  obtain ⟨o, h1, h2⟩ := options_read args is h hf
  unfold main
  rw [h1]
  have hc : compatible o = { o with showElisions := (given is "-se" || given is "-sev") && !given is "-re" } := means_compatible h2
  have hdisp : display (compatible o) = [.expand, .errorScan] ++ route is := by
    rw [hc]
    unfold display route kind
    simp only [h2.showTree, h2.fullTree, h2.latex, h2.textout, h2.htmlout, h2.block, h2.gloss]
    cases given is "-t" <;> cases given is "-tf" <;> cases given is "-l" <;> cases given is "-x" <;> cases given is "-H" <;> rfl
  have hfile : (compatible o).file = o.file := by rw [hc]
  have htok : (compatible o).tokenLists = given is "-k" := by rw [hc]; exact h2.tokenLists
  have hmem : (compatible o).showMemory = given is "-m" := by rw [hc]; exact h2.showMemory
  have hreq : (compatible o).requireElidables = given is "-re" := by rw [hc]; exact h2.requireElidables
  simp only
  generalize compatible o = c at hfile hreq hdisp htok hmem ⊢
  have ho := (opened_iff (w := w) h2).2 hg.1
  rw [← hfile] at ho
  unfold go
  rw [if_neg (by rw [ho]; decide), if_neg (by rw [hg.2.1]; decide), if_neg (by rw [hg.2.2.1]; decide)]
  simp only [hreq, hg.2.2.2]
  simp [hdisp, tokens, memory, htok, hmem, hfile, h2.file]

/-! ## Examples -/

/-- A command line with a width in two words, a file and options on both sides. -/
def line : List Word := ["-w", "60", "-x", "text", "-b", "-k"].map String.toList

theorem line_reads : Reads line [.width "60".toList, .word "-x".toList, .word "text".toList, .word "-b".toList, .word "-k".toList] :=
  .width (.word (by decide) (.word (by decide) (.word (by decide) (.word (by decide) .nil))))

example : ∃ o, parse {} line = .run o ∧ o.width = 60 ∧ o.textout = true ∧ o.file = some "text".toList ∧ o.latex = false := by
  obtain ⟨o, h1, h2⟩ := options_read line _ line_reads (by decide)
  exact ⟨o, h1, h2.width.trans (by decide), h2.textout.trans (by decide), h2.file.trans (by decide), h2.latex.trans (by decide)⟩

/-- A run in which everything goes well: `shown_when_good` and `passes_in_order`. -/
def fineWorld : World := { opens := fun _ => true, badLex := false, badPre := false, parser := fun _ => (0, false) }

example : main fineWorld line = .exit [.lex (some "text".toList), .tokens, .preprocess, .tokens, .parse false, .expand, .errorScan,
    .terms, .conversions, .tenses, .connectives, .relative, .brackets, .output .textBlock] 0 := by decide +kernel

example : Good fineWorld [.width "60".toList, .word "-x".toList, .word "text".toList, .word "-b".toList, .word "-k".toList] :=
  ⟨fun _ _ => rfl, rfl, rfl, rfl⟩

example : kind [.width "60".toList, .word "-x".toList, .word "text".toList, .word "-b".toList, .word "-k".toList] = .output .textBlock := by decide

/-- Errors after which the parser went on: status 2, and nothing is shown (`status_of`). -/
example : main { fineWorld with parser := fun _ => (0, true) } ["-l".toList] = .exit [.lex none, .preprocess, .parse false] 2 := by decide +kernel

/-- The first unknown option stops the program, even before a question for help (`first_stop`). -/
example : main fineWorld (line ++ "-z".toList :: ["-h".toList]) = .exit [] 1 :=
  first_stop fineWorld line _ "-z".toList _ line_reads (by decide) (by decide) (by decide)
example : main fineWorld (line ++ "-?".toList :: ["-z".toList]) = .exit [] 0 :=
  first_stop fineWorld line _ "-?".toList _ line_reads (by decide) (by decide) (by decide)

/-- The hypothesis of `command_line_partial`. -/
example : ¬ ∃ pre is, line = pre ++ ["-w".toList] ∧ Reads pre is ∧ ∀ i ∈ is, Fine i := by
  rintro ⟨pre, is, h, _⟩
  have := congrArg List.getLast? h
  rw [List.getLast?_concat] at this
  revert this
  decide

/-- `width_missing` -/
example : main fineWorld (line ++ ["-w".toList]) = .null := width_missing fineWorld line _ line_reads (by decide)

example : atoi "132".toList = 132 := atoi_number 132
example : atoi " -5x".toList = -5 := by decide

end Jbo.Main
