import Verif.Lex1Thm
/-!
# Theorems about zoi quotations (C16)
-/

namespace Jbo.Lex1

/-- The effect of the line ends among some events. -/
def marks (evs : List Event) (st : LexState) : LexState :=
  evs.foldl (fun s e => if e = .eol then markEol s else s) st

theorem markEol_zoi (st : LexState) (z : Zoi) :
    markEol { st with zoi := z } = { markEol st with zoi := z } := by
  unfold markEol
  cases h : st.toks.getLast? <;> simp [h]

theorem markEol_keep (st : LexState) : (markEol st).zoi = st.zoi := by
  unfold markEol; split <;> rfl

theorem marks_zoi (evs : List Event) (st : LexState) (z : Zoi) :
    marks evs { st with zoi := z } = { marks evs st with zoi := z } := by
  induction evs generalizing st with
  | nil => rfl
  | cons e evs ih =>
    simp only [marks, List.foldl_cons] at ih ⊢
    by_cases h : e = .eol
    · simp only [h, if_true, markEol_zoi]; exact ih _
    · simp only [h, if_false]; exact ih _

theorem marks_keep (evs : List Event) (st : LexState) : (marks evs st).zoi = st.zoi := by
  induction evs generalizing st with
  | nil => rfl
  | cons e evs ih =>
    simp only [marks, List.foldl_cons] at ih ⊢
    by_cases h : e = .eol
    · simp only [h, if_true]; rw [ih, markEol_keep]
    · simp only [h, if_false]; exact ih _

/-- Text collected so far, continued with further words. -/
def collect (data : Word) (ws : List Word) : Word :=
  ws.foldl (fun d w => (if d ≠ [] then d ++ [' '] else d) ++ w) data

theorem collect_ne (ws : List Word) : ∀ data : Word, data ≠ [] →
    collect data ws = joinSp (data :: ws) := by
  induction ws with
  | nil => intro d _; simp [collect, joinSp]
  | cons w ws ih =>
    intro d hd
    have h1 : collect d (w :: ws) = collect (d ++ [' '] ++ w) ws := by simp [collect, hd]
    rw [h1, ih _ (by simp)]
    cases ws <;> simp [joinSp, List.intercalate, List.intersperse]

theorem collect_nil (ws : List Word) (h : ∀ w ∈ ws, w ≠ []) : collect [] ws = joinSp ws := by
  cases ws with
  | nil => rfl
  | cons w ws =>
    have h1 : collect [] (w :: ws) = collect w ws := by simp [collect]
    rw [h1, collect_ne ws w (h w (by simp))]

theorem processEvents_text (morf : Word → MorfOut) (form d : Word) (l c : Nat) (mid : List Event) :
    ∀ (rest : List Event) (data : Word) (st : LexState), st.zoi = .text form d data l c →
    d ∉ wordsOf mid →
    processEvents morf (mid ++ rest) st =
      processEvents morf rest
        { marks mid st with zoi := .text form d (collect data (wordsOf mid)) l c } := by
  induction mid with
  | nil =>
    intro rest data st hz _
    obtain ⟨z, t, b⟩ := st
    subst hz
    rfl
  | cons e mid ih =>
    intro rest data st hz hd
    cases e with
    | eol =>
      have h1 : wordsOf (.eol :: mid) = wordsOf mid := rfl
      rw [h1] at hd ⊢
      have := ih rest data (markEol st) (by rw [markEol_keep, hz]) hd
      simpa [processEvents, marks] using this
    | word w wl wc =>
      have h1 : wordsOf (.word w wl wc :: mid) = w :: wordsOf mid := rfl
      rw [h1] at hd ⊢
      have hw : w ≠ d := fun h => hd (by simp [h])
      have hd' : d ∉ wordsOf mid := fun h => hd (by simp [h])
      have hp : processWord morf w wl wc st = .ok { st with
          zoi := .text form d ((if data ≠ [] then data ++ [' '] else data) ++ w) l c } := by
        rw [processWord.eq_def, hz]
        simp [hw]
      rw [List.cons_append, processEvents, hp]
      have := ih rest _ { st with
        zoi := .text form d ((if data ≠ [] then data ++ [' '] else data) ++ w) l c } rfl hd'
      simp only [bind, Except.bind]
      rw [this, marks_zoi]
      simp [marks, collect]

theorem processEvents_delim (morf : Word → MorfOut) (form : Word) (l c : Nat) (mid : List Event) :
    ∀ (rest : List Event) (d : Word) (ws : List Word) (st : LexState),
    st.zoi = .delim form l c → wordsOf mid = d :: ws → d.length < 64 → d ∉ ws →
    processEvents morf (mid ++ rest) st =
      processEvents morf rest { marks mid st with zoi := .text form d (collect [] ws) l c } := by
  induction mid with
  | nil => intro rest d ws st _ h; cases h
  | cons e mid ih =>
    intro rest d ws st hz hw hl hd
    cases e with
    | eol =>
      have := ih rest d ws (markEol st) (by rw [markEol_keep, hz]) hw hl hd
      simpa [processEvents, marks] using this
    | word w wl wc =>
      have h1 : wordsOf (.word w wl wc :: mid) = w :: wordsOf mid := rfl
      rw [h1] at hw
      obtain ⟨rfl, rfl⟩ := List.cons.inj hw
      have hp : processWord morf w wl wc st = .ok { st with zoi := .text form w [] l c } := by
        rw [processWord.eq_def, hz]
        simp [hl]
      rw [List.cons_append, processEvents, hp]
      simp only [bind, Except.bind]
      rw [processEvents_text morf form w l c mid rest [] _ rfl hd, marks_zoi]
      simp [marks]

/-- The zoi words. -/
def zoiForms : List Word := ["zoi".toList, "la'o".toList]

/-- A zoi or la'o quotation: after the opening word and a delimiter `d`, all words up to the next
`d` become the text of one token placed at the opening word, whatever they are and whatever the
morphology would say about them; reading then continues normally (C16). -/
theorem zoi_quote (morf : Word → MorfOut) (form d : Word) (ws : List Word) (l c l' c' : Nat)
    (mid rest : List Event) (st : LexState)
    (hform : form ∈ zoiForms) (hidle : st.zoi = .idle)
    (hmid : wordsOf mid = d :: ws) (hlen : d.length < 64) (hd : d ∉ ws) (hne : ∀ w ∈ ws, w ≠ []) :
    processEvents morf (.word form l c :: (mid ++ .word d l' c' :: rest)) st =
      processEvents morf rest (addTok (marks mid st) (.zoi form d (joinSp ws)) l c) := by
  have h1 : processWord morf form l c st = .ok { st with zoi := .delim form l c } := by
    rw [processWord.eq_def, hidle]
    simp only [zoiForms, List.mem_cons, List.not_mem_nil, or_false] at hform
    rcases hform with rfl | rfl
    · simp
    · rw [if_neg (by decide), if_pos rfl]
  rw [processEvents, h1]
  simp only [bind, Except.bind]
  rw [processEvents_delim morf form l c mid _ d ws _ rfl hmid hlen hd, marks_zoi]
  rw [processEvents]
  have h2 : processWord morf d l' c'
      { marks mid st with zoi := .text form d (collect [] ws) l c } =
      .ok (addTok (marks mid st) (.zoi form d (joinSp ws)) l c) := by
    rw [processWord.eq_def]
    simp only [if_true]
    rw [collect_nil ws hne]
    have h3 : (marks mid st).zoi = .idle := by rw [marks_keep, hidle]
    unfold addTok
    rw [← h3]
  simp only [bind, Except.bind, h2]

/-- A morphology that fails on everything, for the examples. -/
def morfFail : Word → MorfOut := fun _ => ⟨.bogus, [], true, none, none⟩

example : parseFile morfFail "la'o .gy. To be,\n or .gy.".toList =
    .ok ⟨.idle, [⟨.zoi "la'o".toList "gy".toList "To be, or".toList, 1, 1, 0⟩], false⟩ := by
  decide +kernel

/-- The scanner never emits an empty word, so the non-emptiness hypothesis of `zoi_quote` holds for
every file. -/
theorem scan_nonempty (text : List Char) : ∀ w ∈ wordsOf (scan text).1, w ≠ [] := by
  have h : ∀ evs : List Event, wordsOf evs = (evs.map Event.erase).filterMap id := by
    intro evs; simp [wordsOf, List.filterMap_map]
  rw [h, scan_words, ← h]
  intro w hw
  simp only [wordsOf, items, List.mem_filterMap, List.mem_range] at hw
  obtain ⟨e, ⟨i, hi, hit⟩, he⟩ := hw
  unfold itemAt at hit
  split at hit
  · cases hit
  · split at hit
    · cases hit
    · rename_i cc cs hcs
      split at hit
      · cases hit; cases he
      · split at hit
        · rename_i v hv
          cases hit
          simp only [Event.erase, Option.some.injEq] at he
          subst he
          rintro rfl
          have : ∀ p ∈ digitNames, p.2 ≠ [] := by decide
          obtain ⟨p, hp, h2⟩ : ∃ p ∈ digitNames, p.2 = ([] : Word) := by
            rw [List.lookup_eq_some_iff] at hv
            obtain ⟨a, b, hab, _⟩ := hv
            exact ⟨(cc, []), by rw [hab]; simp, rfl⟩
          exact this p hp h2
        · split at hit
          · rename_i hp
            cases hit
            simp only [Event.erase, Option.some.injEq] at he
            subst he
            simp only [Bool.and_eq_true] at hp
            simp [hcs, List.takeWhile_cons, hp.1]
          · cases hit

example : wordsOf (scan ". ( ) .. a >".toList).1 = [['a']] := by decide +kernel

/-- A quotation still open at the end of the file is reported: the run ends with the bad-token flag
set. -/
theorem zoi_unclosed_reported (morf : Word → MorfOut) (text : List Char) (st : LexState)
    (form d data : Word) (l c : Nat) (hends : (scan text).2 = true)
    (hst : processEvents morf (scan text).1 LexState.init = .ok st)
    (hz : st.zoi = .text form d data l c) :
    parseFile morf text = .ok { st with bad := true } := by
  unfold parseFile
  simp only [hst, hends, bind, Except.bind, if_true, hz, pure, Except.pure]

example : parseFile morfFail "zoi gy. a".toList =
    .ok ⟨.text "zoi".toList "gy".toList "a".toList 1 1, [], true⟩ := by decide +kernel

/-- Defect: a text that ends right after "zoi" loses that word without any report
(`lex1.c:280-286,457-460`). -/
theorem trailing_zoi_dropped (morf : Word → MorfOut) :
    parseFile morf "zoi".toList = .ok ⟨.delim "zoi".toList 1 1, [], false⟩ := by
  unfold parseFile
  have h : scan "zoi".toList = ([.word "zoi".toList 1 1], true) := by decide +kernel
  rw [h]
  simp only [processEvents]
  rw [processWord.eq_def]
  simp [LexState.init, bind, Except.bind, pure, Except.pure]

/-- Defect: a delimiter of 64 or more characters overruns `zoi_delim` (`lex1.c:23,274`). -/
theorem long_delim_overflows (morf : Word → MorfOut) (form d : Word) (l c l' c' : Nat)
    (st : LexState) (hz : st.zoi = .delim form l c) (hd : 64 ≤ d.length) :
    processWord morf d l' c' st = .error .outOfBounds := by
  rw [processWord.eq_def, hz]
  simp only [ite_eq_right_iff]
  intro h; omega

example : processWord morfFail (List.replicate 64 'a') 1 5
    ⟨.delim "zoi".toList 1 1, [], false⟩ = .error .outOfBounds :=
  long_delim_overflows _ _ _ 1 1 _ _ _ rfl (by decide)

/-- Foreign text is kept word by word, not character by character: digits, dots and parentheses in
it are rewritten by the scanner before `process_word` sees them. -/
theorem zoi_text_not_character_exact : parseFile morfFail "zoi gy. 10 (x) a.b gy.".toList =
    .ok ⟨.idle, [⟨.zoi "zoi".toList "gy".toList "pa no a b".toList, 1, 1, 0⟩], false⟩ := by
  decide +kernel

/-! ## Positions of the pieces of a compound (C17) -/

/-- Word starts are strictly increasing offsets inside the word. -/
def Increasing (n : Nat) : List Nat → Prop
  | [] => True
  | [a] => a ≤ n
  | a :: b :: rest => a < b ∧ Increasing n (b :: rest)

/-- The pieces of a word glue together to the word from its first start on (C40). -/
theorem pieces_glue (w : Word) (a : Nat) (rest : List Nat) (h : Increasing w.length (a :: rest)) :
    (pieces w (a :: rest)).1.flatten ++ (pieces w (a :: rest)).2 = w.drop a := by
  induction rest generalizing a with
  | nil => simp [pieces]
  | cons b rest ih =>
    simp only [Increasing] at h
    simp only [pieces, List.flatten_cons, List.append_assoc, ih b h.2]
    have : w.drop b = (w.drop a).drop (b - a) := by
      rw [List.drop_drop]; congr 1; omega
    rw [this, List.take_append_drop]

example : Increasing "mipuklama".toList.length [0, 2, 4] ∧
    pieces "mipuklama".toList [0, 2, 4] = (["mi".toList, "pu".toList], "klama".toList) := by
  refine ⟨?_, by decide⟩
  simp [Increasing]

/-- The cmavo run is the run of its parts, and each piece is processed at the column of the word
plus the length of everything before it (C17). -/
theorem piece_column (line : Nat) (a : List Word) (p : Word) (b : List Word) :
    ∀ (col : Nat) (st : LexState),
    cmavoRun line (a ++ p :: b) col st =
      (do let r ← cmavoRun line a col st
          let st2 ← processCmavo p line (col + a.flatten.length) r.2
          cmavoRun line b (col + a.flatten.length + p.length) st2) := by
  induction a with
  | nil => intro col st; simp [cmavoRun, bind, Except.bind]
  | cons x a ih =>
    intro col st
    simp only [List.cons_append, cmavoRun, bind, Except.bind]
    cases processCmavo x line col st with
    | error e => rfl
    | ok st1 =>
      have := ih (col + x.length) st1
      simp only [bind, Except.bind] at this
      simp only [this, List.flatten_cons, List.length_append, Nat.add_assoc]

/-- A morphology for the example below. -/
def morfEx : Word → MorfOut := fun w =>
  if w = "mipuklama".toList then ⟨.gismu, [0, 2, 4], false, none, none⟩
  else ⟨.bogus, [], false, none, none⟩

example : parseFile morfEx " mipuklama".toList = .ok ⟨.idle,
    [⟨.cmavo .KOhA "mi".toList, 1, 2, 0⟩, ⟨.cmavo .PU "pu".toList, 1, 4, 0⟩,
     ⟨.brivla "klama".toList, 1, 6, 0⟩], false⟩ := by decide +kernel

end Jbo.Lex1
