import Verif.CmMainSpec
import Verif.CmThm
import Verif.CmBlockThm
import Verif.CmScanBrivla
import Verif.MainThm
/-!
# What `cmafihe` prints
-/

namespace Jbo.CmMain
open Jbo.CmTrans (Word)
open Jbo.Cm Jbo.CmScan Jbo.CmSpec Jbo.CmMain.Spec
open Jbo.CmScan.Spec (Is Blank)

/-! ## The command line -/

def apply (o : Opts) : Item → Opts
  | .format f => { o with fmt := f }
  | .width v => { o with width := Main.atoi v }
  | .file a => { o with file := some a }
  | .ask => o

theorem parse_cons (o : Opts) (a : Word) (r : List Word) : parse o (a :: r) =
    if a = "-l".toList then parse { o with fmt := .latex } r
    else if a = "-b".toList then parse { o with fmt := .textblk } r
    else if a = "-w".toList then match r with
      | [] => .null
      | b :: r' => parse { o with width := Main.atoi b } r'
    else if a = "-v".toList then .quit
    else if a = "-h".toList ∨ a = "--help".toList then .quit
    else parse { o with file := some a } r := by
  rw [parse.eq_def]
  rfl

theorem parse_reads : ∀ {args : List Word} {is : List Item}, Reads args is → ∀ o : Opts,
    parse o args = if Item.ask ∈ is then .quit else .run (is.foldl apply o) := by
  intro args is h
  induction h with
  | nil => intro o; rfl
  | latex _ ih => intro o; rw [parse_cons, if_pos rfl, ih]; simp [apply]
  | blocks _ ih => intro o; rw [parse_cons, if_neg (by decide), if_pos rfl, ih]; simp [apply]
  | width _ ih => intro o; rw [parse_cons, if_neg (by decide), if_neg (by decide), if_pos rfl]; simp only; rw [ih]; simp [apply]
  | ask ha _ ih =>
    intro o
    rw [if_pos (List.mem_cons_self ..)]
    simp only [List.mem_cons, List.not_mem_nil, or_false] at ha
    rcases ha with rfl | rfl | rfl
    · rw [parse_cons, if_neg (by decide), if_neg (by decide), if_neg (by decide), if_pos rfl]
    · rw [parse_cons, if_neg (by decide), if_neg (by decide), if_neg (by decide), if_neg (by decide), if_pos (by decide)]
    · rw [parse_cons, if_neg (by decide), if_neg (by decide), if_neg (by decide), if_neg (by decide), if_pos (by decide)]
  | @file a r is ha _ ih =>
    intro o
    have hn : ∀ x ∈ options, a ≠ x := fun x hx e => ha (e ▸ hx)
    rw [parse_cons, if_neg (hn _ (by decide)), if_neg (hn _ (by decide)), if_neg (hn _ (by decide)), if_neg (hn _ (by decide)),
      if_neg (by rintro (h | h); · exact hn _ (by decide) h
                 exact hn _ (by decide) h), ih]
    simp [apply]

theorem fold_getLast {α : Type} (g : Item → Option α) (f : Opts → α) (h : ∀ o i, f (apply o i) = (g i).getD (f o)) :
    ∀ (is : List Item) (o : Opts), f (is.foldl apply o) = (is.filterMap g).getLast?.getD (f o) := by
  intro is
  induction is with
  | nil => intro o; rfl
  | cons i is ih =>
    intro o
    rw [List.foldl_cons, ih, h, List.filterMap_cons]
    cases hg : g i with
    | none => rfl
    | some a =>
      rw [List.getLast?_cons]
      cases (List.filterMap g is).getLast? <;> rfl

/-- **The command line**: the arguments count in any order, the last of a kind wins; `-v`, `-h` or `--help` anywhere ends the program. -/
theorem parse_means {args : List Word} {is : List Item} (h : Reads args is) :
    (.ask ∈ is → parse {} args = .quit) ∧ (.ask ∉ is → ∃ o, parse {} args = .run o ∧ Means is o) := by
  constructor
  · intro ha
    rw [parse_reads h, if_pos ha]
  · intro ha
    refine ⟨is.foldl apply {}, by rw [parse_reads h, if_neg ha], ?_, ?_, ?_⟩
    · exact fold_getLast format? Opts.fmt (by intro o i; cases i <;> rfl) is {}
    · have := fold_getLast (fun i => (width? i).map Main.atoi) Opts.width (by intro o i; cases i <;> rfl) is {}
      rw [this]
      have e : is.filterMap (fun i => (width? i).map Main.atoi) = (is.filterMap width?).map Main.atoi := by
        rw [List.map_filterMap]
      rw [e, List.getLast?_map]
    · have := fold_getLast (fun i => (file? i).map some) Opts.file (by intro o i; cases i <;> rfl) is {}
      rw [this]
      have e : is.filterMap (fun i => (file? i).map some) = (is.filterMap file?).map some := by
        rw [List.map_filterMap]
      rw [e, List.getLast?_map]
      cases (is.filterMap file?).getLast? <;> rfl

/-- **The status**: 0 where a text about the program is asked for, 1 if the file cannot be opened; else the file is read, or the input if there is none. -/
theorem main_status {args : List Word} {is : List Item} (h : Reads args is) (d files : Word → Option Word) (stdin : Word) :
    (.ask ∈ is → main d files stdin args = .quits 0) ∧
    (.ask ∉ is → ∀ f, (is.filterMap file?).getLast? = some f → files f = none → main d files stdin args = .quits 1) ∧
    (.ask ∉ is → ∃ o, Means is o ∧ ∀ text, (match (is.filterMap file?).getLast? with | none => some stdin | some f => files f) = some text →
      main d files stdin args = match gloss d o text with
        | .error c => .crash c
        | .ok out => .prints out) := by
  obtain ⟨h1, h2⟩ := parse_means h
  refine ⟨fun ha => by rw [main, h1 ha], fun ha f hf hn => ?_, fun ha => ?_⟩
  · obtain ⟨o, ho, hm⟩ := h2 ha
    simp only [main, ho, hm.file, hf, hn]
  · obtain ⟨o, ho, hm⟩ := h2 ha
    refine ⟨o, hm, fun text ht => ?_⟩
    have hm' := hm.file
    unfold main
    simp only [ho]
    rw [hm']
    cases hf : (is.filterMap file?).getLast? with
    | none => simp only [hf] at ht ⊢; cases ht; rfl
    | some f => simp only [hf] at ht ⊢; rw [ht]; rfl

/-- A defect: after `-w` at the end of the command line `atoi` gets a null pointer, unless the program has ended before. -/
theorem width_missing {args : List Word} {is : List Item} (h : Reads args is) (ha : .ask ∉ is) (d files : Word → Option Word) (stdin : Word) :
    main d files stdin (args ++ ["-w".toList]) = .null := by
  have : ∀ {args : List Word} {is : List Item}, Reads args is → .ask ∉ is → ∀ o : Opts, parse o (args ++ ["-w".toList]) = .null := by
    intro args is h
    induction h with
    | nil => intro _ o; rfl
    | latex _ ih => intro ha o; rw [List.cons_append, parse_cons, if_pos rfl]; exact ih (fun e => ha (List.mem_cons_of_mem _ e)) _
    | blocks _ ih => intro ha o; rw [List.cons_append, parse_cons, if_neg (by decide), if_pos rfl]; exact ih (fun e => ha (List.mem_cons_of_mem _ e)) _
    | width _ ih =>
      intro ha o
      rw [List.cons_append, List.cons_append, parse_cons, if_neg (by decide), if_neg (by decide), if_pos rfl]
      exact ih (fun e => ha (List.mem_cons_of_mem _ e)) _
    | ask _ _ _ => intro ha; exact absurd (List.mem_cons_self ..) ha
    | @file a r is ha _ ih =>
      intro hk o
      have hn : ∀ x ∈ options, a ≠ x := fun x hx e => ha (e ▸ hx)
      rw [List.cons_append, parse_cons, if_neg (hn _ (by decide)), if_neg (hn _ (by decide)), if_neg (hn _ (by decide)), if_neg (hn _ (by decide)),
        if_neg (by rintro (h | h); · exact hn _ (by decide) h
                   exact hn _ (by decide) h)]
      exact ih (fun e => hk (List.mem_cons_of_mem _ e)) _
  rw [main, this h ha]

/-! ## Texts of words -/

theorem bare_body (w : Word) : body w = bare w := by
  unfold body skipDot bare
  split
  · rfl
  · rename_i h
    split
    · exact (h _ rfl).elim
    · rfl

theorem node_glossed {d : Word → Option Word} (hd : ∀ x, d x ≠ some []) {w : Word} {k : Kind} {n : Node} {e : Ev} (hk : Is w k)
    (hl : w.length ≤ 62) (hg : gather (k, w) = some n) (he : doNode d (fun w => some (CmTrans.translateUnknown d w)) n = .ok e) :
    Glossed d (CmTrans.translateUnknown d) w k e := by
  cases k with
  | brivla =>
    cases hg
    obtain ⟨h1, h2, _⟩ := other_words d (fun w => some (CmTrans.translateUnknown d w)) w
    obtain h | ⟨t, h⟩ := Option.eq_none_or_eq_some (d w)
    · rw [h2 _ h rfl] at he
      cases he
      exact .lujvo w h
    · rw [h1 t h] at he
      cases he
      exact .brivla w t h
  | cmavo =>
    cases hg
    obtain h | ⟨t, h⟩ := Option.eq_none_or_eq_some (d (body w))
    · obtain ⟨ps, qs, h1, h2, rfl⟩ := unknown_cmavo h hl hd he
      rw [bare_body] at h h1 h2
      exact .cluster w ps qs h h1 h2
    · unfold doNode at he
      dsimp only at he
      simp only [show d (skipDot w).2 = some t from h] at he
      split at he
      · cases he
      · cases he
        rw [show (skipDot w).2 = bare w from bare_body w]
        rw [bare_body] at h
        exact .cmavo w t h
  | cmene => cases hg; cases he; exact .cmene w
  | fallthru => cases hg
  | skip => exact hk.elim
  | newline => exact hk.elim
  | paren => exact hk.elim

/-- The words that are shown. -/
def words (xs : List (Word × Kind × Word)) : List (Word × Kind) := (xs.map fun x => (x.1, x.2.1)).filter (·.2 != .fallthru)

def wordNode (x : Word × Kind) : Option Node := gather (x.2, x.1)

theorem gather_some {w : Word} {k : Kind} (h : Is w k) (hk : k ≠ .fallthru) : ∃ n, gather (k, w) = some n := by
  cases k with
  | brivla => exact ⟨_, rfl⟩
  | cmavo => exact ⟨_, rfl⟩
  | cmene => exact ⟨_, rfl⟩
  | fallthru => exact absurd rfl hk
  | skip => exact h.elim
  | newline => exact ⟨_, rfl⟩
  | paren => exact ⟨_, rfl⟩

theorem nodes_words (xs : List (Word × Kind × Word)) :
    (xs.flatMap fun x => [(x.2.1, x.1), (.skip, x.2.2)]).filterMap gather = (words xs).filterMap wordNode := by
  induction xs with
  | nil => rfl
  | cons x xs ih =>
    obtain ⟨w, k, s⟩ := x
    rw [List.flatMap_cons, List.filterMap_append, ih]
    unfold words
    rw [List.map_cons, List.filter_cons]
    cases k <;> rfl

theorem scanned (xs : List (Word × Kind × Word)) (hx : ∀ x ∈ xs, Is x.1 x.2.1 ∧ Blank x.2.2) (d : Word → Option Word) (o : Opts) :
    gloss d o (xs.flatMap fun x => x.1 ++ x.2.2) = match doTrans d ((words xs).filterMap wordNode) with
      | .error c => .error c
      | .ok es => display o es := by
  rw [gloss, text_words xs hx _ (Nat.le_refl _), Option.getD_some, nodes_words]
  rfl

theorem words_mem {xs : List (Word × Kind × Word)} {y : Word × Kind} (h : y ∈ words xs) : y.2 ≠ .fallthru ∧ ∃ x ∈ xs, y = (x.1, x.2.1) := by
  unfold words at h
  obtain ⟨h1, h2⟩ := List.mem_filter.1 h
  obtain ⟨x, hx, e⟩ := List.mem_map.1 h1
  exact ⟨by simpa using h2, x, hx, e.symm⟩

theorem plain_inRow (e : Ev) : plain e = inRow e := by
  cases e <;> simp [plain, inRow]

theorem latex_table (e : Ev) : latex e = table e := by
  cases e with
  | newline => rfl
  | paren t => rfl
  | item w g c =>
    have e1 : "\\begin{tabular}[t]{l}\\textbf{\\footnotesize ".toList = "\\begin{tabular}[t]{l}".toList ++ ("\\" ++ "textbf" ++ "{\\footnotesize ").toList := by
      decide +kernel
    have e2 : "}\\\\\n\\textrm{\\footnotesize ".toList = ['}'] ++ "\\\\\n".toList ++ ("\\" ++ "textrm" ++ "{\\footnotesize ").toList := by decide +kernel
    have e3 : "}\\\\\n\\textit{\\footnotesize ".toList = ['}'] ++ "\\\\\n".toList ++ ("\\" ++ "textit" ++ "{\\footnotesize ").toList := by decide +kernel
    have e4 : "}\n\\end{tabular}\n\\rule{0in}{1.0\\baselineskip}".toList = ['}'] ++ "\n\\end{tabular}\n".toList ++ "\\rule{0in}{1.0\\baselineskip}".toList := by
      decide +kernel
    have ei : ∀ s a b c : Word, s.intercalate [a, b, c] = a ++ (s ++ (b ++ (s ++ (c ++ [])))) := fun _ _ _ _ => rfl
    unfold latex table cell
    simp only [e1, e2, e3, e4, ei, List.append_assoc, List.append_nil]

/-- What `display` prints is one of the displays. -/
theorem display_shown (o : Opts) (es : List Ev) (out : Word) (h : display o es = .ok out) : Shown o es out := by
  unfold display at h
  split at h
  · rename_i hf
    cases h
    rw [List.flatMap_def, show List.map plain es = List.map inRow es from List.map_congr_left fun e _ => plain_inRow e]
    exact .text hf
  · rename_i hf
    rw [← Except.ok.inj h, List.flatMap_def, show List.map latex es = List.map table es from List.map_congr_left fun e _ => latex_table e, List.append_assoc,
      show "\\end{document}\n".toList ++ "\n\n".toList = "\\end{document}\n\n\n".toList by decide +kernel]
    exact .latex preamble hf (by decide +kernel) (by decide +kernel)
  · rename_i hf
    obtain ⟨lss, h1, h2, h3⟩ := textBlocks_spec o.width es
    split at h
    · cases h
    · rename_i out' ho
      cases h
      rw [h3] at ho
      split at ho
      · cases ho
        exact .blocks lss hf (by rw [h1]; congr 1) h2
      · cases ho

/-- **What is printed for a text of words**: if the program does not crash, one entry for each word, in their order, as it is to be; in the format that is
asked for.  Words of letters that are none of the known kinds are left out. -/
theorem gloss_words (d : Word → Option Word) (hd : ∀ x, d x ≠ some []) (o : Opts) (xs : List (Word × Kind × Word))
    (hx : ∀ x ∈ xs, Is x.1 x.2.1 ∧ Blank x.2.2) (hl : ∀ x ∈ xs, x.1.length ≤ 62) (out : Word)
    (h : gloss d o (xs.flatMap fun x => x.1 ++ x.2.2) = .ok out) :
    ∃ es, Each (fun x e => Glossed d (CmTrans.translateUnknown d) x.1 x.2 e) (words xs) es ∧ Shown o es out := by
  rw [scanned xs hx] at h
  have hw : ∀ y ∈ words xs, Is y.1 y.2 ∧ y.2 ≠ .fallthru ∧ y.1.length ≤ 62 := by
    intro y hy
    obtain ⟨h1, x, hxm, rfl⟩ := words_mem hy
    exact ⟨(hx x hxm).1, h1, hl x hxm⟩
  split at h
  · cases h
  · rename_i es hes
    refine ⟨es, ?_, display_shown o es out h⟩
    clear h hx hl
    generalize words xs = ys at hw hes
    clear xs
    induction ys generalizing es with
    | nil => cases hes; exact .nil
    | cons y ys ih =>
      obtain ⟨h1, h2, h3⟩ := hw y (List.mem_cons_self ..)
      obtain ⟨n, hn⟩ := gather_some h1 h2
      rw [List.filterMap_cons, show wordNode y = some n from hn, doTrans] at hes
      split at hes
      · cases hes
      · rename_i e he
        split at hes
        · cases hes
        · rename_i es' hes'
          cases hes
          exact .cons (node_glossed hd h1 h3 hn he) (ih es' (fun z hz => hw z (List.mem_cons_of_mem _ hz)) hes')

/-- **The program does not crash** before the display if all cmavo are in the dictionary and none has more than 30 letters. -/
theorem words_known (d : Word → Option Word) (o : Opts) (xs : List (Word × Kind × Word)) (hx : ∀ x ∈ xs, Is x.1 x.2.1 ∧ Blank x.2.2)
    (hk : ∀ x ∈ xs, x.2.1 = .cmavo → (d (bare x.1)).isSome = true ∧ x.1.length ≤ 30) :
    ∃ es, gloss d o (xs.flatMap fun x => x.1 ++ x.2.2) = display o es := by
  rw [scanned xs hx]
  have hw : ∀ y ∈ words xs, Is y.1 y.2 ∧ y.2 ≠ .fallthru ∧ (y.2 = .cmavo → (d (bare y.1)).isSome = true ∧ y.1.length ≤ 30) := by
    intro y hy
    obtain ⟨h1, x, hxm, rfl⟩ := words_mem hy
    exact ⟨(hx x hxm).1, h1, hk x hxm⟩
  suffices h : ∃ es, doTrans d ((words xs).filterMap wordNode) = .ok es by
    obtain ⟨es, h⟩ := h
    exact ⟨es, by rw [h]⟩
  generalize words xs = ys at hw
  induction ys with
  | nil => exact ⟨[], rfl⟩
  | cons y ys ih =>
    obtain ⟨h1, h2, h3⟩ := hw y (List.mem_cons_self ..)
    obtain ⟨es, hes⟩ := ih (fun z hz => hw z (List.mem_cons_of_mem _ hz))
    obtain ⟨n, hn⟩ := gather_some h1 h2
    have : ∃ e, doNode d (fun w => some (CmTrans.translateUnknown d w)) n = .ok e := by
      obtain ⟨w, k⟩ := y
      cases k with
      | brivla => cases hn; exact ⟨_, rfl⟩
      | cmavo =>
        cases hn
        obtain ⟨h4, h5⟩ := h3 rfl
        obtain ⟨t, ht⟩ := Option.isSome_iff_exists.1 h4
        rw [← bare_body] at ht
        have hb : (body w).length ≤ 30 := by
          have : (body w).length ≤ w.length := by
            unfold body skipDot
            split <;> simp
          simp only at h5
          omega
        obtain ⟨m, hm⟩ := (known_cmavo d (fun w => some (CmTrans.translateUnknown d w)) w t ht).1 hb
        exact ⟨_, hm⟩
      | cmene => cases hn; exact ⟨_, rfl⟩
      | fallthru => cases hn
      | skip => exact h1.elim
      | newline => exact h1.elim
      | paren => exact h1.elim
    obtain ⟨e, he⟩ := this
    exact ⟨e :: es, by rw [List.filterMap_cons, show wordNode y = some n from hn, doTrans, he, hes]⟩

/-! ## Lujvo in a text -/

open Jbo.CmTrans.Spec (Part wordOf Lujvo diphthong conversion meant hyphened) in
/-- **A lujvo in the whole program**: without options, a lujvo that is not in the dictionary is printed with the glosses of its components. -/
theorem lujvo_printed (d files : Word → Option Word) (p : Part) (a b : List Part) (m : Word) (f : Char) (hl : Lujvo true (p :: a ++ b) (m ++ [f]))
    (hp : CmTrans.Proper (p :: a ++ b) (m ++ [f])) (hf : CmScan.Spec.vowel f) (hh : diphthong p.rafsi → p.tie = ['r'] ∨ p.tie = ['n'])
    (ha : ∀ q ∈ p :: a, conversion q.rafsi = none) (hb : ∀ q ∈ b, (conversion q.rafsi).isSome = true)
    (hd : d (wordOf (p :: a ++ b) (m ++ [f])) = none) :
    main d files (wordOf (p :: a ++ b) (m ++ [f]) ++ ['\n']) [] =
      .prints (wordOf (p :: a ++ b) (m ++ [f]) ++ " <BRIVLA> [".toList ++ hyphened (meant d 0 (p :: a ++ b) (m ++ [f])) ++ "] \n".toList) := by
  have hg := CmTrans.lujvo_meant_partial d (p :: a) b (m ++ [f]) hl ha hb (.inl nofun)
  have hu := CmTrans.lujvo_not_fuivla d _ _ hl hp
  rw [hg] at hu
  have hi := lujvo_found (p := p) (ps := a ++ b) hl hp hf hh
  rw [← List.cons_append] at hi
  generalize wordOf (p :: a ++ b) (m ++ [f]) = w at hd hu hi
  have hx : ∀ x ∈ [(w, Kind.brivla, ['\n'])], Is x.1 x.2.1 ∧ Blank x.2.2 := fun x hx => by
    rw [List.mem_singleton.1 hx]
    exact ⟨hi, .inr rfl⟩
  have := scanned [(w, .brivla, ['\n'])] hx d {}
  rw [List.flatMap_singleton] at this
  simp only [main, parse, this]
  have hn : (words [(w, Kind.brivla, ['\n'])]).filterMap wordNode = [.brivla w] := rfl
  rw [hn]
  simp only [doTrans, doNode, hd, hu, display, List.flatMap_singleton, plain, Outcome.prints.injEq]
  simp [List.append_assoc]

/-! ## Brackets -/

/-- **A defect**: the brackets of a text in brackets are shown in brackets themselves.  The scanner hands over the brackets and what is between them one by
one, and each gets a pair of brackets of its own. -/
theorem brackets_doubled (d files : Word → Option Word) (a b : Char) (u : Word) (ha : a ∈ ['(', '[']) (hb : b ∈ [')', ']']) (hn : u ≠ [])
    (hu : ∀ c ∈ u, c ∉ ['(', '[', ')', ']']) :
    main d files (a :: u ++ [b]) [] = .prints ('(' :: a :: ") (".toList ++ u ++ ") (".toList ++ b :: ") \n".toList) := by
  have hb' : ∀ c, [b].head? = some c → bracket c = true := by
    intro c hc
    cases hc
    rcases List.mem_cons.1 hb with rfl | hb
    · decide
    · rw [List.mem_singleton.1 hb]; decide
  have hu' : ∀ c ∈ u, bracket c = false := fun c hc => Bool.eq_false_iff.2 fun e => hu c hc ((bracket_iff c).1 e)
  have hs : scan (a :: u ++ [b]).length 0 (a :: u ++ [b]) = some [(.paren, [a]), (.paren, u), (.paren, [b])] := by
    obtain ⟨n, e⟩ : ∃ n, (a :: u ++ [b]).length = n + 1 + 1 + 1 := by
      match u, hn with
      | x :: u, _ => exact ⟨u.length, by simp⟩
    rw [e, List.cons_append, scan_enter ha, scan_run (by decide) hn hu' hb', scan_out (by decide) hb]
    cases n <;> rfl
  simp only [main, parse, gloss, hs]
  simp [gather, doTrans, doNode, display, plain]

/-! ## Cases -/

/-- The order of the arguments. -/
example : Reads ["-l".toList, "f".toList, "-w".toList, "60".toList, "-b".toList] [.format .latex, .file "f".toList, .width "60".toList, .format .textblk] :=
  .latex (.file (by decide) (.width (.blocks .nil)))
example : parse {} ["-l".toList, "f".toList, "-w".toList, "60".toList, "-b".toList] = .run ⟨.textblk, 60, some "f".toList⟩ := by decide +kernel

/-- A small dictionary. -/
def tiny (w : Word) : Option Word :=
  ([("mi", "I, we"), ("+mi", "KOhA3"), ("klama", "go"), ("le", "the"), ("+le", "LE"), ("ka", "quality"), ("+ka", "NU"), ("%bar", "out")].find? (·.1.toList == w)).map
    (·.2.toList)

/-- A text of known and unknown words. -/
example : main tiny (fun _ => none) "mi klama\n.i leka  ".toList [] =
    .prints "mi <KOhA3> [I, we] klama <BRIVLA> [go] .i <?> [?] leka <LE NU> [the quality] \n".toList := by decide +kernel
example : main tiny (fun _ => none) "baryklama\n".toList [] = .prints "baryklama <BRIVLA> [out-go] \n".toList := by decide +kernel
example : main tiny (fun _ => none) "(xy)".toList [] = .prints "(() (xy) ()) \n".toList := by decide +kernel
example : main tiny (fun _ => none) [] ["f".toList] = .quits 1 := by decide +kernel

/-- The hypotheses of `gloss_words` and `words_known` hold of a text. -/
example : ∀ x ∈ [("mi".toList, Kind.cmavo, " ".toList), ("klama".toList, .brivla, "\n".toList)], (Is x.1 x.2.1 ∧ Blank x.2.2) ∧ x.1.length ≤ 62 ∧
    (x.2.1 = .cmavo → (tiny (bare x.1)).isSome = true ∧ x.1.length ≤ 30) := by
  simp only [List.mem_cons, List.not_mem_nil, or_false, forall_eq_or_imp, forall_eq]
  exact ⟨⟨⟨is_mi, .inl ⟨by decide, by decide⟩⟩, by decide, fun _ => by decide +kernel⟩, ⟨gismu_found (by decide), .inr rfl⟩, by decide, nofun⟩

end Jbo.CmMain
