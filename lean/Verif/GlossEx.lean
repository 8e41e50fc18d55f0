import Verif.GlossSafe
import Verif.TransTermThm
import Verif.RefsEnd
/-!
# Glosses: clusters, labels, defects, examples
-/

namespace Jbo.Gloss
open Jbo.Gloss.Spec
open Jbo.Trans (ofList)

/-! ## Clusters and tenses -/

/-- What a word adds to the headword of a cluster. -/
def part (bu : Nat → Option Word) : Terms.Node → Word
  | .cmavo _ s w => if s ∈ [.UI, .BAhE, .DAhO, .Y, .FUhO] then [] else w.toList
  | .leaf i => (bu i).getD []
  | _ => []

theorem skipped_iff (s : Terms.Sel) : skipped s = true ↔ s ∈ ([.UI, .BAhE, .DAhO, .Y, .FUhO] : List Terms.Sel) := by cases s <;> decide

mutual
theorem cmavoText_words (bu : Nat → Option Word) : ∀ x : Terms.Node, cmavoText bu x = (Output.Spec.words x).flatMap (part bu)
  | .nt _ _ cs => by rw [cmavoText, Output.Spec.words, cmavoTexts_words]
  | .cmavo i s w => by
    show (if skipped s = true then [] else w.toList) = (if s ∈ [.UI, .BAhE, .DAhO, .Y, .FUhO] then [] else w.toList) ++ []
    rw [List.append_nil]
    by_cases h : skipped s = true
    · rw [if_pos h, if_pos ((skipped_iff s).1 h)]
    · rw [if_neg h, if_neg (fun e => h ((skipped_iff s).2 e))]
  | .leaf i => (List.append_nil _).symm
  | .brivla _ => rfl
  | .zei _ => rfl
theorem cmavoTexts_words (bu : Nat → Option Word) : ∀ cs : List Terms.Node, cmavoTexts bu cs = (Output.Spec.wordss cs).flatMap (part bu)
  | [] => rfl
  | c :: cs => by rw [cmavoTexts, Output.Spec.wordss, List.flatMap_append, cmavoText_words, cmavoTexts_words]
end

/-- **Clusters.**  Tenses, connectives and numbers with `moi` that are looked up as one: the headword is made of the words of the cluster in order,
without indicators, first with the place in the sentence and then as such. -/
theorem cluster_gloss (d : Dict) (p : Props) (bu : Nat → Option Word) (x : Terms.Node) (r : Option Word) (h : cluster d p bu x = .ok r) :
    r = firstOf d.look ((p.tense.map fun c => (Output.Spec.words x).flatMap (part bu) ++ '@' :: (place c).toList).toList ++
      [(Output.Spec.words x).flatMap (part bu)]) := by
  rw [← cmavoText_words]
  obtain ⟨w, h1, h⟩ := bind_ok.1 h
  rw [← (put_ok h1).1]
  have fin : ∀ t : Option Word, (match t with | some t => (do return some (← put 65536 t)) | none => return none : M (Option Word)) = .ok r → r = t := by
    intro t ht
    cases t with
    | none => cases ht; rfl
    | some t =>
      obtain ⟨u, h2, ht⟩ := bind_ok.1 ht
      cases ht
      rw [(put_ok h2).1]
  rw [fin _ h]
  cases hp : p.tense with
  | none =>
    show _ = firstOf d.look [w]
    rw [firstOf_one]
    simp only [List.append_nil]
    cases d.look w <;> rfl
  | some c =>
    show _ = firstOf d.look [w ++ '@' :: (place c).toList, w]
    rw [firstOf, List.findSome?_cons, ← suffix_eq]
    show (match d.look (w ++ ctxSuffix c) with | some t => some t | none => d.look w) = _
    cases d.look (w ++ ctxSuffix c) with
    | some t => rfl
    | none =>
      show d.look w = firstOf d.look [w]
      rw [firstOf_one]

/-- A word with its gloss, or a question mark. -/
def asked (d : Dict) (w : Word) : Word := (d.look w).getD ['?']

/-- **Tenses such as `puzi`.**  The words are looked up together, in their place and as such; if that fails, one at a time. -/
theorem time_offset_gloss (d : Dict) (p : Props) (pu : Word) (nai zi : Option Word) (c : Tenses.Ctx) (hc : p.tense = some c) (l e : Word)
    (h : timeOffset d p pu nai zi = .ok (l, e)) :
    l = pu ++ nai.toList.flatten ++ zi.toList.flatten ∧
      e = (firstOf d.look [l ++ '@' :: (place c).toList, l]).getD (List.intercalate [' '] ((pu :: (nai.toList ++ zi.toList)).map (asked d))) := by
  obtain ⟨loj, h1, h⟩ := bind_ok.1 h
  rw [hc] at h
  obtain ⟨r, h2, h⟩ := bind_ok.1 h
  have h2 := inContext_ok h2
  have h1 := (put_ok h1).1
  have hl : loj = pu ++ nai.toList.flatten ++ zi.toList.flatten := by
    rw [h1]
    cases nai <;> cases zi <;> simp
  cases r with
  | some t =>
    obtain ⟨u, h3, h⟩ := bind_ok.1 h
    cases h
    refine ⟨hl, ?_⟩
    rw [← h2]
    exact (put_ok h3).1
  | none =>
    obtain ⟨u, h3, h⟩ := bind_ok.1 h
    cases h
    refine ⟨hl, ?_⟩
    rw [← h2, (put_ok h3).1]
    cases nai <;> cases zi <;> simp [List.intercalate, asked, orAsk]

/-! ## Labels -/

theorem format_plain (n : Nat) (u : Bool) : ∀ t : Word, '%' ∉ t → format n u t = .ok t
  | [], _ => by rw [format]
  | c :: t, h => by
    have hc : c ≠ '%' := fun e => h (by rw [e]; exact List.mem_cons_self ..)
    rw [format, format_plain n u t (fun e => h (List.mem_cons_of_mem _ e))]
    · rfl
    all_goals
      intros
      simp_all

theorem format_after (n : Nat) (u : Bool) (b : Word) : ∀ a : Word, '%' ∉ a → format n u (a ++ b) = (do return a ++ (← format n u b))
  | [], _ => by
    show format n u b = (format n u b >>= fun x => pure ([] ++ x))
    cases format n u b <;> rfl
  | c :: t, h => by
    have hc : c ≠ '%' := fun e => h (by rw [e]; exact List.mem_cons_self ..)
    rw [List.cons_append, format, format_after n u b t (fun e => h (List.mem_cons_of_mem _ e))]
    · cases format n u b <;> rfl
    all_goals
      intros
      simp_all

/-- **The number in the gloss of a label** stands where the entry of the dictionary has `%d`. -/
theorem format_number (n : Nat) (a b : Word) (ha : '%' ∉ a) (hb : '%' ∉ b) : format n false (a ++ ['%', 'd'] ++ b) = .ok (a ++ (toString n).toList ++ b) := by
  rw [List.append_assoc, format_after n false _ a ha]
  show (format n false ('%' :: 'd' :: b) >>= _) = _
  rw [format, format_plain n true b hb]
  show Except.ok (a ++ (num n ++ b)) = _
  rw [List.append_assoc]
  rfl

/-- **A defect** (`output.c:906`, `923`).  The entry of the dictionary is used as the format of `sprintf`: a percent sign with another character after it, or a
second `%d`, makes it read an argument that is not there. -/
theorem format_undefined (n : Nat) (a b : Word) (c : Char) (ha : '%' ∉ a) (h1 : c ≠ '%') (h2 : c ≠ 'd') (u : Bool) :
    format n u (a ++ '%' :: c :: b) = .error .outOfBounds := by
  rw [format_after n u _ a ha]
  cases u
  · rw [format]
    · rfl
    · intro r e; cases e; exact h1 rfl
    · intro r _ e; cases e; exact h2 rfl
  · rw [format]
    · rfl
    · intro r e; cases e; exact h1 rfl
    · intro r e; cases e

theorem format_twice (n : Nat) (a b c : Word) (ha : '%' ∉ a) (hb : '%' ∉ b) :
    format n false (a ++ ['%', 'd'] ++ b ++ '%' :: 'd' :: c) = .error .outOfBounds := by
  rw [List.append_assoc, List.append_assoc, format_after n false _ a ha]
  show (format n false ('%' :: 'd' :: (b ++ '%' :: 'd' :: c)) >>= _) = _
  rw [format, format_after n true _ b hb]
  have : format n true ('%' :: 'd' :: c) = .error .outOfBounds := by
    rw [format]
    · intro r e; cases e
    · intro r e; cases e
  rw [this]
  rfl

/-- **Labels of `me` and of words in MOI**: the number of the bracket of the sumti or of the number, and the place. -/
theorem label_me (d : Dict) (pos n : Nat) (a b : Word) (h : d.adv "me".toList pos .tag = .ok (a ++ ['%', 'd'] ++ b)) (ha : '%' ∉ a) (hb : '%' ∉ b) (r : Word × Word × Word)
    (hr : labelText d pos (.me n) = .ok r) : r = ("me".toList, (toString pos).toList ++ ['.', '.'], a ++ (toString n).toList ++ b) := by
  rw [labelText, h] at hr
  rw [ok_bind, format_number n a b ha hb, ok_bind] at hr
  obtain ⟨u, h1, hr⟩ := bind_ok.1 hr
  obtain ⟨v, h2, hr⟩ := bind_ok.1 hr
  cases hr
  rw [(put_ok h1).1, (put_ok h2).1]
  rfl

theorem label_moi (d : Dict) (pos n : Nat) (m a b : Word) (h : d.adv m pos .tag = .ok (a ++ ['%', 'd'] ++ b)) (ha : '%' ∉ a) (hb : '%' ∉ b) (r : Word × Word × Word)
    (hr : labelText d pos (.numberMoi n m) = .ok r) :
    r = (['#'] ++ (toString n).toList ++ ['-'] ++ m ++ (toString pos).toList, [], a ++ (toString n).toList ++ b) := by
  rw [labelText, h] at hr
  rw [ok_bind, format_number n a b ha hb, ok_bind] at hr
  obtain ⟨u, h1, hr⟩ := bind_ok.1 hr
  obtain ⟨v, h2, hr⟩ := bind_ok.1 hr
  cases hr
  rw [(put_ok h1).1, (put_ok h2).1]
  rfl

/-- **Other labels**: word and place with the gloss of the place as a tag; for a word in GOhA, for `nu'a` and for a compound the place only, with the number of the
bracket. -/
theorem label_other (d : Dict) (pos : Nat) (h : Head) (r : Word × Word × Word) (hr : labelText d pos h = .ok r) :
    match h with
    | .brivla w | .abstraction w => ∃ t, d.adv w pos .tag = .ok t ∧ r = (w, (toString pos).toList, t)
    | .goha w => r = (w ++ (toString pos).toList, [], [])
    | .nuha n => r = (['#'] ++ (toString n).toList ++ ['-'] ++ (toString pos).toList, [], [])
    | .zei n plus => ∃ t, d.adv plus pos .tag = .ok t ∧ r = (['#'] ++ (toString n).toList ++ ['-'] ++ (toString pos).toList, [], t)
    | _ => True := by
  cases h with
  | brivla w | abstraction w =>
    obtain ⟨t, h1, hr⟩ := bind_ok.1 hr
    obtain ⟨u, h2, hr⟩ := bind_ok.1 hr
    cases hr
    exact ⟨t, h1, by rw [(put_ok h2).1]; rfl⟩
  | goha w =>
    obtain ⟨u, h2, hr⟩ := bind_ok.1 hr
    cases hr
    have e := (put_ok h2).1
    subst e
    rfl
  | nuha n =>
    obtain ⟨u, h2, hr⟩ := bind_ok.1 hr
    cases hr
    have e := (put_ok h2).1
    subst e
    rfl
  | zei n plus =>
    obtain ⟨u, h2, hr⟩ := bind_ok.1 hr
    obtain ⟨t, h1, hr⟩ := bind_ok.1 hr
    cases hr
    exact ⟨t, h1, by rw [(put_ok h2).1]; rfl⟩
  | me _ => trivial
  | numberMoi _ _ => trivial

/-! ## Defects -/

/-- **A defect** (`output.c:373-401`).  A degree without an entry in the dictionary is copied from a null pointer.  The files of the dictionary
have no entry `peinai`: `ui pei nai` ends the program. -/
theorem degree_missing (d : Dict) (p : Props) (s : Terms.Sel) (w : Word) (hs : s = .UI ∨ s = .CAI) (hw : w.length < 1024) {c : Lex2.Cai}
    (hc : p.cai = some c) (hd : d.look (degreeWord c) = none) : wordGloss d p (.cmavo s w false) = .error .nullDeref := by
  have h : translateIndicator d p w = .error .nullDeref := by
    unfold translateIndicator caiGloss
    rw [hc]
    simp only [caiText_eq, hd]
    rfl
  have hu : (if (false : Bool) = true then upper w else w) = w := if_neg (by decide)
  rw [wordGloss, hu, put_fits hw]
  rcases hs with rfl | rfl <;> exact h

/-- The tokens of `.ui pei nai`, and what `pair_off_indicator_suffixes` makes of them. -/
theorem uipeinai : Lex2.pairOff [⟨.cmavo .UI "ui".toList, [], false, none⟩, ⟨.cmavo .CAI "pei".toList, [], false, none⟩,
      ⟨.cmavo .NAI "nai".toList, [], false, none⟩] = .ok [⟨.cmavo .UI "ui".toList, [], false, some .PEINAI⟩] ∧
    degreeWord .PEINAI = "peinai".toList := by
  refine ⟨?_, by decide⟩
  simp [Lex2.pairOff, Lex2.takeNai, Lex2.takeCai, Lex2.isIndicator, Tok.isSel, Lex2.caiCode, Lex2.Cai.withNai]

/-- **A defect** (`lex2.c:763-807`, `output.c:728-767`).  `nai` is not shown after `cu'i` that belongs to an indicator, nor after `da'o`. -/
theorem nai_lost :
    (∃ out, Lex2.pairOff [⟨.cmavo .UI "ui".toList, [], false, none⟩, ⟨.cmavo .CAI "cu'i".toList, [], false, none⟩,
      ⟨.cmavo .NAI "nai".toList, [], false, none⟩] = .ok out ∧ out.flatMap leafShown = "ui cu'i".toList) ∧
    (∃ out, Lex2.pairOff [⟨.cmavo .DAhO "da'o".toList, [], false, none⟩, ⟨.cmavo .NAI "nai".toList, [], false, none⟩] = .ok out ∧
      out.flatMap leafShown = "da'o".toList) := by
  refine ⟨⟨[⟨.cmavo .UI "ui".toList, [], false, some .CUhI⟩], ?_, by decide⟩, ⟨[⟨.cmavo .DAhO "da'o".toList, [], true, none⟩], ?_, by decide⟩⟩
  · simp [Lex2.pairOff, Lex2.takeNai, Lex2.takeCai, Lex2.isIndicator, Tok.isSel, Lex2.caiCode, Lex2.Cai.withNai]
  · simp [Lex2.pairOff, Lex2.takeNai, Lex2.takeCai, Lex2.isIndicator, Tok.isSel]

/-- **A defect** (`output.c:769`).  A quotation with `zoi` is written into 1024 bytes, whatever its length. -/
theorem zoi_fits (d : Dict) (p : Props) (f t u : Word) : (∃ r, wordGloss d p (.zoi f t u) = .ok r) ↔
    f.length + 2 * t.length + u.length + 3 < 1024 ∧ ∀ g, d.look u = some g → g.length < 1024 := by
  have hlen : (f ++ " ".toList ++ t ++ " ".toList ++ u ++ " ".toList ++ t).length = f.length + 2 * t.length + u.length + 3 := by
    simp
    omega
  constructor
  · rintro ⟨r, h⟩
    obtain ⟨loj, h1, h⟩ := bind_ok.1 h
    refine ⟨by have := (put_ok h1).2; omega, fun g hg => ?_⟩
    obtain ⟨e, h2, h⟩ := bind_ok.1 h
    unfold attempt at h2
    rw [hg] at h2
    exact (put_ok h2).2
  · rintro ⟨h1, h2⟩
    rw [wordGloss, put_fits (by omega)]
    refine pair_ok _ ?_
    unfold attempt
    split
    · rename_i g hg
      exact ⟨g, put_fits (h2 g hg)⟩
    · exact ⟨_, rfl⟩

/-- The same for `lo'u`. -/
theorem lohu_overflow (d : Dict) (p : Props) (u : Word) (h : 1014 ≤ u.length) : wordGloss d p (.lohu u) = .error .overflow := by
  rw [wordGloss, put_over (by simp; omega)]
  rfl

/-- An entry of 1024 bytes or more is written over the end of `eng`. -/
theorem entry_overflow (d : Dict) (p : Props) (s : Terms.Sel) (w t : Word) (hs : kind s = .plain) (hw : w.length < 1024) (ht : d.look w = some t) (hl : 1024 ≤ t.length) :
    wordGloss d p (.cmavo s w false) = .error .overflow := by
  have h : translateOther d w = .error .overflow := by
    unfold translateOther
    rw [ht]
    exact put_over hl
  have hu : (if (false : Bool) = true then upper w else w) = w := if_neg (by decide)
  rw [wordGloss, hu, put_fits hw, ok_bind]
  cases s <;> first
    | (exact absurd hs (by decide))
    | (show (translateOther d w >>= _) = _; rw [h]; rfl)

/-- A number of 512 times `pa` before `moi` is written over the end of the static buffer (`output.c:339`). -/
theorem number_overflow (d : Dict) (p : Props) (bu : Nat → Option Word) (i j : Nat) (k : Nat) (hk : 512 ≤ k) :
    cluster d p bu (.nt i .numberMoiTu2 (List.replicate k (.cmavo j .PA "pa"))) = .error .overflow := by
  have h : ∀ k, (cmavoTexts bu (List.replicate k (.cmavo j .PA "pa"))).length = 2 * k := by
    intro k
    induction k with
    | zero => rfl
    | succ k ih =>
      rw [List.replicate_succ, cmavoTexts, List.length_append, ih, cmavoText]
      show 2 + 2 * k = 2 * (k + 1)
      omega
  unfold cluster clusterText
  rw [cmavoText, put_over (by rw [h]; omega)]
  rfl

/-- **A defect** (`output.c:203-226`).  A word in BAI after `jai` without an entry of its own for that place is marked as if a conversion was not known. -/
theorem jai_bai (d : Dict) (w t : Word) (hw : w.length ≤ 1000) (h1 : d.look (w ++ "@JAI".toList) = none) (h2 : d.look w = some t) (ht : t.length ≤ 500) :
    wordGloss d { tense := some .jaitag } (.cmavo .BAI w false) = .ok (w, t ++ " (CONV?)".toList) := by
  have hu : (if (false : Bool) = true then upper w else w) = w := if_neg (by decide)
  rw [wordGloss, hu, put_fits (by omega), ok_bind]
  have h : translateBai d { tense := some .jaitag } w = .ok (t ++ " (CONV?)".toList) := by
    unfold translateBai baiPrefix
    show (put 1024 (w ++ "@JAI".toList) >>= _) = _
    have : "@JAI".toList.length = 4 := by decide
    rw [put_fits (by rw [List.length_append]; omega), ok_bind, h1, h2]
    have : " (CONV?)".toList.length = 8 := by decide
    exact put_fits (by rw [List.length_append]; omega)
  show (translateBai d { tense := some .jaitag } w >>= _) = _
  rw [h]
  rfl

/-- **A defect** (`output.c:575`).  Without a context the gloss that is found for a tense is not used. -/
theorem offset_dropped (d : Dict) (p : Props) (pu : Word) (nai zi : Option Word) (hp : p.tense = none) (l e : Word) (h : timeOffset d p pu nai zi = .ok (l, e)) : e = [] := by
  obtain ⟨loj, _, h⟩ := bind_ok.1 h
  rw [hp] at h
  cases h
  rfl

/-! ## Examples -/

/-- Some entries like those of `extradict`. -/
def small : Dict := .of (ofList [("pu", "before"), ("pu@SELBRI", "[past]"), ("ui", "happiness"), ("uinai", "unhappiness"), ("cai", "intense"), ("bau", "in language"),
  ("sebau", "of expression"), ("ke'a", "(relativized item)"), ("klama1", "S;go"), ("klama2", "P;destination"), ("me1", "S;referent of #%d"), ("puzi", "just now"),
  ("moi1", "P;#%dth"), ("jai_v", "[conv]")]) (fun _ => .hopeless) 5

example : wordGloss small { tense := some .selbri } (.cmavo .PU "pu".toList false) = .ok ("pu".toList, "[past]".toList) ∧
    wordGloss small { tense := some .term } (.cmavo .PU "pu".toList false) = .ok ("pu".toList, "before".toList) ∧
    wordGloss small { role := some (true, true) } (.cmavo .JAI "jai".toList false) = .ok ("jai".toList, "[conv]".toList) ∧
    wordGloss small {} (.cmavo .KU "ku".toList true) = .ok ("KU".toList, []) := by decide +kernel

example : wordGloss small { nai := true, cai := some .CAI } (.cmavo .UI "ui".toList false) = .ok ("uinai cai".toList, "{intense unhappiness..}".toList) ∧
    wordGloss small { bai := some 2 } (.cmavo .BAI "bau".toList false) = .ok ("bau".toList, "of expression".toList) ∧
    wordGloss small { keha := some 12 } (.cmavo .KOhA "ke'a".toList false) = .ok ("ke'a".toList, "(relativized item) #12".toList) := by decide +kernel

example : wordGloss small { role := some (true, true), conv := some 2 } (.brivla "klama".toList) = .ok ("klama".toList, "being destination".toList) ∧
    shown (.cmavo .UI "ui".toList false) "uinai cai".toList = .ok ".uinai cai".toList ∧
    shown (.cmene "djan".toList) "djan".toList = .ok "djan.".toList ∧
    wordGloss small {} (.zo "ui".toList) = .ok ("zo ui".toList, "\"happiness\"".toList) := by decide +kernel

example : timeOffset small { tense := some .term } "pu".toList none (some "zi".toList) = .ok ("puzi".toList, "just now".toList) ∧
    timeOffset small { tense := some .term } "pu".toList (some "nai".toList) (some "zi".toList) = .ok ("punaizi".toList, "before ? ?".toList) := by decide +kernel

example : format 7 false "referent of #%d".toList = .ok "referent of #7".toList ∧ format 7 false "100% sure".toList = .error .outOfBounds := by decide +kernel

example : labelText small 1 (.me 3) = .ok ("me".toList, "1..".toList, "referent of #3".toList) ∧
    labelText small 1 (.numberMoi 3 "moi".toList) = .ok ("#3-moi1".toList, [], "#3th thing(s)".toList) := by decide +kernel

/-- The words and glosses of `get_lojban_word_and_translation` in the place of those of `env`. -/
def fill (env : Output.Env) (d : Dict) (item : Terms.Node → Item) (props : Nat → Props) : Output.Env :=
  { env with word := fun x => match wordGloss d (props x.id) (item x) with
      | .ok (a, b) => (String.ofList a, String.ofList b)
      | .error _ => ("", "") }

/-- The items of a text of cmavo. -/
def cmavoItem : Terms.Node → Item
  | .cmavo _ s w => .cmavo s w.toList false
  | _ => .brivla []

def blank : Output.Env := ⟨fun _ => ("", ""), fun _ => false, fun _ => (.none, 0), fun _ => [], fun _ => none, fun _ _ => none, fun _ => "", fun _ => none⟩

/-- *mi pamoi do* meets the hypotheses of `display_spelled`. -/
example : Real (fill blank small cmavoItem fun _ => {}) small cmavoItem (fun _ => {}) Output.moiText ∧ Gram.Parse .chunks Output.moiText ∧
    ((Output.output (fill blank small cmavoItem fun _ => {}) 90 .both Output.moiText).toOption.map fun out =>
      (out.filterMap Output.Spec.seen).filterMap Output.Spec.Piece.text?) = some ["mi", "pa", "moi", "do"] := by
  refine ⟨⟨fun x hx => ?_, fun x hx => ?_, fun x hx => ?_⟩, Gram.parse_of (by decide +kernel), by decide +kernel⟩
  · have : ∀ x ∈ Output.Spec.words Output.moiText, (wordGloss small {} (cmavoItem x)).toOption.isSome = true := by decide +kernel
    have := this x hx
    cases h : wordGloss small {} (cmavoItem x) with
    | error e => rw [h] at this; cases this
    | ok r => exact ⟨r.1, r.2, rfl, by show (match wordGloss small {} (cmavoItem x) with | .ok (a, b) => _ | .error _ => _) = _; rw [h]⟩
  · have : ∀ x ∈ Output.Spec.words Output.moiText, Output.Spec.compound x = false := by decide +kernel
    refine ⟨fun e => (by rw [this x hx] at e; cases e), ?_⟩
    rintro ⟨a, b, c, e⟩
    cases x <;> cases e
  · refine ⟨fun e => (by cases e), ?_⟩
    rintro ⟨w, e⟩
    cases x <;> cases e

/-- The hypotheses of `indicators_shown_partial` hold of *.ui nai cai nai*. -/
example : ∃ out, Lex2.pairOff [⟨.cmavo .UI "ui".toList, [], false, none⟩, ⟨.cmavo .NAI "nai".toList, [], false, none⟩,
      ⟨.cmavo .CAI "cai".toList, [], false, none⟩, ⟨.cmavo .NAI "nai".toList, [], false, none⟩] = .ok out ∧
    out.flatMap leafShown = "uinai cainai".toList := by
  refine ⟨[⟨.cmavo .UI "ui".toList, [], true, some .CAINAI⟩], ?_, by decide⟩
  simp [Lex2.pairOff, Lex2.takeNai, Lex2.takeCai, Lex2.isIndicator, Tok.isSel, Lex2.caiCode, Lex2.Cai.withNai]

/-- `word_fits_partial` for *.uinai cai* with these entries. -/
example : (∀ c, ({ nai := true, cai := some .CAI } : Props).cai = some c → (small.look (degreeWord c)).isSome = true) ∧
    (spelled { nai := true, cai := some .CAI } (.cmavo .UI "ui".toList false)).length = 9 := by
  refine ⟨fun c h => ?_, by decide⟩
  cases h
  decide +kernel

end Jbo.Gloss
