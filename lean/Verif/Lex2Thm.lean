import Verif.Lex2
import Verif.Lex2Spec

/-! # Theorems about quotation, compounding, emphasis, letters and indicators (C09 - C13) -/

namespace Jbo.Lex2
open Jbo Lex2Spec

/-! ## C09: zo -/

/-- A text without zo is unchanged. -/
theorem zo_free (ts : List Tok) (h : ∀ t ∈ ts, t.isSel .ZO = false) : handleZo ts = .ok ts := by
  induction ts with
  | nil => rfl
  | cons x rest ih =>
    have hx := h x (by simp)
    have := ih (fun t ht => h t (by simp [ht]))
    cases rest with
    | nil => simp [handleZo, hx]
    | cons y r => simp [handleZo, hx, this, Except.map]

theorem zo_skip (pre ts : List Tok) (h : ∀ t ∈ pre, t.isSel .ZO = false) :
    handleZo (pre ++ ts) = (handleZo ts).map (pre ++ ·) := by
  induction pre with
  | nil => cases h : handleZo ts <;> simp [Except.map, h]
  | cons x rest ih =>
    have hx := h x (by simp)
    have := ih (fun t ht => h t (by simp [ht]))
    rw [List.cons_append]
    generalize hg : rest ++ ts = g at *
    cases g with
    | nil =>
      obtain ⟨rfl, rfl⟩ := List.append_eq_nil_iff.1 hg
      simp [handleZo, hx, Except.map]
    | cons y r =>
      simp only [handleZo, hx]
      rw [this]
      cases handleZo ts <;> simp [Except.map]

/-- The first zo quotes exactly the next word, whatever its selma'o (zo, si, bu, zei, lo'u ...);
processing resumes after it. -/
theorem zo_quotes_next (pre post : List Tok) (z q : Tok) (w : Word)
    (hpre : ∀ t ∈ pre, t.isSel .ZO = false) (hz : z.isSel .ZO = true) (hq : wordOf q = some w) :
    handleZo (pre ++ z :: q :: post) = (handleZo post).map (fun r => pre ++ .zo w :: r) := by
  have hq' : zoText q = some w := by cases q <;> simp_all [wordOf, zoText]
  rw [zo_skip _ _ hpre]
  simp only [handleZo, hz, hq', if_true]
  cases handleZo post <;> rfl

/-- zo before a delimited quotation quotes the quoted text. -/
theorem zo_quotes_zoi (pre post : List Tok) (z : Tok) (f g t : Word)
    (hpre : ∀ t ∈ pre, t.isSel .ZO = false) (hz : z.isSel .ZO = true) :
    handleZo (pre ++ z :: .zoi f g t :: post) = (handleZo post).map (fun r => pre ++ .zo t :: r) := by
  rw [zo_skip _ _ hpre]
  simp only [handleZo, hz, zoText, if_true]
  cases handleZo post <;> rfl

/-- A zo that ends the text is reported (the program exits with a message). -/
theorem zo_final_reported (pre : List Tok) (z : Tok)
    (hpre : ∀ t ∈ pre, t.isSel .ZO = false) (hz : z.isSel .ZO = true) :
    handleZo (pre ++ [z]) = .error .exit1 := by
  rw [zo_skip _ _ hpre]; simp [handleZo, hz, Except.map]

/-- Un-quoting: reading `.zo w` as the two words zo and w. -/
def unzo (t : Tok) : List Word :=
  match t with
  | .zo w => ["zo".toList, w]
  | t => match wordOf t with | some w => [w] | none => []

/-- On a text of plain words no word is lost, added or reordered by zo quotation. -/
theorem zo_conserves (ts out : List Tok) (hw : ∀ t ∈ ts, (wordOf t).isSome)
    (hz : ∀ t ∈ ts, t.isSel .ZO = true → wordOf t = some "zo".toList)
    (h : handleZo ts = .ok out) : out.flatMap unzo = ts.filterMap wordOf := by
  induction ts using handleZo.induct generalizing out with
  | case1 => simp [handleZo] at h; subst h; rfl
  | case2 x hx => simp [handleZo, hx] at h
  | case3 x hx =>
    simp [handleZo, hx] at h; subst h
    have := hw x (by simp)
    cases x <;> simp_all [unzo, wordOf]
  | case4 x y rest hx hy => simp [handleZo, hx, hy] at h
  | case5 x y rest hx t hy ih =>
    simp only [handleZo, hx, hy, if_true] at h
    cases hr : handleZo rest with
    | error e => simp [hr, Except.map] at h
    | ok r =>
      simp [hr, Except.map] at h; subst h
      have := ih r (fun t ht => hw t (by simp [ht])) (fun t ht => hz t (by simp [ht])) hr
      have h1 := hz x (by simp) hx
      have h2 : wordOf y = some t := by
        have := hw y (by simp)
        cases y <;> simp_all [wordOf, zoText]
      simp [unzo, this, h1, h2]
  | case6 x y rest hx ih =>
    simp only [handleZo, hx] at h
    cases hr : handleZo (y :: rest) with
    | error e => simp [hr, Except.map] at h
    | ok r =>
      simp [hr, Except.map] at h; subst h
      have := ih r (fun t ht => hw t (by simp [ht])) (fun t ht => hz t (by simp [ht])) hr
      have h2 : unzo x = [x].filterMap wordOf := by
        have := hw x (by simp)
        cases x <;> simp_all [unzo, wordOf]
      rw [List.flatMap_cons, this, h2, ← List.filterMap_append]; rfl

def cm (s : Sel) (w : String) : Tok := .cmavo s w.toList

example : handleZo [cm .ZO "zo", cm .ZO "zo", cm .SI "si", cm .ZO "zo", cm .BU "bu"] =
    .ok [.zo "zo".toList, cm .SI "si", .zo "bu".toList] := by decide
example : (∀ t ∈ [cm .ZO "zo", cm .ZO "zo", .brivla "klama".toList], (wordOf t).isSome) := by decide

/-! ## C10: lo'u ... le'u -/

theorem splitLehu_eq (body post : List Tok) (e : Tok) (hb : ∀ t ∈ body, t.isSel .LEhU = false)
    (he : e.isSel .LEhU = true) : splitLehu (body ++ e :: post) = some (body, post) := by
  induction body with
  | nil => simp [splitLehu, he]
  | cons t b ih => simp [splitLehu, hb t (by simp), ih (fun t ht => hb t (by simp [ht]))]

theorem splitLehu_none (ts : List Tok) (hb : ∀ t ∈ ts, t.isSel .LEhU = false) :
    splitLehu ts = none := by
  induction ts with
  | nil => rfl
  | cons t b ih => simp [splitLehu, hb t (by simp), ih (fun t ht => hb t (by simp [ht]))]

theorem lohu_skip (pre ts : List Tok) (h : ∀ t ∈ pre, t.isSel .LOhU = false) :
    handleLohu (pre ++ ts) = (handleLohu ts).map (pre ++ ·) := by
  induction pre with
  | nil => cases h : handleLohu ts <;> simp [Except.map, h]
  | cons x rest ih =>
    have hx := h x (by simp)
    have := ih (fun t ht => h t (by simp [ht]))
    rw [List.cons_append, handleLohu.eq_def]
    simp only [hx, this]
    cases handleLohu ts <;> simp [Except.map]

theorem joinWith_eq (sep : Word) (ws : List Word) : joinWith sep ws = List.intercalate sep ws := by
  induction ws with
  | nil => rfl
  | cons w ws ih =>
    cases ws with
    | nil => simp [joinWith, List.intercalate]
    | cons v vs =>
      rw [joinWith, ih]
      · simp [List.intercalate, List.intersperse]
      · simp

theorem mapM_words (ts : List Tok) (f : Tok → Option Word) (hf : ∀ t ∈ ts, f t = wordOf t)
    (hw : ∀ t ∈ ts, (wordOf t).isSome) : ts.mapM f = some (ts.filterMap wordOf) := by
  induction ts with
  | nil => rfl
  | cons t ts ih =>
    have h1 := hf t (by simp)
    obtain ⟨w, hw'⟩ := Option.isSome_iff_exists.1 (hw t (by simp))
    rw [List.mapM_cons, h1, hw', ih (fun t ht => hf t (by simp [ht])) (fun t ht => hw t (by simp [ht]))]
    simp [hw']

theorem nodeText_word {t : Tok} (h : (wordOf t).isSome) : nodeText t = wordOf t := by
  cases t <;> simp_all [wordOf, nodeText]

/-- lo'u is matched with the first le'u after it; the quote stands for exactly the words in
between, in order, whatever they are (lo'u, zo, si, zei, bu are not interpreted). -/
theorem lohu_quotes (pre body post : List Tok) (l e : Tok)
    (hpre : ∀ t ∈ pre, t.isSel .LOhU = false) (hl : l.isSel .LOhU = true)
    (hb : ∀ t ∈ body, t.isSel .LEhU = false) (he : e.isSel .LEhU = true)
    (hne : body ≠ []) (hw : ∀ t ∈ body, (wordOf t).isSome) :
    handleLohu (pre ++ l :: (body ++ e :: post)) =
      (handleLohu post).map
        (fun r => pre ++ .lohu (List.intercalate [' '] (body.filterMap wordOf)) :: r) := by
  rw [lohu_skip _ _ hpre, handleLohu.eq_def]
  simp only [hl, if_true]
  have hs := splitLehu_eq body post e hb he
  have ht : nodesText body = some (List.intercalate [' '] (body.filterMap wordOf)) := by
    rw [nodesText, mapM_words _ _ (fun t ht => nodeText_word (hw t ht)) hw, Option.map_some, joinWith_eq]
  cases body with
  | nil => exact absurd rfl hne
  | cons b body =>
    split
    · rename_i h; rw [hs] at h; cases h
    · rename_i h; rw [hs] at h; cases h
    · rename_i b' body' post' h
      rw [hs] at h; injection h with h; injection h with h1 h2; injection h1 with h3 h4
      subst h2 h3 h4
      rw [ht]
      cases handleLohu post <;> rfl

/-- A zo or zoi quotation inside is shown by its text. -/
theorem lohu_inner_text (t : Word) (f g : Word) :
    nodeText (.zo t) = some ("zo+".toList ++ t) ∧
    nodeText (.zoi f g t) = some ("zoi+\"".toList ++ t ++ "\"".toList) := ⟨rfl, rfl⟩

/-- lo'u without le'u is reported. -/
theorem lohu_unterminated (pre body : List Tok) (l : Tok)
    (hpre : ∀ t ∈ pre, t.isSel .LOhU = false) (hl : l.isSel .LOhU = true)
    (hb : ∀ t ∈ body, t.isSel .LEhU = false) :
    handleLohu (pre ++ l :: body) = .error .exit1 := by
  rw [lohu_skip _ _ hpre, handleLohu.eq_def]
  simp only [hl, if_true]
  have hs := splitLehu_none body hb
  split
  · rfl
  · rename_i h; rw [hs] at h; cases h
  · rename_i h; rw [hs] at h; cases h

/-- Defect: every text with an empty quotation `lo'u le'u` (as its first quotation) stops on a
failed assertion. -/
theorem lohu_empty_aborts (pre post : List Tok) (l e : Tok)
    (hpre : ∀ t ∈ pre, t.isSel .LOhU = false) (hl : l.isSel .LOhU = true)
    (he : e.isSel .LEhU = true) : handleLohu (pre ++ l :: e :: post) = .error .assertFail := by
  rw [lohu_skip _ _ hpre, handleLohu.eq_def]
  simp only [hl, if_true]
  have hs : splitLehu (e :: post) = some ([], post) := splitLehu_eq [] post e (by simp) he
  split
  · rename_i h; rw [hs] at h; cases h
  · rfl
  · rename_i h; rw [hs] at h; cases h

/-- No lo'u is left after the pass. -/
theorem lohu_none_left (ts out : List Tok) (h : handleLohu ts = .ok out) :
    ∀ t ∈ out, t.isSel .LOhU = false := by
  induction hl : ts.length using Nat.strongRecOn generalizing ts out with
  | ind n ih =>
  cases ts with
  | nil => rw [handleLohu.eq_def] at h; injection h with h; subst h; simp
  | cons x rest =>
    rw [handleLohu.eq_def] at h
    simp only at h
    split at h
    · split at h
      · cases h
      · cases h
      · rename_i b body post hs
        split at h
        · cases h
        · split at h
          · rename_i r hr
            injection h with h; subst h
            have := splitLehu_length hs
            simp at hl
            intro t ht
            rcases List.mem_cons.1 ht with rfl | ht
            · rfl
            · exact ih post.length (by omega) post r hr rfl t ht
          · cases h
    · rename_i hx
      split at h
      · rename_i r hr
        injection h with h; subst h
        simp at hl
        intro t ht
        rcases List.mem_cons.1 ht with rfl | ht
        · simpa using hx
        · exact ih rest.length (by omega) rest r hr rfl t ht
      · cases h

example : handleLohu [cm .LE "le", cm .LOhU "lo'u", cm .LOhU "lo'u", cm .SI "si", cm .LEhU "le'u",
    cm .LEhU "le'u"] = .ok [cm .LE "le", .lohu "lo'u si".toList, cm .LEhU "le'u"] := by
  decide +kernel

/-! ## C11: zei -/

/-- `zei w1 zei w2 ...` spelled out. -/
def zeis (zw : List (Tok × Tok)) : List Tok := zw.flatMap (fun p => [p.1, p.2])

theorem chain_eq (y : Tok) (zw : List (Tok × Tok)) (post : List Tok)
    (hz : ∀ p ∈ zw, p.1.isSel .ZEI = true)
    (hpost : ∀ t, post.head? = some t → t.isSel .ZEI = false) :
    chain (y :: (zeis zw ++ post)) = some (y :: zw.map Prod.snd, post) := by
  induction zw generalizing y with
  | nil =>
    cases post with
    | nil => rfl
    | cons t post => simp [zeis, chain, hpost t rfl]
  | cons p zw ih =>
    have := ih p.2 (fun q hq => hz q (by simp [hq]))
    simp only [zeis, List.flatMap_cons, List.cons_append, List.nil_append] at *
    simp [chain, hz p (by simp), this]

theorem chain_trailing (y : Tok) (zw : List (Tok × Tok)) (z : Tok)
    (hz : ∀ p ∈ zw, p.1.isSel .ZEI = true) (hz' : z.isSel .ZEI = true) :
    chain (y :: (zeis zw ++ [z])) = none := by
  induction zw generalizing y with
  | nil => simp [zeis, chain, hz']
  | cons p zw ih =>
    have := ih p.2 (fun q hq => hz q (by simp [hq]))
    simp only [zeis, List.flatMap_cons, List.cons_append, List.nil_append] at *
    simp [chain, hz p (by simp), this]

theorem zeiLoop_skip (left : List Tok) (bad : Bool) (pre ts : List Tok)
    (h : ∀ t ∈ pre, t.isSel .ZEI = false) :
    zeiLoop left bad (pre ++ ts) = zeiLoop (pre.reverse ++ left) bad ts := by
  induction pre generalizing left with
  | nil => rfl
  | cons x pre ih =>
    have hx := h x (by simp)
    rw [List.cons_append, zeiLoop.eq_def]
    simp only [hx]
    rw [show (if false = true then _ else zeiLoop (x :: left) bad (pre ++ ts)) =
      zeiLoop (x :: left) bad (pre ++ ts) from rfl]
    rw [ih (x :: left) (fun t ht => h t (by simp [ht]))]
    simp

/-- Tokens already passed below the operand of the next zei are never touched again, and the
flag only accumulates. -/
theorem zeiLoop_frame (ts : List Tok) : ∀ (w : Tok) (l l2 : List Tok) (bad : Bool),
    zeiLoop (w :: l ++ l2) bad ts =
      (zeiLoop (w :: l) false ts).map (fun r => (l2.reverse ++ r.1, bad || r.2)) := by
  induction hl : ts.length using Nat.strongRecOn generalizing ts with
  | ind n ih =>
  intro w l l2 bad
  cases ts with
  | nil => rw [zeiLoop.eq_def, zeiLoop.eq_def]; simp [Except.map]
  | cons x rest =>
    simp at hl
    have e1 := ih rest.length (by omega) rest rfl
    rw [zeiLoop.eq_def, zeiLoop.eq_def (left := w :: l)]
    simp only [List.cons_append]
    by_cases hx : x.isSel .ZEI = true
    · simp only [hx, if_true]
      cases hc : chain rest with
      | none =>
        simp only
        have a := e1 x (w :: l) l2 true
        have b := e1 x (w :: l) [] true
        simp only [List.cons_append, List.append_nil] at a b
        rw [a, b]
        cases zeiLoop (x :: w :: l) false rest <;> simp [Except.map]
      | some p =>
        obtain ⟨ys, r⟩ := p
        simp only
        cases hm : (w :: ys).mapM nodeText with
        | none => rfl
        | some parts =>
          have := chain_length hc
          have a := ih r.length (by omega) r rfl (.zei parts) l l2 bad
          simp only [List.cons_append] at a
          simp only [a]
    · simp only [hx]
      have a := e1 x (w :: l) l2 bad
      simp only [List.cons_append] at a
      simp only [Bool.false_eq_true, if_false]
      exact a

/-- Starting behind other tokens makes no difference unless the text starts with zei. -/
theorem zeiLoop_start (left : List Tok) (bad : Bool) (ts : List Tok)
    (h : ∀ t, ts.head? = some t → t.isSel .ZEI = false) :
    zeiLoop left bad ts = (handleZei ts).map (fun r => (left.reverse ++ r.1, bad || r.2)) := by
  cases ts with
  | nil => rw [handleZei, zeiLoop.eq_def, zeiLoop.eq_def]; simp [Except.map]
  | cons x rest =>
    have hx := h x rfl
    have a := zeiLoop_frame rest x [] left bad
    rw [handleZei, zeiLoop.eq_def, zeiLoop.eq_def (left := [])]
    simp only [hx, Bool.false_eq_true, if_false]
    simpa using a

/-- A text without zei is unchanged and not flagged. -/
theorem zei_free (ts : List Tok) (h : ∀ t ∈ ts, t.isSel .ZEI = false) :
    handleZei ts = .ok (ts, false) := by
  have := zeiLoop_skip [] false ts [] h
  rw [List.append_nil] at this
  rw [handleZei, this, zeiLoop.eq_def]; simp

/-- A maximal chain `w0 zei w1 ... zei wn` becomes one compound of exactly w0 ... wn in order
(an operand may itself be the word zei); what precedes is unchanged and what follows is
handled as a text of its own. -/
theorem zei_joins (pre post : List Tok) (w0 z1 w1 : Tok) (zw : List (Tok × Tok))
    (hpre : ∀ t ∈ pre, t.isSel .ZEI = false) (h0 : w0.isSel .ZEI = false)
    (hz1 : z1.isSel .ZEI = true) (hz : ∀ p ∈ zw, p.1.isSel .ZEI = true)
    (hpost : ∀ t, post.head? = some t → t.isSel .ZEI = false)
    (hw : ∀ t ∈ w0 :: w1 :: zw.map Prod.snd, (wordOf t).isSome) :
    handleZei (pre ++ w0 :: z1 :: w1 :: (zeis zw ++ post)) =
      (handleZei post).map (fun r =>
        (pre ++ .zei ((w0 :: w1 :: zw.map Prod.snd).filterMap wordOf) :: r.1, r.2)) := by
  have h1 : pre ++ w0 :: z1 :: w1 :: (zeis zw ++ post) =
      (pre ++ [w0]) ++ z1 :: w1 :: (zeis zw ++ post) := by simp
  rw [handleZei, h1, zeiLoop_skip _ _ _ _ (by
    intro t ht; rcases List.mem_append.1 ht with h | h
    · exact hpre t h
    · simp at h; subst h; exact h0)]
  simp only [List.reverse_append, List.reverse_singleton, List.singleton_append, List.append_nil]
  rw [zeiLoop.eq_def]
  simp only [hz1, if_true]
  rw [chain_eq w1 zw post hz hpost]
  simp only
  rw [mapM_words _ _ (fun t ht => nodeText_word (hw t ht)) hw]
  simp only
  rw [zeiLoop_start _ _ _ hpost]
  simp

/-- A zei that begins the text is reported as bad; it stays a word of its own. -/
theorem zei_leading_bad (z : Tok) (ts : List Tok) (hz : z.isSel .ZEI = true)
    (h : ∀ t, ts.head? = some t → t.isSel .ZEI = false) :
    handleZei (z :: ts) = (handleZei ts).map (fun r => (z :: r.1, true)) := by
  rw [handleZei, zeiLoop.eq_def]
  simp only [hz, if_true]
  rw [zeiLoop_start _ _ _ h]; simp

/-- Once flagged, always flagged. -/
theorem zeiLoop_bad (ts : List Tok) : ∀ (left : List Tok) (r : List Tok × Bool),
    zeiLoop left true ts = .ok r → r.2 = true := by
  induction hl : ts.length using Nat.strongRecOn generalizing ts with
  | ind n ih =>
  intro left r h
  cases ts with
  | nil => rw [zeiLoop.eq_def] at h; injection h with h; subst h; rfl
  | cons x rest =>
    simp at hl
    rw [zeiLoop.eq_def] at h
    simp only at h
    split at h
    · cases left with
      | nil => exact ih rest.length (by omega) rest rfl _ r h
      | cons w l =>
        simp only at h
        split at h
        · exact ih rest.length (by omega) rest rfl _ r h
        · rename_i ys r' hc
          split at h
          · cases h
          · exact ih r'.length (by have := chain_length hc; omega) r' rfl _ r h
    · exact ih rest.length (by omega) rest rfl _ r h

/-- A chain whose last zei ends the text is reported as bad. -/
theorem zei_trailing_bad (pre : List Tok) (w0 z1 : Tok) (w1 : Tok) (zw : List (Tok × Tok)) (z : Tok)
    (hpre : ∀ t ∈ pre, t.isSel .ZEI = false) (h0 : w0.isSel .ZEI = false)
    (hz1 : z1.isSel .ZEI = true) (hz : ∀ p ∈ zw, p.1.isSel .ZEI = true) (hz' : z.isSel .ZEI = true)
    (r : List Tok × Bool)
    (h : handleZei (pre ++ w0 :: z1 :: w1 :: (zeis zw ++ [z])) = .ok r) : r.2 = true := by
  have h1 : pre ++ w0 :: z1 :: w1 :: (zeis zw ++ [z]) =
      (pre ++ [w0]) ++ z1 :: w1 :: (zeis zw ++ [z]) := by simp
  rw [handleZei, h1, zeiLoop_skip _ _ _ _ (by
    intro t ht; rcases List.mem_append.1 ht with h | h
    · exact hpre t h
    · simp at h; subst h; exact h0)] at h
  simp only [List.reverse_append, List.reverse_singleton, List.singleton_append, List.append_nil] at h
  rw [zeiLoop.eq_def] at h
  simp only [hz1, if_true] at h
  rw [chain_trailing w1 zw z hz hz'] at h
  exact zeiLoop_bad _ _ _ h

/-- A lone final zei is reported as bad and the words stay. -/
theorem zei_final_bad (pre : List Tok) (z : Tok) (hpre : ∀ t ∈ pre, t.isSel .ZEI = false)
    (hz : z.isSel .ZEI = true) : handleZei (pre ++ [z]) = .ok (pre ++ [z], true) := by
  rw [handleZei, zeiLoop_skip _ _ _ _ hpre, zeiLoop.eq_def]
  simp only [hz, if_true, List.append_nil]
  cases h : pre.reverse with
  | nil => simp at h; subst h; rw [zeiLoop.eq_def]; simp
  | cons a b =>
    simp only [chain]
    rw [zeiLoop.eq_def]
    have : pre = b.reverse ++ [a] := by rw [← List.reverse_reverse pre, h]; simp
    simp [this]

example : handleZei [cm .LE "le", .cmene "djan".toList, cm .ZEI "zei", .brivla "klama".toList,
    cm .ZEI "zei", cm .ZEI "zei", cm .KU "ku"] =
    .ok ([cm .LE "le", .zei ["djan".toList, "klama".toList, "zei".toList], cm .KU "ku"], false) := by
  decide +kernel
example : handleZei [cm .ZEI "zei", .brivla "klama".toList, cm .ZEI "zei"] =
    .ok ([cm .ZEI "zei", .brivla "klama".toList, cm .ZEI "zei"], true) := by
  decide +kernel

end Jbo.Lex2
