import Verif.Pipeline
import Verif.GramPass
import Verif.TensesThm
import Verif.OutputEnd
import Verif.RefsEnd
import Verif.GlossEnd
import Verif.GlossSafe
/-!
# From the parse tree to the display
-/

namespace Jbo.Pipeline
open Jbo.Terms Jbo.Terms.Spec Jbo.Gram Jbo.Output Jbo.Output.Spec

/-- If the first pass ends, so do the others. -/
theorem passes_end (top : Node) (hp : Parse .chunks top) (hn : (ids top).Nodup) (fuel : Nat) (hf : top.depth < fuel) {t : List Terms.Ev}
    (ht : termsProcessing fuel top = .ok t) : ∃ k, passes fuel top = .ok k ∧ k.terms = t := by
  obtain ⟨c, hc, _⟩ := Convert.conversions_told top hp ((Convert.tanru_sub top).nodup hn) (converted t) fuel hf
  obtain ⟨s, hs, _⟩ := Tenses.tenses_any top hp
  obtain ⟨n, hcn, _⟩ := Connect.connectives_any top hp
  obtain ⟨r, hr, _⟩ := Relative.relatives_any top hp
  obtain ⟨m, hm, _⟩ := numbers_run (required t r) top hp hn
  refine ⟨⟨t, c, s, n, r, m⟩, ?_, rfl⟩
  unfold passes
  rw [ht]
  simp only [bind, Except.bind]
  rw [hc]
  simp only
  rw [hs]
  simp only
  rw [hcn]
  simp only
  rw [hr]
  simp only
  rw [hm]
  rfl

/-- What the passes have left. -/
theorem passes_logs {fuel : Nat} {top : Node} {k : Logs} (h : passes fuel top = .ok k) : termsProcessing fuel top = .ok k.terms ∧
    Convert.doConversions fuel (converted k.terms) top = .ok k.conv ∧ Tenses.tenseProcessing top = .ok k.tense ∧
    Connect.connectivesProcessing top = .ok k.conn ∧ Relative.relativeClauseProcessing top = .ok k.rel ∧
    addBracketingTags (required k.terms k.rel) top = .ok k.marks := by
  unfold passes at h
  obtain ⟨t, h1, h⟩ := bind_ok.1 h
  obtain ⟨c, h2, h⟩ := bind_ok.1 h
  obtain ⟨s, h3, h⟩ := bind_ok.1 h
  obtain ⟨n, h4, h⟩ := bind_ok.1 h
  obtain ⟨r, h5, h⟩ := bind_ok.1 h
  obtain ⟨m, h6, h⟩ := bind_ok.1 h
  cases h
  exact ⟨h1, h2, h3, h4, h5, h6⟩

theorem labels_mem {log : List Terms.Ev} {i : Nat} {l : Label} (h : l ∈ labels log i) : .label i l ∈ log := by
  unfold labels at h
  obtain ⟨e, he, h⟩ := List.mem_filterMap.1 h
  cases e with
  | label t l' =>
    simp only at h
    split at h
    · rename_i ht; cases h; rw [← ht]; exact he
    · cases h
  | _ => cases h

/-- The tags of `jai` in labels are tags of `jai` in the text. -/
theorem jai_tags {top : Node} (hp : Parse .chunks top) (hn : (ids top).Nodup) {fuel : Nat} {k : Logs} (h : passes fuel top = .ok k) (w : Words)
    (i : Nat) (tag : Node) (m : Nat) (hm : .jai tag m ∈ (envOf k w top).tags i) : ∃ anc q ds, Occ top anc (.nt q .jaiTagTu2 ds) ∧ tag ∈ ds := by
  obtain ⟨l, hl, he⟩ := List.mem_filterMap.1 hm
  have hlab := labels_mem hl
  have hf := processing_good (passes_logs h).1 i l hlab
  unfold tagOf at he
  split at he
  · rename_i tg u hj
    obtain ⟨x, hx, he⟩ := Option.map_eq_some_iff.1 he
    cases he
    rcases hf.jai tg u hj with hno | ⟨_, _, q, ds, c, cs, hs, hc, rfl⟩
    · cases hno
    · obtain ⟨anc, ho⟩ := sub_occ hp hs .top
      refine ⟨anc, q, ds, ho, ?_⟩
      rw [nodeAt_occ hp hn (.child ho (by decide) hc)] at hx
      cases hx
      exact hc
  · split at he <;> cases he

/-- **The display ends.**  For every text with distinct nodes for which the places of the terms can be found, all passes and the display end. -/
theorem whole_ends (top : Node) (hp : Parse .chunks top) (hn : (ids top).Nodup) (fuel : Nat) (hf : 2 * top.depth < fuel) (w : Words)
    {t : List Terms.Ev} (ht : termsProcessing fuel top = .ok t) : ∃ out, whole fuel w top = .ok out := by
  obtain ⟨k, hk, _⟩ := passes_end top hp hn fuel (by omega) ht
  obtain ⟨out, ho⟩ := display_ends hp hn (passes_logs hk).2.2.2.1 (env := envOf k w top) rfl (jai_tags hp hn hk w) fuel hf
  exact ⟨out, by unfold whole; rw [hk]; exact ho⟩

/-- **Modest texts are shown.**  Full claim: every text.  Missing: sentences with more than 14 terms or 19 conversions, where arrays overflow (C65), and
`gi'e … ke` without terms after it (C67); texts with `jai`. -/
theorem whole_shown_partial (top : Node) (hp : Parse .chunks top) (hn : (ids top).Nodup) (hm : Modest top) (w : Words) :
    ∃ out, whole (2 * top.depth + 1) w top = .ok out := by
  obtain ⟨log, _, _, _, _, _, _, _, h⟩ := text_labels_partial hp hm
  exact whole_ends top hp hn _ (Nat.lt_succ_self _) w (h _ (by omega))

/-! ## What is shown -/

theorem whole_inv {fuel : Nat} {w : Words} {top : Node} {out : List Call} (h : whole fuel w top = .ok out) :
    ∃ k, passes fuel top = .ok k ∧ output (envOf k w top) fuel .both top = .ok out := by
  unfold whole at h
  exact bind_ok.1 h

/-- **Brackets** are nested and numbered one after the other. -/
theorem whole_brackets (top : Node) (hp : Parse .chunks top) (hn : (ids top).Nodup) {fuel : Nat} {w : Words} {out : List Call}
    (h : whole fuel w top = .ok out) :
    nested [] (out.filterMap seen) = true ∧ ∃ k, (out.filterMap seen).filterMap Piece.number? = List.range' 1 k := by
  obtain ⟨k, hk, ho⟩ := whole_inv h
  obtain ⟨ms, h1, h2⟩ := numbers_run (required k.terms k.rel) top hp hn
  rw [(passes_logs hk).2.2.2.2.2] at h1
  cases h1
  exact ⟨display_nested _ top hp fuel out ho, h2 _ rfl fuel out ho⟩

/-- The terminal nodes are of the kinds that the parse tree has. -/
def Fits (w : Words) : Node → Prop
  | .cmavo i s t => ∃ el, w.item i = .cmavo s t.toList el
  | .brivla i => ∃ t, w.item i = .brivla t
  | .zei i => ∃ a b c, w.item i = .zei a b c
  | .leaf i => (∃ a b c, w.item i = .zoi a b c) ∨ (∃ t, w.item i = .zo t) ∨ (∃ t, w.item i = .lohu t) ∨ (∃ t, w.item i = .bu t) ∨ ∃ t, w.item i = .cmene t
  | .nt .. => True

mutual
theorem words_leaf : ∀ (x y : Node), y ∈ words x → ∀ i t cs, y ≠ .nt i t cs
  | .nt i t cs, y, h => by rw [words] at h; exact wordss_leaf cs y h
  | .brivla _, y, h => by rw [words] at h; rw [List.mem_singleton.1 h]; exact nofun; exact nofun
  | .zei _, y, h => by rw [words] at h; rw [List.mem_singleton.1 h]; exact nofun; exact nofun
  | .cmavo _ _ _, y, h => by rw [words] at h; rw [List.mem_singleton.1 h]; exact nofun; exact nofun
  | .leaf _, y, h => by rw [words] at h; rw [List.mem_singleton.1 h]; exact nofun; exact nofun
theorem wordss_leaf : ∀ (cs : List Node) (y : Node), y ∈ wordss cs → ∀ i t ds, y ≠ .nt i t ds
  | [], y, h => by simp [wordss] at h
  | c :: cs, y, h => by rw [wordss] at h; exact (List.mem_append.1 h).elim (words_leaf c y) (wordss_leaf cs y)
end

/-- **The words of the text are shown as they are spelled**, each once and in order, if their glosses fit the buffers. -/
theorem whole_words (top : Node) (hp : Parse .chunks top) {fuel : Nat} {w : Words} (hw : ∀ x ∈ words top, Fits w x) {k : Logs} (hk : passes fuel top = .ok k)
    {out : List Call} (h : whole fuel w top = .ok out) (hg : ∀ x ∈ words top, ∃ r, Gloss.wordGloss w.dict (propsOf k w x.id) (w.item x.id) = .ok r) :
    (out.filterMap seen).filterMap Piece.text? = (words top).map fun x =>
      String.ofList (Gloss.Spec.stopped (w.item x.id) (Gloss.Spec.spelled (propsOf k w x.id) (w.item x.id))) := by
  obtain ⟨k', hk', ho⟩ := whole_inv h
  rw [hk] at hk'
  cases hk'
  refine Gloss.display_spelled (envOf k w top) w.dict (fun x => w.item x.id) (propsOf k w) top ⟨?_, ?_, ?_⟩ hp fuel out ho
  · intro x hx
    obtain ⟨⟨l, e⟩, hr⟩ := hg x hx
    exact ⟨l, e, hr, by simp only [envOf, hr]⟩
  · intro x hx
    have := hw x hx
    cases x with
    | nt i t cs => exact absurd rfl (words_leaf top _ hx i t cs)
    | brivla i => obtain ⟨t, e⟩ := this; simp [compound, Node.id, e]
    | zei i => obtain ⟨a, b, c, e⟩ := this; simp [compound, Node.id, e]
    | cmavo i s v => obtain ⟨el, e⟩ := this; simp [compound, Node.id, e]
    | leaf i => rcases this with ⟨a, b, c, e⟩ | ⟨t, e⟩ | ⟨t, e⟩ | ⟨t, e⟩ | ⟨t, e⟩ <;> simp [compound, Node.id, e]
  · intro x _
    simp only [envOf]
    split
    · rename_i t e; simp [e]
    · rename_i e; simp only [Bool.false_eq_true, false_iff]; rintro ⟨t, h⟩; exact e t h

/-- **Numbers in labels** lead to brackets that are shown.  Full claim: all labels; missing: those that show the number before `moi` at a term linked with
`be` or `bei` (C86). -/
theorem whole_labels_partial (top : Node) (hp : Parse .chunks top) (hn : (ids top).Nodup) {fuel : Nat} {w : Words} {k : Logs} (hk : passes fuel top = .ok k)
    {out : List Call} (h : whole fuel w top = .ok out) (t : Nat) (l : Label) (i : Nat) (hl : .label t l ∈ k.terms) (hi : refOf l = some i)
    (hm : ofMoi l = true → ¬ Linked top t) :
    ∃ x, Sub top x ∧ x.id = i ∧ kindOf l x ∧ .opened (bracOf k.marks i).1 (bracOf k.marks i).2 ∈ out.filterMap seen ∧
      ∀ j, (bracOf k.marks j).2 = (bracOf k.marks i).2 → j = i := by
  obtain ⟨k', hk', ho⟩ := whole_inv h
  rw [hk] at hk'
  cases hk'
  have hlogs := passes_logs hk
  obtain ⟨ms, h1, h2⟩ := labels_refer_partial top hp hn hlogs.1 (required k.terms k.rel) (fun j hj => by simp [required, hj])
  rw [hlogs.2.2.2.2.2] at h1
  cases h1
  obtain ⟨x, a1, a2, a3, _, a5, a6⟩ := h2 t l i hl hi hm
  exact ⟨x, a1, a2, a3, a6 _ fuel out rfl ho, a5⟩

/-- **The number after `ke'a`** is that of the bracket shown around what it stands for.  Full claim: whenever there is an antecedent; missing: as in C80. -/
theorem whole_keha_partial (top : Node) (hp : Parse .chunks top) (hn : (ids top).Nodup) {fuel : Nat} {w : Words} {k : Logs} (hk : passes fuel top = .ok k)
    {out : List Call} (h : whole fuel w top = .ok out) (near rest : List Node) (i : Nat) (r encl a : Node)
    (ho : Occ top (near ++ r :: rest) (.cmavo i .KOhA "ke'a")) (hr : Relative.Spec.anyClause r) (hnear : ∀ y ∈ near, ¬ Relative.Spec.anyClause y)
    (hs : Relative.Spec.Stands rest encl) (ha : Relative.Spec.Antecedent encl a) (h6 : a.isNT .sumti6 = false) :
    ∃ b n, (propsOf k w i).keha = some n ∧ bracOf k.marks a.id = (b, n) ∧ .opened b n ∈ out.filterMap seen ∧
      ∀ j, (bracOf k.marks j).2 = n → j = a.id := by
  obtain ⟨k', hk', hout⟩ := whole_inv h
  rw [hk] at hk'
  cases hk'
  have hlogs := passes_logs hk
  obtain ⟨log, h1, h2⟩ := keha_refers_partial top hp hn
  rw [hlogs.2.2.2.2.1] at h1
  cases h1
  obtain ⟨ms, h3, h4⟩ := h2 (required k.terms k.rel) (fun j hj => by simp [required, hj])
  rw [hlogs.2.2.2.2.2] at h3
  cases h3
  obtain ⟨b, n, g1, g2, g3, g4, g5⟩ := h4 near rest i r encl a ho hr hnear hs ha h6
  refine ⟨b, n, g1, g2, ?_, g5⟩
  obtain ⟨hsub, q, t, cs, rfl, _⟩ := antecedent_kind ha h6
  rw [display (envOf k w top) top hp fuel out hout]
  obtain ⟨hor, _⟩ := occ_anc ho near r rest rfl
  obtain ⟨near', j, ds, rest', rfl, _⟩ := hs
  have hoe := (occ_anc hor (near' ++ [.nt j .relativeClauses ds]) encl rest' (by simp)).1
  have := opened_written (text (envOf k w top)) (bracOf k.marks) top _ (sub_trans (occ_sub hoe) hsub) (.inl ⟨_, _, _, rfl⟩) (by rw [g2]; exact g3)
  rw [g2] at this
  exact this

/-! ## Buffers -/

mutual
theorem marks_bound (need : Nat → Bool) : ∀ (x : Node) (seq : Nat) (ms : List Mark) (n : Nat), addBracketing need seq x = .ok (ms, n) →
    seq ≤ n ∧ n ≤ seq + (ids x).length ∧ ∀ m ∈ ms, m.num ≤ n
  | .nt i t cs, seq, ms, n, h => by
    rw [addBracketing] at h
    have hi : (ids (.nt i t cs)).length = (idsAll cs).length + 1 := by rw [ids]; rfl
    have fin : ∀ {m : Mark}, (m.num = 0 ∨ m.num = seq + 1) →
        (addBracketings need (if m.num = 0 then seq else seq + 1) cs >>= fun p => pure (m :: p.1, p.2)) = .ok (ms, n) →
        seq ≤ n ∧ n ≤ seq + (ids (.nt i t cs)).length ∧ ∀ m ∈ ms, m.num ≤ n := by
      intro m hm h
      obtain ⟨⟨ms', n'⟩, h2, h⟩ := bind_ok.1 h
      cases h
      obtain ⟨a1, a2, a3⟩ := marks_bounds need cs _ ms' _ h2
      rcases hm with hm | hm
      · rw [if_pos hm] at a1 a2
        refine ⟨a1, by omega, fun m' hm' => ?_⟩
        rcases List.mem_cons.1 hm' with rfl | hm'
        · omega
        · exact a3 m' hm'
      · rw [if_neg (by omega)] at a1 a2
        refine ⟨by omega, by omega, fun m' hm' => ?_⟩
        rcases List.mem_cons.1 hm' with rfl | hm'
        · omega
        · exact a3 m' hm'
    split at h
    · exact fin (.inl rfl) h
    · obtain ⟨b, _, h⟩ := bind_ok.1 h
      split at h
      · exact fin (.inr rfl) h
      · exact fin (.inl rfl) h
  | .zei i, seq, ms, n, h => by
    rw [addBracketing] at h
    cases h
    exact ⟨by omega, by simp [ids], fun m hm => by rw [List.mem_singleton.1 hm]; exact Nat.le_refl _⟩
  | .brivla _, seq, ms, n, h => by cases h; exact ⟨Nat.le_refl _, by omega, nofun⟩
  | .cmavo _ _ _, seq, ms, n, h => by cases h; exact ⟨Nat.le_refl _, by omega, nofun⟩
  | .leaf _, seq, ms, n, h => by cases h; exact ⟨Nat.le_refl _, by omega, nofun⟩
theorem marks_bounds (need : Nat → Bool) : ∀ (cs : List Node) (seq : Nat) (ms : List Mark) (n : Nat), addBracketings need seq cs = .ok (ms, n) →
    seq ≤ n ∧ n ≤ seq + (idsAll cs).length ∧ ∀ m ∈ ms, m.num ≤ n
  | [], seq, ms, n, h => by cases h; exact ⟨Nat.le_refl _, by omega, nofun⟩
  | c :: cs, seq, ms, n, h => by
    rw [addBracketings] at h
    obtain ⟨⟨m1, n1⟩, h1, h⟩ := bind_ok.1 h
    obtain ⟨⟨m2, n2⟩, h2, h⟩ := bind_ok.1 h
    cases h
    obtain ⟨a1, a2, a3⟩ := marks_bound need c seq m1 n1 h1
    obtain ⟨b1, b2, b3⟩ := marks_bounds need cs n1 m2 n h2
    refine ⟨by omega, by rw [idsAll, List.length_append]; omega, fun m hm => ?_⟩
    rcases List.mem_append.1 hm with hm | hm
    · have := a3 m hm; omega
    · exact b3 m hm
end

/-- A number shown is at most the number of nodes. -/
theorem number_bound {need : Nat → Bool} {top : Node} {ms : List Mark} (h : addBracketingTags need top = .ok ms) (i : Nat) :
    (bracOf ms i).2 ≤ (ids top).length := by
  unfold addBracketingTags at h
  obtain ⟨⟨ms', n⟩, h1, h⟩ := bind_ok.1 h
  cases h
  obtain ⟨_, a2, a3⟩ := marks_bound need top 0 ms' n h1
  unfold bracOf
  split
  · rename_i m hm
    have := a3 m (List.mem_of_find?_eq_some hm)
    simp only; omega
  · exact Nat.zero_le _

/-- The numbers of conversions of BAI are places. -/
theorem bai_place {top : Node} (hp : Parse .chunks top) (hn : (ids top).Nodup) {fuel : Nat} (hf : top.depth < fuel) {k : Logs}
    (hk : passes fuel top = .ok k) (w : Words) (i c : Nat) (h : (propsOf k w i).bai = some c) : 1 ≤ c ∧ c ≤ 5 := by
  simp only [propsOf, lastOf] at h
  have hm := List.mem_of_getLast? h
  obtain ⟨e, he, hb⟩ := List.mem_filterMap.1 hm
  cases e with
  | bai j c' =>
    simp only at hb
    split at hb
    · cases hb
      have hd := (passes_logs hk).2.1
      unfold Convert.doConversions at hd
      obtain ⟨a, ha, hd⟩ := bind_ok.1 hd
      obtain ⟨b, hb', hd⟩ := bind_ok.1 hd
      obtain ⟨cc, hc, hd⟩ := bind_ok.1 hd
      obtain ⟨d, hd', hd⟩ := bind_ok.1 hd
      obtain ⟨_, ha', ha2⟩ := Convert.se_bai_any top hp
      obtain ⟨_, hb1, hb2⟩ := Convert.places_any top hp (converted k.terms)
      obtain ⟨_, hc', hc2⟩ := Convert.forms_any top hp
      obtain ⟨_, hd1, hd2⟩ := Convert.tertau_any top hp ((Convert.tanru_sub top).nodup hn) fuel hf
      rw [ha] at ha'; cases ha'
      rw [hb'] at hb1; cases hb1
      rw [hc] at hc'; cases hc'
      rw [hd'] at hd1; cases hd1
      have hd : a ++ b ++ cc ++ d.2 = k.conv := by injection hd
      rw [← hd] at he
      simp only [List.mem_append, ha2, hb2, hc2, hd2] at he
      rcases he with ((⟨_, _, _, h⟩ | ⟨_, _, _, h⟩) | ⟨_, _, _, h⟩) | ⟨_, _, _, h⟩
      · cases h with
        | se h1 h2 h3 h4 =>
          simp only [List.mem_cons, List.not_mem_nil, or_false, reduceCtorEq, Convert.Ev.bai.injEq] at h4
          obtain ⟨_, rfl⟩ := h4
          simp [Terms.Spec.sePlaces] at h2
          omega
        | plain _ => omega
      · cases h
      · cases h
      · cases h
    · cases hb
  | _ => cases hb

/-- **The texts of the words fit their buffers**: what is left to ask of the dictionary and the words.  Full claim: all texts and dictionaries; missing:
entries and words that are too long (C89). -/
theorem whole_fits_partial (top : Node) (hp : Parse .chunks top) (hn : (ids top).Nodup) {fuel : Nat} (hf : top.depth < fuel) (w : Words) {k : Logs}
    (hk : passes fuel top = .ok k) (hsize : (ids top).length < 10 ^ 500) (hl : ∀ t e, w.dict.look t = some e → e.length ≤ 500)
    (hv : ∀ x ∈ words top, ∀ t, Gloss.convWord (w.item x.id) = some t →
      ∃ r, Gloss.convertible w.dict (propsOf k w x.id) t = .ok r ∧ ∀ e, r = some e → e.length < 1024)
    (hc : ∀ x ∈ words top, ∀ c, w.cai x.id = some c → (w.dict.look (Gloss.Spec.degreeWord c)).isSome = true)
    (hz : ∀ x ∈ words top, ∀ a b parts, w.item x.id = .zei a b parts → (Gloss.zeiParts w.dict parts).length < 1024)
    (hs : ∀ x ∈ words top, (Gloss.Spec.spelled (propsOf k w x.id) (w.item x.id)).length ≤ 1000) :
    ∀ x ∈ words top, ∃ r, Gloss.wordGloss w.dict (propsOf k w x.id) (w.item x.id) = .ok r := by
  intro x hx
  have num : ∀ n, (propsOf k w x.id).keha = some n → (toString n).length ≤ 500 := by
    intro n h
    have hb : n ≤ (ids top).length := by
      simp only [propsOf, kehaNumber] at h
      obtain ⟨rel, _, h⟩ := Option.bind_eq_some_iff.1 h
      obtain ⟨a, _, h⟩ := Option.bind_eq_some_iff.1 h
      cases h
      exact number_bound (passes_logs hk).2.2.2.2.2 a
    have : (Nat.repr n).length ≤ 500 := (Nat.length_repr_le_iff (by decide)).2 (Nat.lt_of_le_of_lt hb hsize)
    exact this
  obtain ⟨l, e, _, h, _⟩ := Gloss.word_fits_partial w.dict (propsOf k w x.id) (w.item x.id) hl (hv x hx) (hz x hx) (hc x hx)
    (fun c h => bai_place hp hn hf hk w _ c h) (fun n h => num n h) (hs x hx)
  exact ⟨_, h⟩

end Jbo.Pipeline
