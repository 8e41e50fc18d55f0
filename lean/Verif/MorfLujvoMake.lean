import Verif.MorfLujvoThm
import Verif.LujvoMakeThm
/-!
# What the lujvo maker makes, the scanner reads as a lujvo
-/

namespace Jbo.Lujvo
open Spec Nfa

/-! ## Diphthongs -/

def flowsB : List Char → Bool
  | a :: b :: t => (!(decide (V a) && decide (V b)) || diphthongs.contains (a, b)) && flowsB (b :: t)
  | _ => true

theorem flows_of_B : ∀ {w : List Char}, flowsB w = true → Flows w
  | [], _ => flows_nil
  | [_], _ => flows_one
  | a :: b :: t, h => by
    rw [flowsB, Bool.and_eq_true] at h
    rw [flows_cons]
    refine ⟨fun ha hb => ?_, flows_of_B h.2⟩
    have h1 := h.1
    rw [decide_eq_true ha, decide_eq_true hb] at h1
    exact List.contains_iff_mem.1 h1

set_option maxRecDepth 100000 in
theorem table_flows : wordTable.all (fun e => e.2.all flowsB && (e.1.length != 5 || flowsB e.1)) = true := by
  decide +kernel

theorem flows_prefix {u v : List Char} (h : Flows (u ++ v)) : Flows u :=
  fun a b c d he => h a (b ++ v) c d (by rw [he]; simp)

theorem flows_join : ∀ {u v : List Char}, Flows u → Flows v → (∀ c t, v = c :: t → ¬ V c) → Flows (u ++ v)
  | [], _, _, hv, _ => hv
  | [a], v, _, hv, hc => by
    cases v with
    | nil => exact flows_one
    | cons c t => exact flows_cons.2 ⟨fun _ h => absurd h (hc c t rfl), hv⟩
  | a :: b :: u, v, hu, hv, hc => by
    have := flows_cons.1 hu
    exact flows_cons.2 ⟨this.1, flows_join this.2 hv hc⟩

theorem allowed_flows {o : Opts} : ∀ {es : List (Word × List Word)} {rs : List Word},
    (∀ e ∈ es, e ∈ wordTable) → AllowedAll o es rs → ∀ r ∈ rs, Flows r
  | [], [], _, _, _, h => by simp at h
  | (w, short) :: es, q :: rs, hm, h, r, hr => by
    rcases List.mem_cons.1 hr with rfl | hr
    · have ht := List.all_eq_true.1 table_flows _ (hm _ List.mem_cons_self)
      simp only [Bool.and_eq_true, List.all_eq_true, Bool.or_eq_true, bne_iff_ne, ne_eq] at ht
      have h1 := h.1
      unfold Allowed at h1
      split at h1
      · rcases h1 with ⟨h1, _⟩ | ⟨rfl, h5, _⟩
        · exact flows_of_B (ht.1 _ h1)
        · exact flows_of_B (ht.2.resolve_left (fun h => h h5))
      · rcases h1 with h1 | ⟨h4, ⟨c, rfl⟩, _⟩
        · exact flows_of_B (ht.1 _ h1)
        · refine flows_prefix (flows_of_B (ht.2.resolve_left (fun h => h ?_)))
          simp [h4]
    · exact allowed_flows (fun e he => hm e (List.mem_cons_of_mem _ he)) h.2 r hr

theorem parts_head {r : Word} {rs : List Word} (h : Parts (r :: rs)) : ∃ x y z u, r = x :: y :: z :: u ∧ C x := by
  obtain ⟨x, y, z, u, h1, h2, _⟩ := h.head
  exact ⟨x, y, z, u, h1, h2⟩

theorem flows_glue (g : Option Char) {v : List Char} (hg : ∀ c, g = some c → ¬ V c) (hv : Flows v) (hc : ∀ c t, v = c :: t → ¬ V c) :
    Flows (g.toList ++ v) ∧ ∀ c t, g.toList ++ v = c :: t → ¬ V c := by
  cases g with
  | none => exact ⟨hv, hc⟩
  | some c =>
    refine ⟨(flows_notV (hg c rfl)).2 hv, ?_⟩
    intro d t h
    simp only [Option.toList, List.cons_append, List.cons.injEq] at h
    exact h.1 ▸ hg c rfl

theorem flows_rest : ∀ {rs : List Word}, Parts rs → (∀ r ∈ rs, Flows r) → Flows (rest rs) ∧ ∀ c t, rest rs = c :: t → ¬ V c
  | [], h, _ => by cases h
  | [r], h, hf => by
    rw [rest_single]
    obtain ⟨x, y, z, u, rfl, hx⟩ := parts_head h
    refine ⟨hf _ List.mem_cons_self, ?_⟩
    intro c t e
    simp only [List.cons.injEq] at e
    exact e.1 ▸ cNotV hx
  | r :: b :: rs, h, hf => by
    have hb : Parts (b :: rs) := by cases h with | cons _ h => exact h
    obtain ⟨h1, h2⟩ := flows_rest hb (fun r hr => hf r (List.mem_cons_of_mem _ hr))
    obtain ⟨x, y, z, u, rfl, hx⟩ := parts_head h
    have e : rest ((x :: y :: z :: u) :: b :: rs) = (x :: y :: z :: u) ++ ((yGlue none (x :: y :: z :: u) b).toList ++ rest (b :: rs)) := by
      simp [rest, glueFrom, glueWord]
    rw [e]
    have hg := flows_glue (yGlue none (x :: y :: z :: u) b) (by
      intro c hc
      have := glueFrom_ok ((x :: y :: z :: u) :: b :: rs) _ (by rw [glueFrom]; exact List.mem_cons_self) c hc
      exact this.1) h1 h2
    refine ⟨flows_join (hf _ List.mem_cons_self) hg.1 hg.2, ?_⟩
    intro c t e
    simp only [List.cons_append, List.cons.injEq] at e
    exact e.1 ▸ cNotV hx

/-! ## Hyphens -/

theorem rest_long {b : Word} {rs : List Word} (h : Parts (b :: rs)) : 3 ≤ (rest (b :: rs)).length := by
  obtain ⟨u, hu⟩ := rest_prefix b rs
  obtain ⟨x, y, z, v, rfl, _⟩ := parts_head h
  rw [hu]; simp

theorem rest_longer {b c : Word} {rs : List Word} (h : Parts (b :: c :: rs)) : 6 ≤ (rest (b :: c :: rs)).length := by
  obtain ⟨x, y, z, v, rfl, _⟩ := parts_head h
  have hc : Parts (c :: rs) := by cases h with | cons _ h => exact h
  have := rest_long hc
  have e : rest ((x :: y :: z :: v) :: c :: rs) = (x :: y :: z :: v) ++ ((yGlue none (x :: y :: z :: v) c).toList ++ rest (c :: rs)) := by
    simp [rest, glueFrom, glueWord]
  rw [e]; simp; omega

theorem rafsi_short {s : Shape} {r : Word} (h : Rafsi s r) : r.length ≤ 5 := by
  have h := h.1
  unfold HasShape at h
  split at h <;> first | exact h.elim | simp

theorem parts_short : ∀ {rs : List Word}, Parts rs → ∀ r ∈ rs, r.length ≤ 5
  | [], h, _, _ => by cases h
  | r :: rs, h, q, hq => by
    cases h with
    | last h =>
      have : q = r := by simpa using hq
      subst this
      rcases h with h | h | h | h | h <;> exact rafsi_short h
    | cons h hs =>
      rcases List.mem_cons.1 hq with rfl | hq
      · rcases h with h | h | h | h | h | h <;> exact rafsi_short h
      · exact parts_short hs q hq

theorem glue_short : ∀ {rs : List Word} {gs : List (Option Char)}, (∀ r ∈ rs, r.length ≤ 5) →
    (glueWord rs gs).length ≤ 6 * rs.length
  | [], _, _ => by simp [glueWord]
  | r :: rs, [], h => by
    have := glue_short (rs := rs) (gs := []) (fun q hq => h q (List.mem_cons_of_mem _ hq))
    have := h r List.mem_cons_self
    simp only [glueWord, List.length_append, List.length_cons]
    omega
  | r :: rs, g :: gs, h => by
    have := glue_short (rs := rs) (gs := gs) (fun q hq => h q (List.mem_cons_of_mem _ hq))
    have := h r List.mem_cons_self
    have hg : g.toList.length ≤ 1 := by cases g <;> simp
    simp only [glueWord, List.length_append, List.length_cons]
    omega

theorem cv_prefix {s s' : Shape} {u u' v v' : Word} (hs : s = .cvv ∨ s = .cvhv) (hs' : s' = .cvv ∨ s' = .cvhv)
    (h : Rafsi s u) (h' : Rafsi s' u') (e : u ++ v = u' ++ v') : u = u' ∧ v = v' := by
  rcases hs with rfl | rfl <;> rcases hs' with rfl | rfl
  · obtain ⟨a, b, c, rfl, _⟩ := shape_cvv h
    obtain ⟨a', b', c', rfl, _⟩ := shape_cvv h'
    exact List.append_inj e rfl
  · obtain ⟨a, b, c, rfl, _, _, hc⟩ := shape_cvv h
    obtain ⟨a', b', c', rfl, _⟩ := shape_cvhv h'
    simp only [List.cons_append, List.cons.injEq] at e
    exact absurd (e.2.2.1 ▸ hc) (show ¬ V '\'' by decide)
  · obtain ⟨a, b, c, rfl, _⟩ := shape_cvhv h
    obtain ⟨a', b', c', rfl, _, _, hc⟩ := shape_cvv h'
    simp only [List.cons_append, List.cons.injEq] at e
    exact absurd (e.2.2.1.symm ▸ hc) (show ¬ V '\'' by decide)
  · obtain ⟨a, b, c, rfl, _⟩ := shape_cvhv h
    obtain ⟨a', b', c', rfl, _⟩ := shape_cvhv h'
    exact List.append_inj e rfl

/-- A CVV or CV'V is no beginning of another component. -/
theorem cv_start {s : Shape} {r u v v' : Word} (hs : s = .cvv ∨ s = .cvhv) (h : Rafsi s u) (hr : MidOk r)
    (e : r ++ v = u ++ v') : Rafsi .cvv r ∨ Rafsi .cvhv r := by
  have hu : ∃ a b c w, u = a :: b :: c :: w ∧ V b ∧ ¬ C c := by
    rcases hs with rfl | rfl
    · obtain ⟨a, b, c, rfl, _, hb, hc⟩ := shape_cvv h
      exact ⟨a, b, c, [], rfl, hb, hc.not_C⟩
    · obtain ⟨a, b, c, rfl, _, hb, _⟩ := shape_cvhv h
      exact ⟨a, b, '\'', [c], rfl, hb, by decide⟩
  obtain ⟨a, b, c, w, rfl, hb, hc⟩ := hu
  rcases hr with h | h | h | h | h | h
  · obtain ⟨a', b', c', d', rfl, _, _, hc', _⟩ := shape_cvcc h
    simp only [List.cons_append, List.cons.injEq] at e
    exact absurd (e.2.2.1 ▸ hc') hc
  · obtain ⟨a', b', c', d', rfl, _, hb', _⟩ := shape_ccvc h
    simp only [List.cons_append, List.cons.injEq] at e
    exact absurd (e.2.1 ▸ hb') hb.not_C
  · obtain ⟨a', b', c', rfl, _, _, hc'⟩ := shape_cvc h
    simp only [List.cons_append, List.cons.injEq] at e
    exact absurd (e.2.2.1 ▸ hc') hc
  · first | exact .inl h | exact .inr h
  · first | exact .inl h | exact .inr h
  · obtain ⟨a', b', c', rfl, _, hb', _⟩ := shape_ccv h
    simp only [List.cons_append, List.cons.injEq] at e
    exact absurd (e.2.1 ▸ hb') hb.not_C

theorem glues_ccv {s : Shape} {r b : Word} (hs : s = .cvv ∨ s = .cvhv) (h : Rafsi s r) (hb : Rafsi .ccv b) :
    glues [r, b] = .ok [none] := by
  have e1 := startsCv_of hs h
  have e2 := isCvc_cv hs h
  have hp : Parts [b] := .last (.inr (.inr (.inr (.inr hb))))
  have e3 := yGlue_none hs h hp.head
  obtain ⟨x, y, z, rfl, hx, hy, hz, _⟩ := shape_ccv hb
  have h1 : isCcv [x, y, z] = true := by simp [isCcv, chr, hx.isC, hy.isC, hz.isV]
  have h2 : isCcvcv [x, y, z] = false := by simp [isCcvcv]
  simp [glues, firstGlue, glueFrom, h1, h2, e1, e2, e3]

theorem not_idle {r b : Word} {rs : List Word} (h : Parts (r :: b :: rs)) {g : Option Char}
    (hg : glues (r :: b :: rs) = .ok (g :: glueFrom none (b :: rs))) : ¬ IdleHyphen (r ++ g.toList ++ rest (b :: rs)) := by
  rintro ⟨s, u, t, hs, hu, ht, e⟩
  obtain ⟨g', h1, _, _, h4, _⟩ := glues_cases h
  have hgg : g' = g := by
    rw [hg] at h1
    simp only [Except.ok.injEq, List.cons.injEq] at h1
    exact h1.1.symm
  subst hgg
  have hb : Parts (b :: rs) := by cases h with | cons _ h => exact h
  have hr : MidOk r := by cases h with | cons h _ => exact h
  rw [List.append_assoc] at e
  have hlt : t.length = 3 := by obtain ⟨x, y, z, rfl, _⟩ := shape_ccv ht; rfl
  obtain ⟨s', hs', hr'⟩ : ∃ s', (s' = .cvv ∨ s' = .cvhv) ∧ Rafsi s' r := by
    rcases cv_start hs hu hr e with h | h
    · exact ⟨_, .inl rfl, h⟩
    · exact ⟨_, .inr rfl, h⟩
  obtain ⟨rfl, e2⟩ := cv_prefix hs' hs hr' hu e
  rcases h4 s' hs' hr' with rfl | ⟨rfl, rfl, hbc⟩
  · simp only [Option.toList, List.cons_append, List.nil_append, List.cons.injEq] at e2
    cases rs with
    | nil =>
      rw [rest_single] at e2
      rw [e2.2, glues_ccv hs' hr' ht] at hg
      simp at hg
    | cons c rs =>
      have := rest_longer hb
      rw [e2.2] at this
      omega
  · have := congrArg List.length e2
    rw [rest_single] at this
    obtain ⟨x, y, z, rfl, _⟩ := shape_ccv hbc
    simp at this
    omega

/-- **C64**: every word that the maker stores is a lujvo of the stricter grammar that the scanner knows. -/
theorem every_form_lujvo {o : Opts} {ws : List Word} {fs : List Form} {lim : Bool}
    {es : List (Word × List Word)} (he : entriesOf ws = some es)
    (h2 : 2 ≤ ws.length) (h50 : ws.length < 50) (hne : ∃ rs, AllowedAll o es rs)
    (h : makelujvo o ws = .ok (fs, lim)) : ∀ f ∈ fs, IsLujvo f.word ∧ f.word.length ≤ 300 := by
  obtain ⟨fs', lim', h', _, _, h3, _⟩ := makelujvo_spec he h2 h50 hne
  rw [h] at h'
  simp only [Except.ok.injEq, Prod.mk.injEq] at h'
  obtain ⟨rfl, rfl⟩ := h'
  obtain ⟨hm, hmap⟩ := entries_mem he
  have hlen : es.length = ws.length := by
    have := congrArg List.length hmap
    simpa using this
  have hes : es ≠ [] := by rintro rfl; simp at hlen; omega
  intro f hf
  obtain ⟨rs, hrs, hmk⟩ := h3 f hf
  have hp := parts_of_allowed hm hes hrs
  have hl := allowed_length hrs
  have hfl := allowed_flows hm hrs
  match rs, hp, hl, hmk, hfl with
  | [], hp, _, _, _ => cases hp
  | [_], _, hl, _, _ => simp at hl; omega
  | r :: b :: rs, hp, hl, hmk, hfl =>
    obtain ⟨g, h1, hv, hg, _⟩ := glues_cases hp
    have hw : f.word = r ++ g.toList ++ rest (b :: rs) := by
      rw [← glueWord_first]
      unfold makeOne at hmk
      rw [h1] at hmk
      simp only [bind, Except.bind, pure, Except.pure] at hmk
      split at hmk
      · cases hmk
      · simp only [Except.ok.injEq] at hmk
        rw [← hmk]
    have hb : Parts (b :: rs) := by cases hp with | cons _ h => exact h
    have hr3 : 3 ≤ r.length := by obtain ⟨x, y, z, v, rfl, _⟩ := parts_head hp; simp
    have hR := flows_rest hb (fun r hr => hfl r (List.mem_cons_of_mem _ hr))
    have hG := flows_glue g (by
      intro c hc
      rcases hg with rfl | rfl | rfl | rfl
      · cases hc
      all_goals
        simp only [Option.some.injEq] at hc
        subst hc; decide) hR.1 hR.2
    refine ⟨⟨hw ▸ hv, ?_, hw ▸ not_idle hp h1, ?_⟩, ?_⟩
    · rw [hw, List.append_assoc]
      exact flows_join (hfl r List.mem_cons_self) hG.1 hG.2
    · intro hc
      have h3 := rest_long hb
      have hl3 : f.word.length = 3 := by obtain ⟨x, y, z, e, _⟩ := shape_ccv hc; rw [e]; rfl
      rw [hw] at hl3
      simp only [List.length_append] at hl3
      omega
    · rw [hw, ← glueWord_first]
      have := glue_short (gs := g :: glueFrom none (b :: rs)) (parts_short hp)
      omega

/-- **C64**: the scanner reads every word that the maker stores as one lujvo. -/
theorem made_is_read {M B : Dfasyn.Generated} (hM : Morf.Tables M) {o : Opts} {ws : List Word} {fs : List Form} {lim : Bool}
    {es : List (Word × List Word)} (he : entriesOf ws = some es)
    (h2 : 2 ≤ ws.length) (h50 : ws.length < 50) (hne : ∃ rs, AllowedAll o es rs)
    (h : makelujvo o ws = .ok (fs, lim)) : ∀ f ∈ fs, Morf.morfScan M B false f.word = .ok ⟨.lujvo, [0], .none⟩ := by
  intro f hf
  obtain ⟨h1, hl⟩ := every_form_lujvo he h2 h50 hne h f hf
  exact (Morf.lujvo_exact_front hM (by omega) (fun c hc => (Morf.lujvo_plain h1 c hc).1)).2 h1

/-- `lojbo bangu`: the hypotheses hold, and both words that are made are read as lujvo. -/
example {M B : Dfasyn.Generated} (hM : Morf.Tables M) :
    Morf.morfScan M B false "jbobau".toList = .ok ⟨.lujvo, [0], .none⟩ ∧
    Morf.morfScan M B false "lobybau".toList = .ok ⟨.lujvo, [0], .none⟩ := by
  have he : entriesOf ["lojbo".toList, "bangu".toList] =
    some [("lojbo".toList, ["lob".toList, "jbo".toList]), ("bangu".toList, ["ban".toList, "bau".toList])] := by
    decide +kernel
  have h : (makelujvo ⟨false, false⟩ ["lojbo".toList, "bangu".toList]) =
    .ok ([⟨"lobybau".toList, 6967, false⟩, ⟨"jbobau".toList, 5847, false⟩], false) := by decide +kernel
  have hne : ∃ rs, AllowedAll ⟨false, false⟩
      [("lojbo".toList, ["lob".toList, "jbo".toList]), ("bangu".toList, ["ban".toList, "bau".toList])] rs := by
    refine ⟨["jbo".toList, "bau".toList], .inl (by decide), ?_, trivial⟩
    exact .inl ⟨by decide, ['b', 'a'], 'u', by decide, by decide⟩
  have := made_is_read (B := B) hM he (by decide) (by decide) hne h
  exact ⟨this ⟨"jbobau".toList, 5847, false⟩ (by decide), this ⟨"lobybau".toList, 6967, false⟩ (by decide)⟩

end Jbo.Lujvo
