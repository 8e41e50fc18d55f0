import Verif.TermsBridi
import Verif.TermsConv
/-!
# The labels of a whole sentence
-/

namespace Jbo.Terms
open Spec

/-! ## The vectors and chains that come out of a tree are well formed -/

theorem term_okE {t : Node} {e : Entry} (h : TermR t (some e)) : e.Ok := by
  cases h with
  | plain => trivial
  | placed _ hp =>
    simp only [faPlaces, List.mem_cons, Prod.mk.injEq, List.not_mem_nil, or_false] at hp
    simp only [Entry.Ok]
    rcases hp with ⟨_, rfl⟩ | ⟨_, rfl⟩ | ⟨_, rfl⟩ | ⟨_, rfl⟩ | ⟨_, rfl⟩ | ⟨_, rfl⟩
    · exact .inl (by omega)
    · exact .inl (by omega)
    · exact .inl (by omega)
    · exact .inl (by omega)
    · exact .inl (by omega)
    · exact .inr rfl
  | asked _ => trivial
  | tagged => trivial
  | tagset => trivial

theorem terms1_ok {t : Node} {o : Option Entry} (h : Terms1R t o) : ∀ e ∈ o.toList, e.Ok := by
  cases h with
  | one h =>
    intro e he
    cases o with
    | none => simp at he
    | some e' => simp at he; subst he; exact term_okE h
  | pehe _ => simp
  | cehe _ => simp

theorem terms_ok {x : Node} {es : List Entry} (h : TermsR x es) : ∀ e ∈ es, e.Ok := by
  induction h with
  | one h => exact terms1_ok h
  | more _ h ih =>
    intro e he
    rcases List.mem_append.1 he with he | he
    · exact ih e he
    · exact terms1_ok h e he

theorem linked_ok {x : Node} {es : List Entry} (h : LinkedR x es) : ∀ e ∈ es, e.Ok := by
  have one : ∀ {tm : Node} {o : Option Entry}, TermR tm o → ∀ e ∈ o.toList, e.Ok := by
    intro tm o h e he
    cases o with
    | none => simp at he
    | some e' => simp at he; subst he; exact term_okE h
  induction h with
  | last _ h _ => exact one h
  | more _ h _ _ ih =>
    intro e he
    rcases List.mem_append.1 he with he | he
    · exact one h e he
    · exact ih e he

theorem tailR_ok {cs : List Node} {t : Option (List Entry)} (h : TailR cs t) : ∀ e ∈ t.getD [], e.Ok := by
  cases h with
  | none _ => simp
  | vau _ _ => simp
  | terms _ _ h => exact terms_ok h

/-- The vectors of a selbri. -/
def Spec.Share.Ok (s : Share) : Prop := (∀ e ∈ s.pre, e.Ok) ∧ ∀ e ∈ s.post, e.Ok

theorem give_ok {x : Node} {a : Br} (h : BrR x a) {pre post : List Entry} (h1 : ∀ e ∈ pre, e.Ok) (h2 : ∀ e ∈ post, e.Ok) :
    ∀ s ∈ give a pre post, s.Ok := by
  have app : ∀ {l m : List Entry}, (∀ e ∈ l, e.Ok) → (∀ e ∈ m, e.Ok) → ∀ e ∈ l ++ m, e.Ok := by
    intro l m hl hm e he
    rcases List.mem_append.1 he with he | he
    · exact hl e he
    · exact hm e he
  have two : ∀ {l m : List Share}, (∀ s ∈ l, s.Ok) → (∀ s ∈ m, s.Ok) → ∀ s ∈ l ++ m, s.Ok := by
    intro l m hl hm e he
    rcases List.mem_append.1 he with he | he
    · exact hl e he
    · exact hm e he
  induction h generalizing pre post with
  | sub _ _ hh _ _ ih =>
    refine ih (app h1 ?_) h2
    cases hh with
    | none _ => simp
    | terms _ h => exact terms_ok h
  | tail _ ih => exact ih h1 h2
  | tailKe _ _ _ ht _ _ iha ihb => exact two (iha h1 (app (tailR_ok ht) h2)) (ihb h1 (app (tailR_ok ht) h2))
  | tail1 _ ih => exact ih h1 h2
  | tail1and _ _ _ ht _ _ iha ihb => exact two (iha h1 (app (tailR_ok ht) h2)) (ihb h1 (app (tailR_ok ht) h2))
  | tail2 _ ih => exact ih h1 h2
  | tail2and _ _ ht _ _ iha ihb => exact two (iha h1 (app (tailR_ok ht) h2)) (ihb h1 (app (tailR_ok ht) h2))
  | main ht =>
    intro s hs
    rw [give, List.mem_singleton] at hs
    subst hs
    exact ⟨h1, app (tailR_ok ht) h2⟩
  | gek _ _ ht _ _ iha ihb => exact two (iha h1 (app (tailR_ok ht) h2)) (ihb h1 (app (tailR_ok ht) h2))

/-- The vectors and the chain of a word. -/
def Spec.Job.Ok (j : Job) : Prop := (∀ e ∈ j.pre, e.Ok) ∧ (∀ e ∈ j.post, e.Ok) ∧ ∀ e ∈ j.lc, e.Ok

theorem jobs_ok {x : Node} {a : Sb} (h : SbR x a) {pre post : List Entry} {lc : List LC} (h1 : ∀ e ∈ pre, e.Ok)
    (h2 : ∀ e ∈ post, e.Ok) (h3 : ∀ e ∈ lc, e.Ok) : ∀ j ∈ jobs a pre post lc, j.Ok := by
  have two : ∀ {l m : List Job}, (∀ s ∈ l, s.Ok) → (∀ s ∈ m, s.Ok) → ∀ s ∈ l ++ m, s.Ok := by
    intro l m hl hm e he
    rcases List.mem_append.1 he with he | he
    · exact hl e he
    · exact hm e he
  have snoc : ∀ {lc : List LC} {e : LC}, (∀ e ∈ lc, e.Ok) → e.Ok → ∀ x ∈ lc ++ [e], x.Ok := by
    intro lc e hl he x hx
    rcases List.mem_append.1 hx with hx | hx
    · exact hl x hx
    · rw [List.mem_singleton.1 hx]; exact he
  induction h generalizing pre post lc with
  | selbri _ _ ih => exact ih h1 h2 h3
  | selbriCo _ _ _ _ _ iha ihb => exact two (iha h1 (by simp) h3) (ihb (by simp) h2 h3)
  | tanru _ _ ih => exact ih h1 h2 h3
  | conn _ _ _ ih => exact ih h1 h2 h3
  | connMore _ _ _ _ _ iha ihb => exact two (iha h1 h2 h3) (ihb h1 h2 h3)
  | connKe _ _ _ _ _ _ _ iha ihb => exact two (iha h1 h2 h3) (ihb h1 h2 h3)
  | bo _ _ _ ih => exact ih h1 h2 h3
  | boMore _ _ _ _ iha ihb => exact two (iha h1 h2 h3) (ihb h1 h2 h3)
  | unit _ ih => exact ih h1 h2 h3
  | cei _ => intro j hj; cases hj
  | unitBo _ _ _ _ ih => exact ih h1 h2 h3
  | guhek _ _ _ _ _ _ iha ihb => exact two (iha h1 h2 h3) (ihb h1 h2 h3)
  | plain _ ih => exact ih h1 h2 h3
  | linked _ hl ih => exact ih h1 h2 (snoc h3 (linked_ok hl))
  | word _ =>
    intro j hj
    rw [jobs, List.mem_singleton] at hj
    subst hj
    exact ⟨h1, h2, h3⟩
  | ke _ _ ih => exact ih h1 h2 h3
  | se _ hp _ _ ih =>
    refine ih h1 h2 (snoc h3 ?_)
    simp only [sePlaces, List.mem_cons, Prod.mk.injEq, List.not_mem_nil, or_false] at hp
    simp only [LC.Ok]
    rcases hp with ⟨_, rfl⟩ | ⟨_, rfl⟩ | ⟨_, rfl⟩ | ⟨_, rfl⟩ <;> omega
  | jai _ _ ih => exact ih h1 h2 (snoc h3 trivial)
  | jaiTag _ _ _ ih => exact ih h1 h2 (snoc h3 trivial)
  | nahe _ _ ih => exact ih h1 h2 h3
  | nus => intro j hj; cases hj

/-! ## One word -/

/-- What the theorems about places ask for: no `jai` alone, none around a held first place, at most 14 terms
and 19 `jai`. -/
structure Spec.Job.Plain (j : Job) : Prop where
  clean : Clean j.lc
  nojai : LC.jai ∉ j.lc
  few : entries j.lc + j.pre.length + j.post.length ≤ 14
  fewJai : jais j.lc ≤ 19

theorem conv_seen (l : List LC) (n : Nat) : (assignConversion l n).filterMap Ev.seen = [] := by
  have : ∀ (l : List LC) (f : Nat → Nat), (convLoop l f).2.filterMap Ev.seen = [] := by
    intro l
    induction l with
    | nil => intro f; rfl
    | cons e l ih =>
      intro f
      cases e with
      | links es => exact ih f
      | jai => exact ih f
      | jaiTag t u => rfl
      | se c id => simp only [convLoop, List.filterMap_cons, Ev.seen]; exact ih _
  rw [assignConversion, List.filterMap_append, this]; rfl

theorem leaf_places {j : Job} (hok : j.Ok) (hp : j.Plain) :
    ∃ E s, leafRun j = .ok E ∧ Places j.lc j.pre j.post s ∧
      E.filterMap Ev.seen = s.map (fun p => (p.1, headOf j.leaf, p.2.seen)) := by
  obtain ⟨evs, s, h1, h2, h3, h4⟩ := labels_exact hok.2.2 hp.clean hp.nojai hok.1 hok.2.1 (headOf j.leaf) hp.few hp.fewJai
  refine ⟨_, s, by rw [leafRun, h1]; rfl, h2, ?_⟩
  rw [List.filterMap_append]
  have e1 : (((glossOf j.leaf).map (assignConversion j.lc)).getD []).filterMap Ev.seen = [] := by
    cases glossOf j.leaf with
    | none => rfl
    | some n => exact conv_seen _ n
  rw [e1, List.append_nil]
  clear h1 h2 h3
  induction evs generalizing s with
  | nil => cases s with
    | nil => rfl
    | cons _ _ => simp at h4
  | cons e evs ih =>
    cases s with
    | nil => simp at h4
    | cons p s =>
      simp only [List.map_cons, List.cons.injEq] at h4
      rw [List.filterMap_cons, h4.1, List.map_cons]
      simp only
      rw [ih s h4.2]

/-! ## A selbri -/

theorem seen_keep (evs : List Ev) : (evs.filter keep).filterMap Ev.seen = evs.filterMap Ev.seen := by
  induction evs with
  | nil => rfl
  | cons e evs ih =>
    rw [List.filter_cons]
    cases e <;> simp only [keep, if_true, List.filterMap_cons, Ev.seen, ih, Bool.false_eq_true, if_false]

theorem flatMap_filterMap {α β γ : Type} (l : List α) (f : α → List β) (g : β → Option γ) :
    (l.flatMap f).filterMap g = l.flatMap (fun x => (f x).filterMap g) := by
  induction l with
  | nil => rfl
  | cons x l ih => rw [List.flatMap_cons, List.filterMap_append, ih, List.flatMap_cons]

theorem flatMap_congr' {α β : Type} {l : List α} {f g : α → List β} (h : ∀ x ∈ l, f x = g x) : l.flatMap f = l.flatMap g := by
  induction l with
  | nil => rfl
  | cons x l ih =>
    rw [List.flatMap_cons, List.flatMap_cons, h x (List.mem_cons_self ..), ih (fun y hy => h y (List.mem_cons_of_mem _ hy))]

/-- The labels that a word should give. -/
def toldBy (P : Job → List (Nat × Target)) (j : Job) : List (Nat × Head × Option Seen) :=
  (P j).map (fun p => (p.1, headOf j.leaf, p.2.seen))

/-- **A selbri labels its terms**: every word of it that takes terms gives each of them its place. -/
theorem selbri_labels {x : Node} {a : Sb} (h : SbR x a) (hfit : a.Fits) (hch : a.chain ≤ 20) {pre post : List Entry}
    (h1 : ∀ e ∈ pre, e.Ok) (h2 : ∀ e ∈ post, e.Ok) (hp : ∀ j ∈ jobs a pre post [], j.Plain)
    (P : Job → List (Nat × Target)) (hP : ∀ j ∈ jobs a pre post [], Places j.lc j.pre j.post (P j)) :
    ∃ evs, evs.filterMap Ev.seen = (jobs a pre post []).flatMap (toldBy P) ∧
      ∀ fuel, x.depth ≤ fuel → procOf x fuel pre post [] = .ok evs := by
  have hok := jobs_ok h h1 h2 (lc := []) (by simp)
  let E : Job → List Ev := fun j => match leafRun j with
    | .ok e => e
    | .error _ => []
  have hE : ∀ j ∈ jobs a pre post [], leafRun j = .ok (E j) ∧ (E j).filterMap Ev.seen = toldBy P j := by
    intro j hj
    obtain ⟨e, s, e1, e2, e3⟩ := leaf_places (hok j hj) (hp j hj)
    have : E j = e := by simp only [E, e1]
    rw [this]
    refine ⟨e1, ?_⟩
    rw [e3, toldBy, places_det (hP j hj) e2]
  obtain ⟨evs, g1, g2⟩ := selbri_jobs h (pre := pre) (post := post) (lc := []) hfit (by simpa using hch) E (fun j hj => (hE j hj).1)
  refine ⟨evs, ?_, g2⟩
  rw [← seen_keep, g1, flatMap_filterMap]
  exact flatMap_congr' (fun j hj => (hE j hj).2)

/-! ## A sentence -/

/-- The selbri under a `main_selbri`. -/
inductive MainR : Node → Sb → Prop
  | mk {i k cs r a} : SbR (.nt k .selbri cs) a → MainR (.nt i .mainSelbri (.nt k .selbri cs :: r)) a

theorem main_run {ms : Node} {a : Sb} (h : MainR ms a) (hfit : a.Fits) (hch : a.chain ≤ 20) {pre post : List Entry}
    (h1 : ∀ e ∈ pre, e.Ok) (h2 : ∀ e ∈ post, e.Ok) (hp : ∀ j ∈ jobs a pre post [], j.Plain)
    (P : Job → List (Nat × Target)) (hP : ∀ j ∈ jobs a pre post [], Places j.lc j.pre j.post (P j)) :
    ∃ evs, evs.filterMap Ev.seen = (jobs a pre post []).flatMap (toldBy P) ∧
      ∀ fuel, ms.depth ≤ fuel → mainSelbriArgs fuel ms pre (some post) = .ok evs := by
  cases h with
  | @mk i k cs r _ h =>
    obtain ⟨evs, g1, g2⟩ := selbri_labels h hfit hch h1 h2 hp P hP
    refine ⟨.vectors i pre post :: evs, by rw [List.filterMap_cons]; exact g1, fun fuel hf => ?_⟩
    have d := depth_le (List.mem_cons_self .. : Node.nt k .selbri cs ∈ Node.nt k .selbri cs :: r)
    rw [depth_nt (i := i)] at hf
    have := g2 fuel (by omega)
    simp only [procOf] at this
    simp only [mainSelbriArgs, typeCheck_nt, ok_bind, childRef_zero, this, Node.id]
    rfl

/-- The words of a bridi that take terms, each with its terms. -/
def allJobs (S : Share → Sb) (a : Br) : List Job := (give a [] []).flatMap (fun s => jobs (S s) s.pre s.post [])

/-- What is asked of a bridi: `S` names the selbri of each share, and everything is within the limits. -/
structure Spec.Br.Within (S : Share → Sb) (a : Br) : Prop where
  tailed : a.Tailed
  fits : ∀ s ∈ give a [] [], s.Fits
  read : ∀ s ∈ give a [] [], MainR s.ms (S s)
  sbFits : ∀ s ∈ give a [] [], (S s).Fits
  sbChain : ∀ s ∈ give a [] [], (S s).chain ≤ 20
  plain : ∀ j ∈ allJobs S a, j.Plain

theorem bridi_labels_partial {x : Node} {a : Br} (h : BrR x a) {S : Share → Sb} (hw : a.Within S) (P : Job → List (Nat × Target))
    (hP : ∀ j ∈ allJobs S a, Places j.lc j.pre j.post (P j)) :
    ∃ evs, evs.filterMap Ev.seen = (allJobs S a).flatMap (toldBy P) ∧
      ∀ fuel, x.depth ≤ fuel → brProc x fuel [] (some []) = .ok evs := by
  have hok := give_ok h (pre := []) (post := []) (by simp) (by simp)
  have mem : ∀ s ∈ give a [] [], ∀ j ∈ jobs (S s) s.pre s.post [], j ∈ allJobs S a :=
    fun s hs j hj => List.mem_flatMap.2 ⟨s, hs, hj⟩
  have run : ∀ s ∈ give a [] [], ∃ evs, evs.filterMap Ev.seen = (jobs (S s) s.pre s.post []).flatMap (toldBy P) ∧
      ∀ fuel, s.ms.depth ≤ fuel → mainSelbriArgs fuel s.ms s.pre (some s.post) = .ok evs := fun s hs =>
    main_run (hw.read s hs) (hw.sbFits s hs) (hw.sbChain s hs) (hok s hs).1 (hok s hs).2
      (fun j hj => hw.plain j (mem s hs j hj)) P (fun j hj => hP j (mem s hs j hj))
  let R : Share → List Ev := fun s => match mainSelbriArgs s.ms.depth s.ms s.pre (some s.post) with
    | .ok e => e
    | .error _ => []
  have hR : ∀ s ∈ give a [] [], (R s).filterMap Ev.seen = (jobs (S s) s.pre s.post []).flatMap (toldBy P) ∧
      ∀ fuel, s.ms.depth ≤ fuel → mainSelbriArgs fuel s.ms s.pre (some s.post) = .ok (R s) := by
    intro s hs
    obtain ⟨evs, e1, e2⟩ := run s hs
    have : R s = evs := by simp only [R, e2 _ (Nat.le_refl _)]
    rw [this]; exact ⟨e1, e2⟩
  refine ⟨(give a [] []).flatMap R, ?_, bridi_shares_partial h hw.tailed hw.fits R (fun s hs => (hR s hs).2)⟩
  rw [flatMap_filterMap, allJobs, List.flatMap_assoc]
  exact flatMap_congr' (fun s hs => (hR s hs).1)

/-- The bridi of a `statement_3`. -/
inductive StmtR : Node → Br → Prop
  | mk {i s cs h bt bts a} : BodyR s cs → HeadR cs h → kids cs .bridiTail = bt :: bts → BrR bt a →
      StmtR (.nt i .statement3 [s]) (.under h a)

/-- **Every term of a sentence is labelled with the places it fills**, at every selbri that it belongs to, and
nothing else is labelled. -/
theorem statement_labels_partial {x : Node} {a : Br} (h : StmtR x a) {S : Share → Sb} (hw : a.Within S) (P : Job → List (Nat × Target))
    (hP : ∀ j ∈ allJobs S a, Places j.lc j.pre j.post (P j)) :
    ∃ evs, evs.filterMap Ev.seen = (allJobs S a).flatMap (toldBy P) ∧
      ∀ fuel, x.depth ≤ fuel → statement3Args fuel x = .ok evs := by
  cases h with
  | @mk i s cs h bt bts a hb hh hk ha =>
    have key : BrR (.nt 0 .subsentence [s]) (.under h a) := .sub .here hb hh hk ha
    obtain ⟨evs, e1, e2⟩ := bridi_labels_partial key hw P hP
    refine ⟨evs, e1, fun fuel hf => ?_⟩
    have := e2 (fuel + 1) (by rw [depth_nt] at hf ⊢; omega)
    obtain ⟨i', j, t, es, rfl, b1, b2⟩ := body_find hb
    have b3 : innerSentence fuel (.nt 0 .subsentence [.nt i' .sentence es]) = .ok (.nt i' .sentence es) := by
      cases fuel with
      | zero => rw [depth_nt] at hf; omega
      | succ fuel => rfl
    simp only [brProc, subsentenceArgs, typeCheck_nt, ok_bind, b3, b1] at this
    simp only [statement3Args, typeCheck_nt, Node.children, ok_bind, b1]
    cases hh with
    | none k => simp only [findNth_none k, findNth_some hk, asserted, ok_bind] at this ⊢; exact this
    | terms k kt =>
      simp only [findNth_some k, findNth_some hk, asserted, ok_bind] at this ⊢
      have d5 := kids_depth k
      obtain ⟨sh, hs, hs1, _⟩ := give_len a ([] ++ h) []
      have hf1 := (hw.fits sh hs).1
      rw [List.length_append] at hs1
      have dd := depth_le (List.mem_singleton.2 rfl : Node.nt i' .sentence es ∈ [Node.nt i' .sentence es])
      rw [depth_nt] at hf
      have hv := terms_vector kt (by simp only [List.length_nil] at hs1; omega) fuel (by omega)
      rw [hv] at this ⊢
      simp only [ok_bind] at this ⊢
      rw [tvCatenate, if_pos (by simp only [List.length_nil] at hs1 ⊢; omega)] at this
      exact this

/-- The same inside an abstraction. -/
theorem abstraction_labels_partial {i : Nat} {n x : Node} {cs : List Node} {a : Br} (h : BrR x a) (hx : ∃ k ds, x = .nt k .subsentence ds)
    {S : Share → Sb} (hw : a.Within S) (P : Job → List (Nat × Target)) (hP : ∀ j ∈ allJobs S a, Places j.lc j.pre j.post (P j)) :
    ∃ evs, evs.filterMap Ev.seen = (allJobs S a).flatMap (toldBy P) ∧
      ∀ fuel, x.depth ≤ fuel → abstractionArgs fuel (.nt i .abstraction (n :: x :: cs)) = .ok evs := by
  obtain ⟨k, ds, rfl⟩ := hx
  obtain ⟨evs, e1, e2⟩ := bridi_labels_partial h hw P hP
  refine ⟨evs, e1, fun fuel hf => ?_⟩
  simp only [abstractionArgs, childRef_one, typeCheck_nt, ok_bind]
  exact e2 fuel hf

/-- The same in a relative clause. -/
theorem relative_labels_partial {i r : Nat} {t : NT} {x : Node} {xs cs ds : List Node} {a : Br} (hk : kids ds .subsentence = x :: xs) (h : BrR x a)
    {S : Share → Sb} (hw : a.Within S) (P : Job → List (Nat × Target)) (hP : ∀ j ∈ allJobs S a, Places j.lc j.pre j.post (P j)) :
    ∃ evs, evs.filterMap Ev.seen = (allJobs S a).flatMap (toldBy P) ∧
      ∀ fuel, x.depth ≤ fuel → relativeClauseArgs fuel (.nt i t (.nt r .fullRelativeClause ds :: cs)) = .ok evs := by
  obtain ⟨_, k, es, rfl⟩ := kids_mem hk
  obtain ⟨evs, e1, e2⟩ := bridi_labels_partial h hw P hP
  refine ⟨evs, e1, fun fuel hf => ?_⟩
  simp only [relativeClauseArgs, childRef_zero, ok_bind]
  rw [if_pos (by rfl)]
  simp only [findNth_some hk, ok_bind]
  exact e2 fuel hf

/-- Every job of a bridi within the limits has places, and only one way to fill them. -/
theorem all_places {x : Node} {a : Br} (h : BrR x a) {S : Share → Sb} (hw : a.Within S) :
    ∃ P : Job → List (Nat × Target), ∀ j ∈ allJobs S a, Places j.lc j.pre j.post (P j) ∧ ∀ s, Places j.lc j.pre j.post s → s = P j := by
  have hok := give_ok h (pre := []) (post := []) (by simp) (by simp)
  have key : ∀ j ∈ allJobs S a, ∃ s, Places j.lc j.pre j.post s := by
    intro j hj
    obtain ⟨s, hs, hj'⟩ := List.mem_flatMap.1 hj
    have hm : ∃ y, SbR y (S s) := by
      have := hw.read s hs
      generalize s.ms = ms at this
      cases this with
      | mk h => exact ⟨_, h⟩
    obtain ⟨y, hy⟩ := hm
    have hjo := jobs_ok hy (hok s hs).1 (hok s hs).2 (lc := []) (by simp) j hj'
    obtain ⟨_, p, _, hp, _⟩ := leaf_places hjo (hw.plain j hj)
    exact ⟨p, hp⟩
  classical
  refine ⟨fun j => if hj : j ∈ allJobs S a then (key j hj).choose else [], fun j hj => ?_⟩
  simp only [dif_pos hj]
  exact ⟨(key j hj).choose_spec, fun s hs => places_det hs (key j hj).choose_spec⟩

/-- **Every sentence within the limits is labelled in the one right way.**  Missing: `gi'e … ke` without terms
after it, `jai` alone, more than 14 terms. -/
theorem statement_exact_partial {x : Node} {a : Br} (h : StmtR x a) {S : Share → Sb} (hw : a.Within S) :
    ∃ P : Job → List (Nat × Target),
      (∀ j ∈ allJobs S a, Places j.lc j.pre j.post (P j) ∧ ∀ s, Places j.lc j.pre j.post s → s = P j) ∧
      ∃ evs, evs.filterMap Ev.seen = (allJobs S a).flatMap (toldBy P) ∧
        ∀ fuel, x.depth ≤ fuel → statement3Args fuel x = .ok evs := by
  have hb : ∃ y, BrR y a := by
    cases h with
    | @mk i s cs h bt bts a hb hh hk ha => exact ⟨_, .sub .here hb hh hk ha (ss := .nt 0 .subsentence [s])⟩
  obtain ⟨y, hy⟩ := hb
  obtain ⟨P, hP⟩ := all_places hy hw
  exact ⟨P, hP, statement_labels_partial h hw P (fun j hj => (hP j hj).1)⟩

end Jbo.Terms
