import Verif.OutputNum
/-!
# The numbers in labels

A label of a term can show the number of a bracket (`#n`): of the sumti after `me`, of the operator after `nu'a`, of the
number before `moi`, of a compound with `zei`, of the unit after `jai` with a tag (`output.c:865-957`).
-/

namespace Jbo.Output
open Jbo.Terms Jbo.Gram Jbo.Output.Spec

/-! ## Where labels come from -/

/-- The term of an entry. -/
def entryId : Entry → Nat
  | .pos i | .fa _ i | .fiha i | .tag i => i

/-- The terms that are linked in a chain. -/
def linkIds (lc : List LC) : List Nat := lc.flatMap fun
  | .links es => es.map entryId
  | _ => []

/-- The tags in the places are those of the chain. -/
def Tagged (lc : List LC) (a : Arrays) : Prop :=
  ∀ k tg u, (a.place k).type = .tag tg u ∨ (a.fai k).type = .tag tg u → .jaiTag tg u ∈ lc

/-- What a label has that is made for a word with this chain and these terms. -/
def Made (h : Head) (lc : List LC) (ts : List Nat) (evs : List Ev) : Prop :=
  ∀ e ∈ evs, ∃ t l, e = .label t l ∧ l.head = h ∧ (∀ tg u, l.jai = some (tg, u) → .jaiTag tg u ∈ lc) ∧ t ∈ ts

theorem made_nil (h : Head) (lc : List LC) (ts : List Nat) : Made h lc ts [] := fun _ hm => absurd hm List.not_mem_nil

theorem made_append {h : Head} {lc : List LC} {ts : List Nat} {a b : List Ev} (ha : Made h lc ts a) (hb : Made h lc ts b) : Made h lc ts (a ++ b) :=
  fun e hm => (List.mem_append.1 hm).elim (ha e) (hb e)

theorem made_mono {h : Head} {lc lc' : List LC} {ts ts' : List Nat} {a : List Ev} (ha : Made h lc ts a)
    (hl : ∀ tg u, .jaiTag tg u ∈ lc → LC.jaiTag tg u ∈ lc') (ht : ∀ t ∈ ts, t ∈ ts') : Made h lc' ts' a := by
  intro e hm
  obtain ⟨t, l, h1, h2, h3, h4⟩ := ha e hm
  exact ⟨t, l, h1, h2, fun tg u hj => hl _ _ (h3 _ _ hj), ht _ h4⟩

theorem made_fixup {h : Head} {lc : List LC} {ts : List Nat} {pl : Place} {i : Nat} {evs : List Ev} (hp : ∀ tg u, pl.type = .tag tg u → .jaiTag tg u ∈ lc)
    (hi : i ∈ ts) (he : Made h lc ts evs) : Made h lc ts (fixup i pl h :: evs) := by
  intro e hm
  rcases List.mem_cons.1 hm with rfl | hm
  · refine ⟨i, _, rfl, rfl, fun tg u hj => hp tg u ?_, hi⟩
    simp only at hj
    split at hj
    · cases hj
    · rename_i t' u' hpt; cases hj; exact hpt
  · exact he e hm

theorem at_type {f : Nat → Place} {k : Nat} {pl : Place} (h : at_ f k = .ok pl) : pl = f k := by
  unfold at_ at h
  split at h
  · cases h; rfl
  · cases h

theorem tagged_take {lc : List LC} {a : Arrays} (h : Tagged lc a) (k : Nat) (b : Bool) :
    Tagged lc { a with place := put a.place k { a.place k with taken := b } } ∧ Tagged lc { a with fai := put a.fai k { a.fai k with taken := b } } := by
  constructor <;> intro j tg u hj <;> refine h j tg u ?_ <;> simp only [put] at hj ⊢ <;> split at hj <;> (try subst_vars) <;> exact hj

theorem made_fa {h : Head} {lc : List LC} : ∀ {es : List Entry} {a b : Arrays} {evs : List Ev}, assignFa h es a = .ok (b, evs) → Tagged lc a →
    Made h lc (es.map entryId) evs ∧ Tagged lc b
  | [], a, b, evs, hr, ht => by cases hr; exact ⟨made_nil _ _ _, ht⟩
  | e :: es, a, b, evs, hr, ht => by
    have up : ∀ {l : List Ev}, Made h lc (es.map entryId) l → Made h lc ((e :: es).map entryId) l := fun hl =>
      made_mono hl (fun _ _ x => x) fun t hm => List.mem_cons_of_mem _ hm
    cases e with
    | fa p i =>
      rw [assignFa] at hr
      split at hr
      · obtain ⟨pl, h1, h2⟩ := bind_ok.1 hr
        have := at_type h1
        subst this
        split at h2
        · obtain ⟨⟨b', evs'⟩, h3, h4⟩ := bind_ok.1 h2
          cases h4
          obtain ⟨h5, h6⟩ := made_fa h3 (tagged_take ht p true).1
          exact ⟨made_fixup (fun tg u he => ht p tg u (.inl he)) (by simp [entryId]) (up h5), h6⟩
        · obtain ⟨h5, h6⟩ := made_fa h2 ht
          exact ⟨up h5, h6⟩
      · obtain ⟨pl, h1, h2⟩ := bind_ok.1 hr
        have := at_type h1
        subst this
        split at h2
        · obtain ⟨⟨b', evs'⟩, h3, h4⟩ := bind_ok.1 h2
          cases h4
          obtain ⟨h5, h6⟩ := made_fa h3 (tagged_take ht _ true).2
          exact ⟨made_fixup (fun tg u he => ht _ tg u (.inr he)) (by simp [entryId]) (up h5), h6⟩
        · obtain ⟨h5, h6⟩ := made_fa h2 ht
          exact ⟨up h5, h6⟩
    | pos i => obtain ⟨h5, h6⟩ := made_fa (es := es) hr ht; exact ⟨up h5, h6⟩
    | fiha i => obtain ⟨h5, h6⟩ := made_fa (es := es) hr ht; exact ⟨up h5, h6⟩
    | tag i => obtain ⟨h5, h6⟩ := made_fa (es := es) hr ht; exact ⟨up h5, h6⟩

theorem made_pos {h : Head} {lc : List LC} : ∀ {es : List Entry} {k : Nat} {a b : Arrays} {evs : List Ev}, assignPos h es k a = .ok (b, evs) → Tagged lc a →
    Made h lc (es.map entryId) evs ∧ Tagged lc b
  | [], k, a, b, evs, hr, ht => by cases hr; exact ⟨made_nil _ _ _, ht⟩
  | e :: es, k, a, b, evs, hr, ht => by
    have up : ∀ {l : List Ev}, Made h lc (es.map entryId) l → Made h lc ((e :: es).map entryId) l := fun hl =>
      made_mono hl (fun _ _ x => x) fun t hm => List.mem_cons_of_mem _ hm
    cases e with
    | pos i =>
      rw [assignPos] at hr
      obtain ⟨q, h1, h2⟩ := bind_ok.1 hr
      obtain ⟨⟨b', evs'⟩, h3, h4⟩ := bind_ok.1 h2
      cases h4
      obtain ⟨h5, h6⟩ := made_pos h3 (tagged_take ht q true).1
      exact ⟨made_fixup (fun tg u he => ht q tg u (.inl he)) (by simp [entryId]) (up h5), h6⟩
    | fa p i => rw [assignPos] at hr; obtain ⟨h5, h6⟩ := made_pos (es := es) hr ht; exact ⟨up h5, h6⟩
    | fiha i => rw [assignPos] at hr; obtain ⟨h5, h6⟩ := made_pos (es := es) hr ht; exact ⟨up h5, h6⟩; all_goals simp
    | tag i => rw [assignPos] at hr; obtain ⟨h5, h6⟩ := made_pos (es := es) hr ht; exact ⟨up h5, h6⟩; all_goals simp

theorem made_terms {h : Head} {lc : List LC} {es : List Entry} {k : Nat} {a b : Arrays} {evs : List Ev} (hr : assignTerms h es k a = .ok (b, evs))
    (ht : Tagged lc a) : Made h lc (es.map entryId) evs ∧ Tagged lc b := by
  rw [assignTerms] at hr
  obtain ⟨⟨a', e1⟩, h1, h2⟩ := bind_ok.1 hr
  obtain ⟨⟨a'', e2⟩, h3, h4⟩ := bind_ok.1 h2
  cases h4
  obtain ⟨h5, h6⟩ := made_fa h1 ht
  obtain ⟨h7, h8⟩ := made_pos h3 h6
  exact ⟨made_append h5 h7, h8⟩

theorem tagged_shift {lc : List LC} {a : Arrays} (h : Tagged lc a) {f : Nat → Place} (hf : faiShift a = .ok f) {k tg u : Nat}
    (he : (f k).type = .tag tg u) : .jaiTag tg u ∈ lc := by
  rw [faiShift] at hf
  obtain ⟨j, h1, h2⟩ := bind_ok.1 hf
  cases h2
  simp only [put] at he
  split at he
  · exact h _ _ _ (.inl he)
  · split at he
    · exact h _ _ _ (.inr he)
    · exact h _ _ _ (.inr he)

theorem made_chain {h : Head} : ∀ {lc : List LC} {b : Arrays} {evs : List Ev}, chain h lc .init = .ok (b, evs) →
    Made h lc (linkIds lc) evs ∧ Tagged lc b
  | [], b, evs, hr => by
    cases hr
    refine ⟨made_nil _ _ _, fun k tg u he => ?_⟩
    rcases he with he | he <;> cases he
  | e :: lc, b, evs, hr => by
    rw [chain] at hr
    obtain ⟨⟨a, e1⟩, h1, h2⟩ := bind_ok.1 hr
    obtain ⟨⟨a', e2⟩, h3, h4⟩ := bind_ok.1 h2
    cases h4
    obtain ⟨h5, h6⟩ := made_chain h1
    have t6 : Tagged (e :: lc) a := fun k tg u he => List.mem_cons_of_mem _ (h6 k tg u he)
    have h5' : Made h (e :: lc) (linkIds (e :: lc)) e1 := made_mono h5 (fun _ _ x => List.mem_cons_of_mem _ x) fun t hm => by
      rw [linkIds, List.flatMap_cons]; exact List.mem_append.2 (.inr hm)
    cases e with
    | se c i =>
      cases h3
      refine ⟨by rw [List.append_nil]; exact h5', fun k tg u he => ?_⟩
      simp only [swap1, put] at he
      rcases he with he | he
      · split at he
        · exact t6 _ _ _ (.inl he)
        · split at he <;> exact t6 _ _ _ (.inl he)
      · exact t6 _ _ _ (.inr he)
    | links es =>
      obtain ⟨h7, h8⟩ := made_terms h3 t6
      refine ⟨made_append h5' (made_mono h7 (fun _ _ x => x) fun t hm => ?_), h8⟩
      rw [linkIds, List.flatMap_cons]; exact List.mem_append.2 (.inl hm)
    | jai =>
      obtain ⟨f, h7, h8⟩ := bind_ok.1 h3
      cases h8
      refine ⟨by rw [List.append_nil]; exact h5', fun k tg u he => ?_⟩
      rcases he with he | he
      · simp only [put] at he
        split at he
        · cases he
        · exact t6 _ _ _ (.inl he)
      · exact tagged_shift t6 h7 he
    | jaiTag tg' u' =>
      obtain ⟨f, h7, h8⟩ := bind_ok.1 h3
      cases h8
      refine ⟨by rw [List.append_nil]; exact h5', fun k tg u he => ?_⟩
      rcases he with he | he
      · simp only [put] at he
        split at he
        · cases he; exact List.mem_cons_self ..
        · exact t6 _ _ _ (.inl he)
      · exact tagged_shift t6 h7 he

/-- The labels that `assign_places` makes. -/
theorem made_places {h : Head} {pre post : List Entry} {lc : List LC} {evs : List Ev} (hr : assignPlaces pre post lc h = .ok evs) :
    Made h lc (linkIds lc ++ (pre ++ post).map entryId) evs := by
  rw [assignPlaces] at hr
  obtain ⟨⟨a, e1⟩, h1, h2⟩ := bind_ok.1 hr
  obtain ⟨⟨a', e2⟩, h3, h4⟩ := bind_ok.1 h2
  obtain ⟨⟨a'', e3⟩, h5, h6⟩ := bind_ok.1 h4
  cases h6
  obtain ⟨m1, t1⟩ := made_chain h1
  obtain ⟨m2, t2⟩ := made_terms h3 t1
  obtain ⟨m3, _⟩ := made_terms h5 t2
  refine made_append (made_append (made_mono m1 (fun _ _ x => x) fun t hm => List.mem_append.2 (.inl hm))
    (made_mono m2 (fun _ _ x => x) fun t hm => ?_)) (made_mono m3 (fun _ _ x => x) fun t hm => ?_)
  · rw [List.map_append]; exact List.mem_append.2 (.inr (List.mem_append.2 (.inl hm)))
  · rw [List.map_append]; exact List.mem_append.2 (.inr (List.mem_append.2 (.inr hm)))

/-! ## What labels point to -/

/-- The term is linked with `be` or `bei` to a unit inside. -/
def Linked (x : Node) (t : Nat) : Prop :=
  ∃ i u cs c, (u = .linkargs ∨ u = .links) ∧ Sub x (.nt i u cs) ∧ c ∈ cs ∧ c.isNT .term = true ∧ c.id = t

/-- The tag and the unit are those of a `jai` with a tag inside. -/
def OfJai (x : Node) (tg u : Nat) : Prop :=
  (∃ cs, Sub x (.nt u .tanruUnit2 cs)) ∧ ∃ q ds c cs, Sub x (.nt q .jaiTagTu2 ds) ∧ c ∈ ds ∧ c = .nt tg .tag cs

/-- The label points to nodes inside of `x`, or to those of the chain, for which brackets are required. -/
structure Fit (x : Node) (lc : List LC) (evs : List Ev) (t : Nat) (l : Label) : Prop where
  jai : ∀ tg u, l.jai = some (tg, u) → .jaiTag tg u ∈ lc ∨ (.brac u ∈ evs ∧ OfJai x tg u)
  me : ∀ s, l.head = .me s → .brac s ∈ evs ∧ ∃ cs, Sub x (.nt s .sumti cs)
  nuha : ∀ s, l.head = .nuha s → .brac s ∈ evs ∧ ∃ cs, Sub x (.nt s .mexOperator cs)
  moi : ∀ n m, l.head = .numberMoi n m → (∃ i c cs, Sub x (.nt i .numberMoiTu2 (c :: cs)) ∧ c.id = n) ∧
    (.brac n ∈ evs ∨ t ∈ linkIds lc ∨ Linked x t)
  zei : ∀ z, l.head = .zei z → Sub x (.zei z)

def Good (x : Node) (lc : List LC) (evs : List Ev) : Prop := ∀ t l, .label t l ∈ evs → Fit x lc evs t l

theorem linked_up {x y : Node} {t : Nat} (h : Sub x y) (hl : Linked y t) : Linked x t := by
  obtain ⟨i, u, cs, c, h1, h2, h3⟩ := hl
  exact ⟨i, u, cs, c, h1, sub_trans h h2, h3⟩

theorem fit_mono {x y : Node} {lc : List LC} {a b : List Ev} {t : Nat} {l : Label} (hs : Sub x y) (hm : ∀ e ∈ a, e ∈ b) (h : Fit y lc a t l) :
    Fit x lc b t l where
  jai tg u hj := (h.jai tg u hj).imp id fun ⟨h1, ⟨cs, h2⟩, q, ds, c, es, h3, h4⟩ => ⟨hm _ h1, ⟨cs, sub_trans hs h2⟩, q, ds, c, es, sub_trans hs h3, h4⟩
  me s he := let ⟨h1, cs, h2⟩ := h.me s he; ⟨hm _ h1, cs, sub_trans hs h2⟩
  nuha s he := let ⟨h1, cs, h2⟩ := h.nuha s he; ⟨hm _ h1, cs, sub_trans hs h2⟩
  moi n m he := let ⟨⟨i, c, cs, h1, h2⟩, h3⟩ := h.moi n m he
    ⟨⟨i, c, cs, sub_trans hs h1, h2⟩, h3.imp (hm _) (Or.imp id (linked_up hs))⟩
  zei z he := sub_trans hs (h.zei z he)

theorem good_up {x y : Node} {lc : List LC} {a : List Ev} (hs : Sub x y) (h : Good y lc a) : Good x lc a :=
  fun t l hm => fit_mono hs (fun _ x => x) (h t l hm)

theorem good_append {x : Node} {lc : List LC} {a b : List Ev} (ha : Good x lc a) (hb : Good x lc b) : Good x lc (a ++ b) := by
  intro t l hm
  rcases List.mem_append.1 hm with hm | hm
  · exact fit_mono .refl (fun _ x => List.mem_append.2 (.inl x)) (ha t l hm)
  · exact fit_mono .refl (fun _ x => List.mem_append.2 (.inr x)) (hb t l hm)

/-- No labels. -/
def isLabel : Ev → Bool
  | .label .. => true
  | _ => false

theorem good_none {x : Node} {lc : List LC} {a : List Ev} (h : ∀ e ∈ a, isLabel e = false) : Good x lc a :=
  fun t l hm => absurd (h _ hm) (by simp [isLabel])

theorem good_nil {x : Node} {lc : List LC} : Good x lc [] := good_none fun _ hm => absurd hm List.not_mem_nil

theorem conv_none (lc : List LC) (i : Nat) : ∀ e ∈ assignConversion lc i, isLabel e = false := by
  have go : ∀ (l : List LC) (f : Nat → Nat), ∀ e ∈ (convLoop l f).2, isLabel e = false := by
    intro l
    induction l with
    | nil => intro f e hm; exact absurd hm List.not_mem_nil
    | cons c l ih =>
      intro f
      cases c with
      | se k j =>
        intro e hm
        rcases List.mem_cons.1 hm with rfl | hm
        · rfl
        · exact ih _ e hm
      | links es => exact ih f
      | jai => exact ih f
      | jaiTag t u => intro e hm; exact absurd hm List.not_mem_nil
  intro e hm
  rcases List.mem_append.1 hm with hm | hm
  · exact go _ _ e hm
  · rw [List.mem_singleton.1 hm]; rfl

/-- A chain with more in it that is not about labels. -/
theorem good_chain {x : Node} {lc lc' : List LC} {a : List Ev} (h : Good x lc' a) (hj : ∀ tg u, .jaiTag tg u ∈ lc' → LC.jaiTag tg u ∈ lc ∨
    (.brac u ∈ a ∧ OfJai x tg u)) (hl : ∀ t ∈ linkIds lc', t ∈ linkIds lc ∨ Linked x t) : Good x lc a := by
  intro t l hm
  have f := h t l hm
  exact { f with
    jai := fun tg u he => (f.jai tg u he).elim (hj tg u) .inr
    moi := fun n m he => ⟨(f.moi n m he).1, (f.moi n m he).2.elim .inl fun h => .inr (h.elim (fun k => hl t k) .inr)⟩ }

/-- The labels of a word of some kind. -/
theorem good_made {x : Node} {h : Head} {pre post : List Entry} {lc : List LC} {evs more less : List Ev} (hr : assignPlaces pre post lc h = .ok evs)
    (hless : ∀ e ∈ less, isLabel e = false) (hmore : ∀ e ∈ more, isLabel e = false)
    (me : ∀ s, h = .me s → .brac s ∈ less ++ evs ++ more ∧ ∃ cs, Sub x (.nt s .sumti cs))
    (nuha : ∀ s, h = .nuha s → .brac s ∈ less ++ evs ++ more ∧ ∃ cs, Sub x (.nt s .mexOperator cs))
    (moi : ∀ n m, h = .numberMoi n m → (∃ i c cs, Sub x (.nt i .numberMoiTu2 (c :: cs)) ∧ c.id = n) ∧ (.brac n ∈ less ++ evs ++ more ∨ pre ++ post = []))
    (zei : ∀ z, h = .zei z → Sub x (.zei z)) : Good x lc (less ++ evs ++ more) := by
  intro t l hm
  have hm : Ev.label t l ∈ evs := by
    rcases List.mem_append.1 hm with hm | hm
    · rcases List.mem_append.1 hm with hm | hm
      · exact absurd (hless _ hm) (by simp [isLabel])
      · exact hm
    · exact absurd (hmore _ hm) (by simp [isLabel])
  obtain ⟨t', l', e, h1, h2, h3⟩ := made_places hr _ hm
  cases e
  refine ⟨fun tg u hj => .inl (h2 tg u hj), fun s hs => me s (h1 ▸ hs), fun s hs => nuha s (h1 ▸ hs), fun n m hs => ?_, fun z hz => zei z (h1 ▸ hz)⟩
  obtain ⟨h4, h5⟩ := moi n m (h1 ▸ hs)
  refine ⟨h4, h5.imp id fun h6 => .inl ?_⟩
  rw [h6] at h3
  simpa using h3

/-! ## Access to children -/

theorem child_sub {x c : Node} {i : Nat} (h : childRef x i = .ok c) : Sub x c := by
  rw [childRef] at h
  obtain ⟨cs, h1, h2⟩ := bind_ok.1 h
  cases x with
  | nt j t ds =>
    cases h1
    split at h2
    · rename_i d hd
      cases h2
      exact .child (List.mem_of_getElem? hd) .refl
    · cases h2
  | _ => cases h1

theorem find_sub {x : Node} {n : Nat} {t : NT} {o : Option Node} (h : findNth x n t = .ok o) : ∀ c, o = some c →
    (∃ j u ds, x = .nt j u ds ∧ c ∈ ds) ∧ ∃ cs, c = .nt c.id t cs := by
  intro c hc
  rw [findNth] at h
  obtain ⟨cs, h1, h2⟩ := bind_ok.1 h
  cases h2
  cases x with
  | nt j u ds =>
    cases h1
    have hm := List.mem_filter.1 (List.mem_of_getElem? hc)
    refine ⟨⟨j, u, _, rfl, hm.1⟩, ?_⟩
    cases c with
    | nt k v es =>
      have : v = t := by simpa [Node.isNT] using hm.2
      exact ⟨es, by rw [this]; rfl⟩
    | _ => simp [Node.isNT] at hm
  | _ => cases h1

theorem asserted_ok {o : Option Node} {c : Node} (h : asserted o = .ok c) : o = some c := by
  cases o with
  | none => cases h
  | some d => cases h; rfl

theorem deref_ok {o : Option Node} {c : Node} (h : deref o = .ok c) : o = some c := by
  cases o with
  | none => cases h
  | some d => cases h; rfl

theorem sub_kid {x c : Node} (h : ∃ j u ds, x = .nt j u ds ∧ c ∈ ds) : Sub x c := by
  obtain ⟨j, u, ds, rfl, hm⟩ := h
  exact .child hm .refl

theorem skip_mem {c : Node} : ∀ {cs : List Node}, skipBahe cs = .ok c → c ∈ cs
  | [], h => by cases h
  | d :: cs, h => by
    unfold skipBahe at h
    split at h
    · rename_i e1; cases e1; exact List.mem_cons_of_mem _ (skip_mem h)
    · rename_i e1; cases e1; cases h; exact List.mem_cons_self ..
    · rename_i e1; cases e1

theorem strip_sub {x c : Node} (h : maybeStrip x = .ok c) : Sub x c := by
  unfold maybeStrip at h
  split at h
  · unfold stripAttitudinal at h
    split at h
    · cases h; exact .refl
    · exact .child (skip_mem h) .refl
    · cases h
    · cases h
  · cases h; exact .refl

theorem append_ok {lc lc' : List LC} {e : LC} (h : lcAppend lc e = .ok lc') : lc' = lc ++ [e] := by
  unfold lcAppend at h
  split at h
  · cases h; rfl
  · cases h

theorem check_nt {x : Node} {t : NT} {r : Unit} (h : typeCheck x t = .ok r) : ∃ i cs, x = .nt i t cs := by
  unfold typeCheck at h
  split at h
  · rename_i he
    cases x with
    | nt i u cs => have : u = t := by simpa [Node.isNT] using he
                   exact ⟨i, cs, by rw [this]⟩
    | _ => simp [Node.isNT] at he
  · cases h

/-! ## Linked terms -/

theorem entry_id {t : Node} {o : Option Entry} (h : entryOf t = .ok o) : ∀ e, o = some e → entryId e = t.id := by
  intro e he
  rw [entryOf] at h
  obtain ⟨tc, h1, h2⟩ := bind_ok.1 h
  obtain ⟨u, h3, h4⟩ := bind_ok.1 h2
  split at h4
  · cases h4; cases he; rfl
  · obtain ⟨c, h5, h6⟩ := bind_ok.1 h4
    obtain ⟨p, h7, h8⟩ := bind_ok.1 h6
    cases h8
    cases he
    split <;> rfl
  · cases h4; cases he; rfl
  · cases h4; cases he; rfl
  · cases h4; cases he

theorem store_mem {vv v : List Entry} {o : Option Entry} (h : store vv o = .ok v) : ∀ e ∈ v, e ∈ vv ∨ o = some e := by
  cases o with
  | none => cases h; exact fun e hm => .inl hm
  | some d =>
    unfold store at h
    simp only at h
    split at h
    · cases h
      intro e hm
      rcases List.mem_append.1 hm with hm | hm
      · exact .inl hm
      · rw [List.mem_singleton.1 hm]; exact .inr rfl
    · cases h

theorem link_loop : ∀ (fuel : Nat) {la : Node} {tv v : List Entry}, linkLoop fuel la tv = .ok v →
    (∃ i u cs, la = .nt i u cs ∧ (u = .linkargs ∨ u = .links)) → ∀ e ∈ v, e ∈ tv ∨ Linked la (entryId e)
  | 0, la, tv, v, h, _ => by cases h
  | fuel + 1, la, tv, v, h, ⟨i, u, cs, hla, hu⟩ => by
    rw [linkLoop] at h
    obtain ⟨o, h1, h2⟩ := bind_ok.1 h
    obtain ⟨tm, h3, h4⟩ := bind_ok.1 h2
    obtain ⟨lk, h5, h6⟩ := bind_ok.1 h4
    obtain ⟨eo, h7, h8⟩ := bind_ok.1 h6
    obtain ⟨tv', h9, h10⟩ := bind_ok.1 h8
    obtain ⟨⟨j, w, ds, e1, hm⟩, ⟨es, e2⟩⟩ := find_sub h1 tm (asserted_ok h3)
    have new : ∀ e ∈ tv', e ∈ tv ∨ Linked la (entryId e) := by
      intro e he
      rcases store_mem h9 e he with he | he
      · exact .inl he
      · refine .inr ⟨i, u, cs, tm, hu, by rw [hla]; exact .refl, ?_, by rw [e2]; simp [Node.isNT], (entry_id h7 e he).symm⟩
        rw [hla] at e1; cases e1; exact hm
    cases lk with
    | none => cases h10; exact new
    | some la' =>
      obtain ⟨hk, ⟨es', e3⟩⟩ := find_sub h5 la' rfl
      intro e he
      rcases link_loop fuel h10 ⟨_, _, _, e3, .inr rfl⟩ e he with he | he
      · exact new e he
      · exact .inr (linked_up (sub_kid hk) he)

theorem links_linked {fuel : Nat} {tu1 : Node} {v : List Entry} (h : linksOf fuel tu1 = .ok (some v)) : ∀ e ∈ v, Linked tu1 (entryId e) := by
  rw [linksOf] at h
  obtain ⟨_, _, h2⟩ := bind_ok.1 h
  obtain ⟨cs, h3, h4⟩ := bind_ok.1 h2
  split at h4
  · obtain ⟨la, h5, h6⟩ := bind_ok.1 h4
    obtain ⟨_, h7, h8⟩ := bind_ok.1 h6
    obtain ⟨v', h9, h10⟩ := bind_ok.1 h8
    cases h10
    obtain ⟨i, cs', e1⟩ := check_nt h7
    intro e he
    rcases link_loop fuel h9 ⟨_, _, _, e1, .inl rfl⟩ e he with he | he
    · exact absurd he List.not_mem_nil
    · exact linked_up (child_sub h5) he
  · cases h4

/-! ## Down into the selbri -/

theorem selbri2_sub : ∀ (fuel : Nat) {x c : Node}, findSelbri2 fuel x = .ok c → Sub x c
  | 0, x, c, h => by cases h
  | fuel + 1, x, c, h => by
    rw [findSelbri2] at h
    obtain ⟨o, h1, h2⟩ := bind_ok.1 h
    obtain ⟨s1, h3, h4⟩ := bind_ok.1 h2
    obtain ⟨o2, h5, h6⟩ := bind_ok.1 h4
    have k1 := sub_kid (find_sub h1 s1 (deref_ok h3)).1
    cases o2 with
    | some s2 => cases h6; exact sub_trans k1 (sub_kid (find_sub h5 c rfl).1)
    | none =>
      obtain ⟨o3, h7, h8⟩ := bind_ok.1 h6
      obtain ⟨s, h9, h10⟩ := bind_ok.1 h8
      exact sub_trans (sub_trans k1 (sub_kid (find_sub h7 s (asserted_ok h9)).1)) (selbri2_sub fuel h10)

theorem last2_sub : ∀ (fuel : Nat) {x c : Node}, lastSelbri2 fuel x = .ok c → Sub x c
  | 0, x, c, h => by cases h
  | fuel + 1, x, c, h => by
    rw [lastSelbri2] at h
    obtain ⟨n, h1, h2⟩ := bind_ok.1 h
    split at h2
    · obtain ⟨o, h3, h4⟩ := bind_ok.1 h2
      obtain ⟨s, h5, h6⟩ := bind_ok.1 h4
      exact sub_trans (sub_kid (find_sub h3 s (deref_ok h5)).1) (last2_sub fuel h6)
    · cases h2; exact .refl

/-- The labels made in a part of the tree are right. -/
def Does (f : Node → List Entry → List Entry → List LC → M (List Ev)) : Prop :=
  ∀ x pre post lc evs, f x pre post lc = .ok evs → Good x lc evs

theorem linkIds_append (lc : List LC) (e : LC) : linkIds (lc ++ [e]) = linkIds lc ++ linkIds [e] := by simp [linkIds]

/-- A conversion more in the chain. -/
theorem good_step {x : Node} {lc : List LC} {e : LC} {a : List Ev} (h : Good x (lc ++ [e]) a) (he : ∀ tg u, e ≠ .jaiTag tg u) (hl : ∀ es, e ≠ .links es) :
    Good x lc a := by
  refine good_chain h (fun tg u hm => ?_) fun t hm => ?_
  · rcases List.mem_append.1 hm with hm | hm
    · exact .inl hm
    · exact absurd (List.mem_singleton.1 hm).symm (he tg u)
  · rw [linkIds_append] at hm
    rcases List.mem_append.1 hm with hm | hm
    · exact .inl hm
    · cases e with
      | links es => exact absurd rfl (hl es)
      | _ => exact absurd hm (by simp [linkIds])

theorem good_brivla {x : Node} {h : Head} {pre post : List Entry} {lc : List LC} {evs : List Ev} (hr : assignPlaces pre post lc h = .ok evs) (i : Nat)
    (zei : ∀ z, h = .zei z → Sub x (.zei z)) (hh : (∀ s, h ≠ .me s) ∧ (∀ s, h ≠ .nuha s) ∧ ∀ n m, h ≠ .numberMoi n m) :
    Good x lc (evs ++ assignConversion lc i) := by
  have := good_made (x := x) (less := []) (more := assignConversion lc i) hr (fun _ hm => absurd hm List.not_mem_nil) (conv_none lc i)
    (fun s e => absurd e (hh.1 s)) (fun s e => absurd e (hh.2.1 s)) (fun n m e => absurd e (hh.2.2 n m)) zei
  simpa using this

theorem tu2_good {fuel : Nat} (h3 : Does (selbri3Args fuel)) (h2 : Does (tu2Args fuel)) : Does (tu2Args (fuel + 1)) := by
  intro x pre post lc evs h
  rw [tu2Args] at h
  obtain ⟨_, g1, h⟩ := bind_ok.1 h
  obtain ⟨c0, g2, h⟩ := bind_ok.1 h
  obtain ⟨c1, g3, h⟩ := bind_ok.1 h
  have k1 : Sub x c1 := sub_trans (child_sub g2) (strip_sub g3)
  split at h
  · -- GOhA
    obtain ⟨e1, a1, a2⟩ := bind_ok.1 h
    cases a2
    exact good_brivla a1 _ (fun z e => by cases e) ⟨fun _ e => (by cases e), fun _ e => (by cases e), fun _ _ e => (by cases e)⟩
  · -- ME
    obtain ⟨o, a1, h⟩ := bind_ok.1 h
    obtain ⟨s, a2, h⟩ := bind_ok.1 h
    obtain ⟨e1, a3, a4⟩ := bind_ok.1 h
    cases a4
    obtain ⟨hk, cs, hs⟩ := find_sub a1 s (asserted_ok a2)
    have := good_made (x := x) (less := [.brac s.id]) (more := []) a3 (fun e hm => by rw [List.mem_singleton.1 hm]; rfl)
      (fun _ hm => absurd hm List.not_mem_nil) (fun s' e => by cases e; exact ⟨by simp, cs, hs ▸ sub_kid hk⟩)
      (fun _ e => by cases e) (fun _ _ e => by cases e) (fun _ e => by cases e)
    simpa using this
  · -- NUhA
    rename_i i w
    obtain ⟨o, a1, h⟩ := bind_ok.1 h
    obtain ⟨s, a2, h⟩ := bind_ok.1 h
    obtain ⟨e1, a3, a4⟩ := bind_ok.1 h
    cases a4
    obtain ⟨hk, cs, hs⟩ := find_sub a1 s (deref_ok a2)
    have := good_made (x := x) (less := []) (more := assignConversion lc i ++ [.brac s.id]) a3 (fun _ hm => absurd hm List.not_mem_nil)
      (fun e hm => by
        rcases List.mem_append.1 hm with hm | hm
        · exact conv_none lc i e hm
        · rw [List.mem_singleton.1 hm]; rfl)
      (fun _ e => by cases e) (fun s' e => by cases e; exact ⟨by simp, cs, hs ▸ sub_kid hk⟩) (fun _ _ e => by cases e) (fun _ e => by cases e)
    simpa using this
  · cases h; exact good_nil
  · obtain ⟨e1, a1, a2⟩ := bind_ok.1 h
    cases a2
    exact good_brivla a1 _ (fun z e => by cases e) ⟨fun _ e => (by cases e), fun _ e => (by cases e), fun _ _ e => (by cases e)⟩
  · obtain ⟨e1, a1, a2⟩ := bind_ok.1 h
    cases a2
    exact good_brivla a1 _ (fun z e => by cases e; exact k1) ⟨fun _ e => (by cases e), fun _ e => (by cases e), fun _ _ e => (by cases e)⟩
  · cases h
  · -- MOI
    rename_i i cs
    obtain ⟨n, a1, h⟩ := bind_ok.1 h
    obtain ⟨o, a2, h⟩ := bind_ok.1 h
    obtain ⟨m, a3, h⟩ := bind_ok.1 h
    obtain ⟨e1, a4, a5⟩ := bind_ok.1 h
    cases a5
    have hn : ∃ ds, cs = n :: ds := by
      rw [childRef] at a1
      obtain ⟨cs', b1, b2⟩ := bind_ok.1 a1
      cases b1
      cases cs with
      | nil => cases b2
      | cons d ds => cases b2; exact ⟨ds, rfl⟩
    obtain ⟨ds, rfl⟩ := hn
    have := good_made (x := x) (less := []) (more := if 0 < pre.length ∨ 0 < post.length then [.brac n.id] else []) a4
      (fun _ hm => absurd hm List.not_mem_nil)
      (fun e hm => by
        split at hm
        · rw [List.mem_singleton.1 hm]; rfl
        · exact absurd hm List.not_mem_nil)
      (fun _ e => by cases e) (fun _ e => by cases e)
      (fun _ _ e => by
        cases e
        refine ⟨⟨i, n, ds, k1, rfl⟩, ?_⟩
        by_cases hc : 0 < pre.length ∨ 0 < post.length
        · left; rw [if_pos hc]; simp
        · right
          simp only [List.length_pos_iff] at hc
          have h1 : pre = [] := Classical.byContradiction fun k => hc (.inl k)
          have h2 : post = [] := Classical.byContradiction fun k => hc (.inr k)
          rw [h1, h2]; rfl)
      (fun _ e => by cases e)
    simpa using this
  · -- ke
    obtain ⟨o, a1, h⟩ := bind_ok.1 h
    obtain ⟨s, a2, h⟩ := bind_ok.1 h
    exact good_up (sub_trans k1 (sub_kid (find_sub a1 s (asserted_ok a2)).1)) (h3 _ _ _ _ _ h)
  · -- SE
    obtain ⟨se, a1, h⟩ := bind_ok.1 h
    obtain ⟨o, a2, h⟩ := bind_ok.1 h
    obtain ⟨u, a3, h⟩ := bind_ok.1 h
    obtain ⟨c, a4, h⟩ := bind_ok.1 h
    obtain ⟨lc', a5, h⟩ := bind_ok.1 h
    have := append_ok a5
    subst this
    exact good_step (good_up (sub_trans k1 (sub_kid (find_sub a2 u (asserted_ok a3)).1)) (h2 _ _ _ _ _ h))
      (fun _ _ e => by cases e) (fun _ e => by cases e)
  · -- JAI with a tag
    obtain ⟨o1, a1, h⟩ := bind_ok.1 h
    obtain ⟨o2, a2, h⟩ := bind_ok.1 h
    obtain ⟨t, a3, h⟩ := bind_ok.1 h
    obtain ⟨u, a4, h⟩ := bind_ok.1 h
    obtain ⟨lc', a5, h⟩ := bind_ok.1 h
    obtain ⟨e1, a6, a7⟩ := bind_ok.1 h
    cases a7
    have := append_ok a5
    subst this
    obtain ⟨hk, cs, hu⟩ := find_sub a2 u (asserted_ok a4)
    have ku := sub_trans k1 (sub_kid hk)
    have hg : Good x (lc ++ [.jaiTag t.id u.id]) (.brac u.id :: e1) :=
      good_append (a := [.brac u.id]) (good_none fun e hm => by rw [List.mem_singleton.1 hm]; rfl) (good_up ku (h2 _ _ _ _ _ a6))
    refine good_chain hg (fun tg v hm => ?_) fun t' hm => ?_
    · rcases List.mem_append.1 hm with hm | hm
      · exact .inl hm
      · cases List.mem_singleton.1 hm
        obtain ⟨⟨j, w, ds, ej, ht⟩, es, et⟩ := find_sub a1 t (asserted_ok a3)
        cases ej
        exact .inr ⟨List.mem_cons_self .., ⟨cs, hu ▸ ku⟩, _, _, t, es, k1, ht, et⟩
    · rw [linkIds_append] at hm
      rcases List.mem_append.1 hm with hm | hm
      · exact .inl hm
      · exact absurd hm (by simp [linkIds])
  · -- JAI
    obtain ⟨o, a2, h⟩ := bind_ok.1 h
    obtain ⟨u, a3, h⟩ := bind_ok.1 h
    obtain ⟨lc', a5, h⟩ := bind_ok.1 h
    have := append_ok a5
    subst this
    exact good_step (good_up (sub_trans k1 (sub_kid (find_sub a2 u (asserted_ok a3)).1)) (h2 _ _ _ _ _ h))
      (fun _ _ e => by cases e) (fun _ e => by cases e)
  · -- NAhE
    obtain ⟨o, a2, h⟩ := bind_ok.1 h
    obtain ⟨u, a3, h⟩ := bind_ok.1 h
    exact good_up (sub_trans k1 (sub_kid (find_sub a2 u (asserted_ok a3)).1)) (h2 _ _ _ _ _ h)
  · -- an abstraction
    obtain ⟨nns, a1, h⟩ := bind_ok.1 h
    obtain ⟨_, a2, h⟩ := bind_ok.1 h
    obtain ⟨c, a3, h⟩ := bind_ok.1 h
    obtain ⟨c2, a4, h⟩ := bind_ok.1 h
    split at h
    · obtain ⟨e1, a5, a6⟩ := bind_ok.1 h
      cases a6
      exact good_brivla a5 _ (fun z e => by cases e) ⟨fun _ e => (by cases e), fun _ e => (by cases e), fun _ _ e => (by cases e)⟩
    · cases h; exact good_nil
  · cases h; exact good_nil

theorem tu1_good {fuel : Nat} (h2 : Does (tu2Args fuel)) : Does (tu1Args (fuel + 1)) := by
  intro x pre post lc evs h
  rw [tu1Args] at h
  obtain ⟨xtv, a1, h⟩ := bind_ok.1 h
  obtain ⟨tu2, a2, h⟩ := bind_ok.1 h
  have done : ∀ e ∈ [Ev.done x.id], isLabel e = false := fun e hm => by rw [List.mem_singleton.1 hm]; rfl
  split at h
  · rename_i v
    obtain ⟨lc', a3, h⟩ := bind_ok.1 h
    obtain ⟨e1, a4, a5⟩ := bind_ok.1 h
    cases a5
    have := append_ok a3
    subst this
    refine good_append (good_chain (good_up (child_sub a2) (h2 _ _ _ _ _ a4)) (fun tg u hm => ?_) fun t hm => ?_) (good_none done)
    · rcases List.mem_append.1 hm with hm | hm
      · exact .inl hm
      · cases List.mem_singleton.1 hm
    · rw [linkIds_append] at hm
      rcases List.mem_append.1 hm with hm | hm
      · exact .inl hm
      · simp only [linkIds, List.flatMap_cons, List.flatMap_nil, List.append_nil, List.mem_map] at hm
        obtain ⟨e, he, rfl⟩ := hm
        exact .inr (links_linked a1 e he)
  · obtain ⟨e1, a4, a5⟩ := bind_ok.1 h
    cases a5
    exact good_append (good_up (child_sub a2) (h2 _ _ _ _ _ a4)) (good_none done)

theorem selbri6_good {fuel : Nat} (h1 : Does (tu1Args fuel)) (h6 : Does (selbri6Args fuel)) (hs : Does (selbriArgs fuel)) : Does (selbri6Args (fuel + 1)) := by
  intro x pre post lc evs h
  rw [selbri6Args] at h
  obtain ⟨_, _, h⟩ := bind_ok.1 h
  obtain ⟨n, _, h⟩ := bind_ok.1 h
  split at h
  · obtain ⟨tu, a1, h⟩ := bind_ok.1 h
    obtain ⟨k, _, h⟩ := bind_ok.1 h
    split at h
    · cases h; exact good_nil
    · obtain ⟨c, a2, h⟩ := bind_ok.1 h
      exact good_up (sub_trans (child_sub a1) (child_sub a2)) (h1 _ _ _ _ _ h)
  · obtain ⟨o, a1, h⟩ := bind_ok.1 h
    split at h
    · obtain ⟨o2, a2, h⟩ := bind_ok.1 h
      obtain ⟨c, a3, h⟩ := bind_ok.1 h
      exact good_up (sub_kid (find_sub a2 c (deref_ok a3)).1) (h6 _ _ _ _ _ h)
    · obtain ⟨o2, a2, h⟩ := bind_ok.1 h
      obtain ⟨o3, a3, h⟩ := bind_ok.1 h
      obtain ⟨c, a4, h⟩ := bind_ok.1 h
      obtain ⟨e1, a5, h⟩ := bind_ok.1 h
      obtain ⟨d, a6, h⟩ := bind_ok.1 h
      obtain ⟨e2, a7, h⟩ := bind_ok.1 h
      cases h
      exact good_append (good_up (sub_kid (find_sub a2 c (deref_ok a4)).1) (hs _ _ _ _ _ a5))
        (good_up (sub_kid (find_sub a3 d (deref_ok a6)).1) (h6 _ _ _ _ _ a7))

theorem selbri5_good {fuel : Nat} (h6 : Does (selbri6Args fuel)) (h5 : Does (selbri5Args fuel)) : Does (selbri5Args (fuel + 1)) := by
  intro x pre post lc evs h
  rw [selbri5Args] at h
  obtain ⟨o, a1, h⟩ := bind_ok.1 h
  obtain ⟨c, a2, h⟩ := bind_ok.1 h
  obtain ⟨e1, a3, h⟩ := bind_ok.1 h
  obtain ⟨o2, a4, h⟩ := bind_ok.1 h
  have g1 := good_up (sub_kid (find_sub a1 c (deref_ok a2)).1) (h6 _ _ _ _ _ a3)
  split at h
  · cases h; exact g1
  · obtain ⟨e2, a5, h⟩ := bind_ok.1 h
    cases h
    exact good_append g1 (good_up (sub_kid (find_sub a4 _ rfl).1) (h5 _ _ _ _ _ a5))

theorem selbri4_good {fuel : Nat} (h5 : Does (selbri5Args fuel)) (h4 : Does (selbri4Loop fuel)) (h3 : Does (selbri3Args fuel)) : Does (selbri4Loop (fuel + 1)) := by
  intro x pre post lc evs h
  rw [selbri4Loop] at h
  obtain ⟨o, a1, h⟩ := bind_ok.1 h
  have rest : ∀ {e1 : List Ev}, Good x lc e1 → (findNth x 1 .selbri4 >>= fun o => match o with
      | none => return e1
      | some s4' => do return e1 ++ (← selbri4Loop fuel s4' pre post lc)) = .ok evs → Good x lc evs := by
    intro e1 g1 h
    obtain ⟨o2, a4, h⟩ := bind_ok.1 h
    split at h
    · cases h; exact g1
    · obtain ⟨e2, a5, h⟩ := bind_ok.1 h
      cases h
      exact good_append g1 (good_up (sub_kid (find_sub a4 _ rfl).1) (h4 _ _ _ _ _ a5))
  split at h
  · obtain ⟨e1, a3, h⟩ := bind_ok.1 h
    exact rest (good_up (sub_kid (find_sub a1 _ rfl).1) (h5 _ _ _ _ _ a3)) h
  · obtain ⟨o2, a2, h⟩ := bind_ok.1 h
    obtain ⟨k, a3, h⟩ := bind_ok.1 h
    obtain ⟨o3, a4, h⟩ := bind_ok.1 h
    obtain ⟨c, a5, h⟩ := bind_ok.1 h
    obtain ⟨e1, a6, h⟩ := bind_ok.1 h
    exact rest (good_up (sub_trans (sub_kid (find_sub a2 k (asserted_ok a3)).1) (sub_kid (find_sub a4 c (asserted_ok a5)).1)) (h3 _ _ _ _ _ a6)) h

theorem selbri3_good {fuel : Nat} (h5 : Does (selbri5Args fuel)) (h4 : Does (selbri4Loop fuel)) : Does (selbri3Args (fuel + 1)) := by
  intro x pre post lc evs h
  rw [selbri3Args] at h
  obtain ⟨_, _, h⟩ := bind_ok.1 h
  obtain ⟨o, a1, h⟩ := bind_ok.1 h
  obtain ⟨s4, a2, h⟩ := bind_ok.1 h
  obtain ⟨n, _, h⟩ := bind_ok.1 h
  have k := sub_kid (find_sub a1 s4 (deref_ok a2)).1
  split at h
  · exact good_up k (h4 _ _ _ _ _ h)
  · obtain ⟨o2, a3, h⟩ := bind_ok.1 h
    obtain ⟨s5, a4, h⟩ := bind_ok.1 h
    exact good_up (sub_trans k (sub_kid (find_sub a3 s5 (deref_ok a4)).1)) (h5 _ _ _ _ _ h)

theorem selbri_good {fuel : Nat} (h3 : Does (selbri3Args fuel)) : Does (selbriArgs (fuel + 1)) := by
  intro x pre post lc evs h
  rw [selbriArgs] at h
  obtain ⟨_, _, h⟩ := bind_ok.1 h
  obtain ⟨s2, a1, h⟩ := bind_ok.1 h
  obtain ⟨s3, a2, h⟩ := bind_ok.1 h
  obtain ⟨n, _, h⟩ := bind_ok.1 h
  have k := sub_trans (selbri2_sub fuel a1) (child_sub a2)
  split at h
  · obtain ⟨e1, a3, h⟩ := bind_ok.1 h
    obtain ⟨s2', a4, h⟩ := bind_ok.1 h
    obtain ⟨s3', a5, h⟩ := bind_ok.1 h
    obtain ⟨e2, a6, h⟩ := bind_ok.1 h
    cases h
    exact good_append (good_up k (h3 _ _ _ _ _ a3))
      (good_up (sub_trans (sub_trans (selbri2_sub fuel a1) (last2_sub fuel a4)) (child_sub a5)) (h3 _ _ _ _ _ a6))
  · exact good_up k (h3 _ _ _ _ _ h)

theorem selbris_good : ∀ fuel : Nat, Does (tu2Args fuel) ∧ Does (tu1Args fuel) ∧ Does (selbri6Args fuel) ∧ Does (selbri5Args fuel) ∧
    Does (selbri4Loop fuel) ∧ Does (selbri3Args fuel) ∧ Does (selbriArgs fuel)
  | 0 => by
    refine ⟨?_, ?_, ?_, ?_, ?_, ?_, ?_⟩ <;> intro x pre post lc evs h <;> cases h
  | fuel + 1 => by
    obtain ⟨h2, h1, h6, h5, h4, h3, hs⟩ := selbris_good fuel
    exact ⟨tu2_good h3 h2, tu1_good h2, selbri6_good h1 h6 hs, selbri5_good h6 h5, selbri4_good h5 h4 h3, selbri3_good h5 h4, selbri_good h3⟩

/-! ## Down into the sentence -/

theorem kids_sub {x c : Node} {cs : List Node} (h : x.children = .ok cs) (hm : c ∈ cs) : Sub x c := by
  cases x with
  | nt j u ds => cases h; exact .child hm .refl
  | _ => cases h

theorem body_sub {s b : Node} (h : sentenceBody s = .ok b) : Sub s b := by
  rw [sentenceBody] at h
  obtain ⟨cs, h1, h2⟩ := bind_ok.1 h
  split at h2
  · cases h2; exact kids_sub h1 (List.mem_singleton.2 rfl)
  · cases h2; exact kids_sub h1 (List.mem_singleton.2 rfl)
  · cases h2; exact .refl

theorem inner_sub : ∀ (fuel : Nat) {x c : Node}, innerSentence fuel x = .ok c → Sub x c
  | 0, x, c, h => by cases h
  | fuel + 1, x, c, h => by
    rw [innerSentence] at h
    obtain ⟨n, h1, h2⟩ := bind_ok.1 h
    split at h2
    · obtain ⟨d, h3, h4⟩ := bind_ok.1 h2
      exact sub_trans (child_sub h3) (inner_sub fuel h4)
    · exact child_sub h2

theorem gek_sub : ∀ (fuel : Nat) {x c : Node}, innerGek fuel x = .ok c → Sub x c
  | 0, x, c, h => by cases h
  | fuel + 1, x, c, h => by
    rw [innerGek] at h
    obtain ⟨n, h1, h2⟩ := bind_ok.1 h
    split at h2
    · cases h2; exact .refl
    · obtain ⟨o, h3, h4⟩ := bind_ok.1 h2
      obtain ⟨d, h5, h6⟩ := bind_ok.1 h4
      exact sub_trans (sub_kid (find_sub h3 d (deref_ok h5)).1) (gek_sub fuel h6)

/-- The labels made in a part of a sentence are right. -/
def Says (f : Node → List Entry → Option (List Entry) → M (List Ev)) : Prop := ∀ x pre post evs, f x pre post = .ok evs → Good x [] evs

theorem main_good (fuel : Nat) : Says (mainSelbriArgs fuel) := by
  intro x pre post evs h
  unfold mainSelbriArgs at h
  obtain ⟨_, _, h⟩ := bind_ok.1 h
  split at h
  · cases h
  · obtain ⟨s, a1, h⟩ := bind_ok.1 h
    obtain ⟨e1, a2, h⟩ := bind_ok.1 h
    cases h
    exact good_append (a := [_]) (good_none fun e hm => by rw [List.mem_singleton.1 hm]; rfl)
      (good_up (child_sub a1) ((selbris_good fuel).2.2.2.2.2.2 _ _ _ _ _ a2))

theorem subsentence_good {fuel : Nat} (hb : Says (bridiTailArgs fuel)) : Says (subsentenceArgs (fuel + 1)) := by
  intro x pre post evs h
  rw [subsentenceArgs] at h
  obtain ⟨_, _, h⟩ := bind_ok.1 h
  obtain ⟨sen, a1, h⟩ := bind_ok.1 h
  obtain ⟨_, _, h⟩ := bind_ok.1 h
  obtain ⟨body, a2, h⟩ := bind_ok.1 h
  obtain ⟨terms, _, h⟩ := bind_ok.1 h
  obtain ⟨o, a3, h⟩ := bind_ok.1 h
  obtain ⟨bt, a4, h⟩ := bind_ok.1 h
  have k := sub_trans (sub_trans (inner_sub fuel a1) (body_sub a2)) (sub_kid (find_sub a3 bt (asserted_ok a4)).1)
  split at h
  · obtain ⟨hd, _, h⟩ := bind_ok.1 h
    obtain ⟨pre', _, h⟩ := bind_ok.1 h
    exact good_up k (hb _ _ _ _ h)
  · exact good_up k (hb _ _ _ _ h)

theorem tail3_good {fuel : Nat} (hs : Says (subsentenceArgs fuel)) : Says (bridiTail3Args (fuel + 1)) := by
  intro x pre post evs h
  rw [bridiTail3Args] at h
  obtain ⟨_, _, h⟩ := bind_ok.1 h
  obtain ⟨c1, a1, h⟩ := bind_ok.1 h
  split at h
  · obtain ⟨tail, _, h⟩ := bind_ok.1 h
    obtain ⟨post', _, h⟩ := bind_ok.1 h
    exact good_up (child_sub a1) (main_good fuel _ _ _ _ h)
  · obtain ⟨_, _, h⟩ := bind_ok.1 h
    obtain ⟨gs, a2, h⟩ := bind_ok.1 h
    obtain ⟨o1, a3, h⟩ := bind_ok.1 h
    obtain ⟨o2, a4, h⟩ := bind_ok.1 h
    obtain ⟨s1, a5, h⟩ := bind_ok.1 h
    obtain ⟨s2, a6, h⟩ := bind_ok.1 h
    obtain ⟨tail, _, h⟩ := bind_ok.1 h
    obtain ⟨post', _, h⟩ := bind_ok.1 h
    obtain ⟨e1, a7, h⟩ := bind_ok.1 h
    obtain ⟨e2, a8, h⟩ := bind_ok.1 h
    cases h
    have k := sub_trans (child_sub a1) (gek_sub fuel a2)
    exact good_append (good_up (sub_trans k (sub_kid (find_sub a3 s1 (asserted_ok a5)).1)) (hs _ _ _ _ a7))
      (good_up (sub_trans k (sub_kid (find_sub a4 s2 (asserted_ok a6)).1)) (hs _ _ _ _ a8))

theorem tail2_good {fuel : Nat} (h3 : Says (bridiTail3Args fuel)) (h2 : Says (bridiTail2Args fuel)) : Says (bridiTail2Args (fuel + 1)) := by
  intro x pre post evs h
  rw [bridiTail2Args] at h
  obtain ⟨cs, a1, h⟩ := bind_ok.1 h
  split at h
  · exact good_up (kids_sub a1 (List.mem_singleton.2 rfl)) (h3 _ _ _ _ h)
  · obtain ⟨o1, a3, h⟩ := bind_ok.1 h
    obtain ⟨s1, a5, h⟩ := bind_ok.1 h
    obtain ⟨o2, a4, h⟩ := bind_ok.1 h
    obtain ⟨s2, a6, h⟩ := bind_ok.1 h
    obtain ⟨tail, _, h⟩ := bind_ok.1 h
    obtain ⟨post', _, h⟩ := bind_ok.1 h
    obtain ⟨e1, a7, h⟩ := bind_ok.1 h
    obtain ⟨e2, a8, h⟩ := bind_ok.1 h
    cases h
    exact good_append (good_up (sub_kid (find_sub a3 s1 (asserted_ok a5)).1) (h2 _ _ _ _ a7))
      (good_up (sub_kid (find_sub a4 s2 (asserted_ok a6)).1) (h2 _ _ _ _ a8))

theorem tail1_good {fuel : Nat} (h2 : Says (bridiTail2Args fuel)) (h1 : Says (bridiTail1Args fuel)) : Says (bridiTail1Args (fuel + 1)) := by
  intro x pre post evs h
  rw [bridiTail1Args] at h
  obtain ⟨cs, a1, h⟩ := bind_ok.1 h
  split at h
  · exact good_up (kids_sub a1 (List.mem_singleton.2 rfl)) (h2 _ _ _ _ h)
  · obtain ⟨o1, a3, h⟩ := bind_ok.1 h
    obtain ⟨s1, a5, h⟩ := bind_ok.1 h
    obtain ⟨o2, a4, h⟩ := bind_ok.1 h
    obtain ⟨s2, a6, h⟩ := bind_ok.1 h
    obtain ⟨tail, _, h⟩ := bind_ok.1 h
    obtain ⟨post', _, h⟩ := bind_ok.1 h
    obtain ⟨e1, a7, h⟩ := bind_ok.1 h
    obtain ⟨e2, a8, h⟩ := bind_ok.1 h
    cases h
    exact good_append (good_up (sub_kid (find_sub a3 s1 (asserted_ok a5)).1) (h1 _ _ _ _ a7))
      (good_up (sub_kid (find_sub a4 s2 (asserted_ok a6)).1) (h2 _ _ _ _ a8))

theorem tail_good {fuel : Nat} (h1 : Says (bridiTail1Args fuel)) (h0 : Says (bridiTailArgs fuel)) : Says (bridiTailArgs (fuel + 1)) := by
  intro x pre post evs h
  rw [bridiTailArgs] at h
  obtain ⟨cs, a1, h⟩ := bind_ok.1 h
  split at h
  · exact good_up (kids_sub a1 (List.mem_singleton.2 rfl)) (h1 _ _ _ _ h)
  · obtain ⟨o1, a3, h⟩ := bind_ok.1 h
    obtain ⟨s1, a5, h⟩ := bind_ok.1 h
    obtain ⟨o2, a4, h⟩ := bind_ok.1 h
    obtain ⟨s2, a6, h⟩ := bind_ok.1 h
    obtain ⟨tail, _, h⟩ := bind_ok.1 h
    have k1 := sub_kid (find_sub a3 s1 (asserted_ok a5)).1
    have k2 := sub_kid (find_sub a4 s2 (asserted_ok a6)).1
    split at h
    · obtain ⟨post', _, h⟩ := bind_ok.1 h
      obtain ⟨e1, a7, h⟩ := bind_ok.1 h
      obtain ⟨e2, a8, h⟩ := bind_ok.1 h
      cases h
      exact good_append (good_up k2 (h1 _ _ _ _ a7)) (good_up k1 (h0 _ _ _ _ a8))
    · obtain ⟨e1, a7, h⟩ := bind_ok.1 h
      obtain ⟨e2, a8, h⟩ := bind_ok.1 h
      cases h
      exact good_append (good_up k2 (h1 _ _ _ _ a7)) (good_up k1 (h0 _ _ _ _ a8))

theorem tails_good : ∀ fuel : Nat, Says (subsentenceArgs fuel) ∧ Says (bridiTail3Args fuel) ∧ Says (bridiTail2Args fuel) ∧ Says (bridiTail1Args fuel) ∧
    Says (bridiTailArgs fuel)
  | 0 => by refine ⟨?_, ?_, ?_, ?_, ?_⟩ <;> intro x pre post evs h <;> cases h
  | fuel + 1 => by
    obtain ⟨hs, h3, h2, h1, h0⟩ := tails_good fuel
    exact ⟨subsentence_good h0, tail3_good hs, tail2_good h3 h2, tail1_good h2 h1, tail_good h1 h0⟩

/-! ## The whole text -/

theorem statement_good {fuel : Nat} {x : Node} {evs : List Ev} (h : statement3Args fuel x = .ok evs) : Good x [] evs := by
  rw [statement3Args] at h
  obtain ⟨_, _, h⟩ := bind_ok.1 h
  obtain ⟨cs, a1, h⟩ := bind_ok.1 h
  split at h
  · obtain ⟨_, _, h⟩ := bind_ok.1 h
    obtain ⟨body, a2, h⟩ := bind_ok.1 h
    obtain ⟨terms, _, h⟩ := bind_ok.1 h
    obtain ⟨o, a3, h⟩ := bind_ok.1 h
    obtain ⟨bt, a4, h⟩ := bind_ok.1 h
    have k := sub_trans (sub_trans (kids_sub a1 (List.mem_singleton.2 rfl)) (body_sub a2)) (sub_kid (find_sub a3 bt (asserted_ok a4)).1)
    split at h
    · obtain ⟨hd, _, h⟩ := bind_ok.1 h
      exact good_up k ((tails_good fuel).2.2.2.2 _ _ _ _ h)
    · exact good_up k ((tails_good fuel).2.2.2.2 _ _ _ _ h)
  · cases h; exact good_nil

theorem abstraction_good {fuel : Nat} {x : Node} {evs : List Ev} (h : abstractionArgs fuel x = .ok evs) : Good x [] evs := by
  rw [abstractionArgs] at h
  obtain ⟨ss, a1, h⟩ := bind_ok.1 h
  obtain ⟨_, _, h⟩ := bind_ok.1 h
  exact good_up (child_sub a1) ((tails_good fuel).1 _ _ _ _ h)

theorem relative_good {fuel : Nat} {x : Node} {evs : List Ev} (h : relativeClauseArgs fuel x = .ok evs) : Good x [] evs := by
  rw [relativeClauseArgs] at h
  obtain ⟨fc, a1, h⟩ := bind_ok.1 h
  split at h
  · obtain ⟨o, a2, h⟩ := bind_ok.1 h
    split at h
    · exact good_up (sub_trans (child_sub a1) (sub_kid (find_sub a2 _ rfl).1)) ((tails_good fuel).1 _ _ _ _ h)
    · cases h; exact good_nil
  · cases h; exact good_nil

theorem metalinguistic_good {fuel : Nat} {x : Node} {evs : List Ev} (h : metalinguisticArgs fuel x = .ok evs) : Good x [] evs := by
  rw [metalinguisticArgs] at h
  obtain ⟨terms, _, h⟩ := bind_ok.1 h
  obtain ⟨o, a1, h⟩ := bind_ok.1 h
  obtain ⟨mm, a2, h⟩ := bind_ok.1 h
  obtain ⟨s, a3, h⟩ := bind_ok.1 h
  have k := sub_trans (sub_kid (find_sub a1 mm (asserted_ok a2)).1) (child_sub a3)
  split at h
  · obtain ⟨hd, _, h⟩ := bind_ok.1 h
    exact good_up k ((selbris_good fuel).2.2.2.2.2.2 _ _ _ _ _ h)
  · exact good_up k ((selbris_good fuel).2.2.2.2.2.2 _ _ _ _ _ h)

theorem sentence_good {fuel : Nat} {x : Node} {evs : List Ev} (h : sentenceAt fuel x = .ok evs) : Good x [] evs := by
  unfold sentenceAt at h
  split at h
  · exact statement_good h
  · exact abstraction_good h
  · exact relative_good h
  · exact metalinguistic_good h
  · cases h; exact good_nil

theorem sumti_good {fuel : Nat} {x : Node} {evs : List Ev} (h : sumtiAt fuel x = .ok evs) : Good x [] evs := by
  unfold sumtiAt at h
  split at h
  · obtain ⟨o, a1, h⟩ := bind_ok.1 h
    obtain ⟨s, a2, h⟩ := bind_ok.1 h
    exact good_up (sub_kid (find_sub a1 s (asserted_ok a2)).1) ((selbris_good fuel).2.2.2.2.2.2 _ _ _ _ _ h)
  · obtain ⟨o, a1, h⟩ := bind_ok.1 h
    obtain ⟨s, a2, h⟩ := bind_ok.1 h
    exact good_up (sub_kid (find_sub a1 s (asserted_ok a2)).1) ((selbris_good fuel).2.2.2.2.2.2 _ _ _ _ _ h)
  · cases h; exact good_nil

mutual
theorem scan_good {f : Node → M (List Ev)} (hf : ∀ x evs, f x = .ok evs → Good x [] evs) : ∀ (x : Node) (evs : List Ev),
    Terms.scan f x = .ok evs → Good x [] evs
  | .nt i t cs, evs, h => by
    rw [Terms.scan] at h
    obtain ⟨e1, h1, h⟩ := bind_ok.1 h
    obtain ⟨e2, h2, h⟩ := bind_ok.1 h
    cases h
    refine good_append (hf _ _ h1) ?_
    exact scans_good hf cs e2 h2 (.nt i t cs) fun c hc => .child hc .refl
  | .cmavo .., evs, h => by cases h; exact good_nil
  | .brivla _, evs, h => by cases h; exact good_nil
  | .zei _, evs, h => by cases h; exact good_nil
  | .leaf _, evs, h => by cases h; exact good_nil
theorem scans_good {f : Node → M (List Ev)} (hf : ∀ x evs, f x = .ok evs → Good x [] evs) : ∀ (cs : List Node) (evs : List Ev),
    scanList f cs = .ok evs → ∀ x, (∀ c ∈ cs, Sub x c) → Good x [] evs
  | [], evs, h, x, _ => by cases h; exact good_nil
  | c :: cs, evs, h, x, hx => by
    rw [scanList] at h
    obtain ⟨e1, h1, h⟩ := bind_ok.1 h
    obtain ⟨e2, h2, h⟩ := bind_ok.1 h
    cases h
    exact good_append (good_up (hx c (List.mem_cons_self ..)) (scan_good hf c e1 h1))
      (scans_good hf cs e2 h2 x fun d hd => hx d (List.mem_cons_of_mem _ hd))
end

mutual
theorem phase2_good (fuel : Nat) (top : Node) : ∀ (x : Node) (log out : List Ev), phase2 fuel x log = .ok out → Sub top x → Good top [] log → Good top [] out
  | .nt i t cs, log, out, h, hs, hg => by
    rw [phase2] at h
    obtain ⟨log', h1, h⟩ := bind_ok.1 h
    refine phase2s_good fuel top cs log' out h (fun c hc => sub_trans hs (.child hc .refl)) ?_
    split at h1
    · obtain ⟨o, h2, h1⟩ := bind_ok.1 h1
      split at h1
      · split at h1
        · cases h1; exact hg
        · obtain ⟨tu2, h3, h1⟩ := bind_ok.1 h1
          obtain ⟨e1, h4, h1⟩ := bind_ok.1 h1
          cases h1
          refine good_append (good_append hg (good_up hs ?_)) (good_none fun e hm => by rw [List.mem_singleton.1 hm]; rfl)
          refine good_chain (good_up (child_sub h3) ((selbris_good fuel).1 _ _ _ _ _ h4)) (fun tg u hm => ?_) fun t' hm => ?_
          · cases List.mem_singleton.1 hm
          · simp only [linkIds, List.flatMap_cons, List.flatMap_nil, List.append_nil, List.mem_map] at hm
            obtain ⟨e, he, rfl⟩ := hm
            exact .inr (links_linked h2 e he)
      · cases h1; exact hg
    · cases h1; exact hg
  | .cmavo .., log, out, h, _, hg => by cases h; exact hg
  | .brivla _, log, out, h, _, hg => by cases h; exact hg
  | .zei _, log, out, h, _, hg => by cases h; exact hg
  | .leaf _, log, out, h, _, hg => by cases h; exact hg
theorem phase2s_good (fuel : Nat) (top : Node) : ∀ (cs : List Node) (log out : List Ev), phase2List fuel cs log = .ok out → (∀ c ∈ cs, Sub top c) →
    Good top [] log → Good top [] out
  | [], log, out, h, _, hg => by cases h; exact hg
  | c :: cs, log, out, h, hs, hg => by
    rw [phase2List] at h
    obtain ⟨log', h1, h⟩ := bind_ok.1 h
    exact phase2s_good fuel top cs log' out h (fun d hd => hs d (List.mem_cons_of_mem _ hd))
      (phase2_good fuel top c log log' h1 (hs c (List.mem_cons_self ..)) hg)
end

theorem processing_good {fuel : Nat} {top : Node} {log : List Ev} (h : termsProcessing fuel top = .ok log) : Good top [] log := by
  rw [termsProcessing] at h
  obtain ⟨_, _, h⟩ := bind_ok.1 h
  obtain ⟨e1, h1, h⟩ := bind_ok.1 h
  obtain ⟨e2, h2, h⟩ := bind_ok.1 h
  exact phase2_good fuel top top _ _ h .refl
    (good_append (scan_good (fun _ _ => sentence_good) top e1 h1) (scan_good (fun _ _ => sumti_good) top e2 h2))

end Jbo.Output
