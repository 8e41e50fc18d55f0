import Verif.GramRead
/-!
# How many terms a bridi can have

The vectors of `terms.c` hold 20 terms.  Here: no word gets more terms than there are nodes of type
TERM in the sentence, and no more conversions than there are nodes for them.
-/

namespace Jbo.Gram
open Jbo.Terms Jbo.Terms.Spec

/-- A node of a tree: the tree itself, or a node of a child. -/
inductive Sub : Node → Node → Prop
  | refl {x} : Sub x x
  | child {i t cs c x} : c ∈ cs → Sub c x → Sub (.nt i t cs) x

mutual
/-- The number of nodes of some types. -/
def num (ts : List NT) : Node → Nat
  | .nt _ t cs => (if t ∈ ts then 1 else 0) + numList ts cs
  | _ => 0
def numList (ts : List NT) : List Node → Nat
  | [] => 0
  | c :: cs => num ts c + numList ts cs
end

theorem Sub.trans {x y z : Node} (h : Sub x y) (h' : Sub y z) : Sub x z := by
  induction h with
  | refl => exact h'
  | child hc _ ih => exact .child hc (ih h')

theorem sub_depth {x y : Node} (h : Sub x y) : y.depth ≤ x.depth := by
  induction h with
  | refl => exact Nat.le_refl _
  | @child i t cs c x hc _ ih =>
    have := mem_depth (t := t) (i := i) hc
    omega

theorem num_mem {ts : List NT} {c : Node} {cs : List Node} (h : c ∈ cs) : num ts c ≤ numList ts cs := by
  induction cs with
  | nil => cases h
  | cons d cs ih =>
    rw [numList]
    rcases List.mem_cons.1 h with rfl | h
    · omega
    · have := ih h; omega

theorem num_nt {ts : List NT} {i : Nat} {t : NT} {cs : List Node} : numList ts cs ≤ num ts (.nt i t cs) := by
  rw [num]; omega

theorem num_sub {ts : List NT} {x y : Node} (h : Sub x y) : num ts y ≤ num ts x := by
  induction h with
  | refl => exact Nat.le_refl _
  | @child i t cs c x hc _ ih =>
    have := num_mem (ts := ts) hc
    have := num_nt (ts := ts) (i := i) (t := t) (cs := cs)
    omega

theorem isNT_both {x : Node} {t u : NT} (h : x.isNT t = true) (hne : t ≠ u) : x.isNT u = false := by
  cases x <;> simp only [Node.isNT, Bool.false_eq_true] at h ⊢
  simp only [beq_iff_eq] at h
  simp [h, hne]

theorem num_kids {ts : List NT} {t : NT} (cs : List Node) : numList ts (kids cs t) ≤ numList ts cs := by
  induction cs with
  | nil => exact Nat.le_refl _
  | cons c cs ih =>
    simp only [kids, List.filter_cons] at ih ⊢
    split <;> simp only [numList] <;> omega

theorem num_kids2 {ts : List NT} {t u : NT} (hne : t ≠ u) (cs : List Node) :
    numList ts (kids cs t) + numList ts (kids cs u) ≤ numList ts cs := by
  induction cs with
  | nil => simp [kids, numList]
  | cons c cs ih =>
    simp only [kids, List.filter_cons] at ih ⊢
    by_cases h : c.isNT t = true
    · simp only [h, isNT_both h hne, if_true, numList, Bool.false_eq_true, if_false]; omega
    · rw [Bool.not_eq_true] at h
      simp only [h, Bool.false_eq_true, if_false]
      split <;> simp only [numList] <;> omega

theorem num_kids3 {ts : List NT} {t u v : NT} (h1 : t ≠ u) (h2 : t ≠ v) (h3 : u ≠ v) (cs : List Node) :
    numList ts (kids cs t) + numList ts (kids cs u) + numList ts (kids cs v) ≤ numList ts cs := by
  induction cs with
  | nil => simp [kids, numList]
  | cons c cs ih =>
    simp only [kids, List.filter_cons] at ih ⊢
    by_cases h : c.isNT t = true
    · simp only [h, isNT_both h h1, isNT_both h h2, if_true, numList, Bool.false_eq_true, if_false]; omega
    · rw [Bool.not_eq_true] at h
      simp only [h, Bool.false_eq_true, if_false]
      by_cases h' : c.isNT u = true
      · simp only [h', isNT_both h' h3, if_true, numList, Bool.false_eq_true, if_false]; omega
      · rw [Bool.not_eq_true] at h'
        simp only [h', Bool.false_eq_true, if_false]
        split <;> simp only [numList] <;> omega

theorem num_head {ts : List NT} {t : NT} {cs : List Node} {x : Node} {xs : List Node} (h : kids cs t = x :: xs) :
    num ts x ≤ numList ts (kids cs t) := by
  rw [h, numList]; omega

theorem num_kid {ts : List NT} {t : NT} {cs : List Node} {x : Node} {xs : List Node} (h : kids cs t = x :: xs) :
    num ts x ≤ numList ts cs := Nat.le_trans (num_head h) (num_kids cs)

theorem kid_sub {t u : NT} {i : Nat} {cs : List Node} {x : Node} {xs : List Node} (h : kids cs t = x :: xs) : Sub (.nt i u cs) x :=
  .child (kids_mem h).1 .refl

/-! ## Terms -/

theorem term_few {x : Node} {e : Option Entry} (h : TermR x e) : e.toList.length ≤ num [.term] x := by
  have : e.toList.length ≤ 1 := by cases e <;> simp
  cases h <;> simp only [num, List.mem_singleton, if_true] <;> omega

theorem terms1_few {x : Node} {e : Option Entry} (h : Terms1R x e) : e.toList.length ≤ num [.term] x := by
  cases h with
  | one h =>
    have := term_few h
    simp only [num, numList] at this ⊢; omega
  | pehe _ => simp
  | cehe _ => simp

theorem terms_few {x : Node} {es : List Entry} (h : TermsR x es) : es.length ≤ num [.term] x := by
  induction h with
  | one h =>
    have := terms1_few h
    simp only [num, numList] at this ⊢; omega
  | more _ h ih =>
    have := terms1_few h
    rw [List.length_append]
    simp only [num, numList] at this ih ⊢; omega

theorem linked_few {x : Node} {es : List Entry} (h : LinkedR x es) : es.length ≤ num [.term] x := by
  induction h with
  | @last i t cs tm ms e k h _ =>
    have h1 := term_few h
    have h2 := num_kid (ts := [.term]) k
    have h3 := num_nt (ts := [.term]) (i := i) (t := t) (cs := cs)
    omega
  | @more i t cs tm ms e lk ls es k h k' _ ih =>
    have h1 := term_few h
    have h2 := num_head (ts := [.term]) k
    have h2' := num_head (ts := [.term]) k'
    have h4 := num_kids2 (ts := [.term]) (show NT.term ≠ .links by decide) cs
    have h3 := num_nt (ts := [.term]) (i := i) (t := t) (cs := cs)
    rw [List.length_append]
    omega

theorem tail_few {cs : List Node} {t : Option (List Entry)} (h : TailR cs t) : (t.getD []).length ≤ numList [.term] (kids cs .tailTerms) := by
  cases h with
  | none _ => simp
  | vau _ _ => simp
  | @terms i ts r x xs es k k' h =>
    have h1 := terms_few h
    have h2 := num_kid (ts := [.term]) k'
    have h3 := num_nt (ts := [.term]) (i := i) (t := .tailTerms) (cs := ts)
    have h4 := num_head (ts := [.term]) k
    simp only [Option.getD_some] at *; omega

theorem head_few {cs : List Node} {h : List Entry} (hh : HeadR cs h) : h.length ≤ numList [.term] (kids cs .terms) := by
  cases hh with
  | none _ => simp
  | terms k h =>
    have h1 := terms_few h
    have h2 := num_head (ts := [.term]) k
    omega

/-! ## Bridi -/

theorem sen_sub {ss s : Node} (h : SenR ss s) : Sub ss s := by
  induction h with
  | here => exact .child (List.mem_singleton.2 rfl) .refl
  | prenex _ ih => exact .child (List.mem_cons_of_mem _ (List.mem_singleton.2 rfl)) ih

theorem body_sub {s : Node} {cs : List Node} (h : BodyR s cs) : (∀ c ∈ cs, Sub s c) ∧ ∀ ts, numList ts cs ≤ num ts s := by
  cases h with
  | noCu =>
    refine ⟨fun c hc => .child (List.mem_singleton.2 rfl) (.child hc .refl), fun ts => ?_⟩
    simp only [num, numList]; omega
  | observative =>
    refine ⟨fun c hc => .child (List.mem_singleton.2 rfl) (.child hc .refl), fun ts => ?_⟩
    simp only [num, numList]; omega
  | cu _ => exact ⟨fun c hc => .child hc .refl, fun ts => num_nt⟩

theorem gek_sub {g : Node} {ks : List Node} (h : GekR g ks) : (∀ c ∈ ks, Sub g c) ∧ ∀ ts, numList ts ks ≤ num ts g := by
  induction h with
  | here => exact ⟨fun c hc => .child hc .refl, fun ts => num_nt⟩
  | @inner i c cs g gs ks hc k _ ih =>
    refine ⟨fun d hd => (kid_sub k).trans (ih.1 d hd), fun ts => ?_⟩
    have h1 := ih.2 ts
    have h2 := num_kid (ts := ts) k
    have h3 := num_nt (ts := ts) (i := i) (t := .gekSentence) (cs := c :: cs)
    omega

/-- A selbri of a bridi gets no more terms than there are, besides those inside it. -/
theorem give_few {x : Node} {a : Br} (h : BrR x a) (pre post : List Entry) :
    ∀ s ∈ give a pre post, s.pre.length + s.post.length + num [.term] s.ms ≤ pre.length + post.length + num [.term] x := by
  induction h generalizing pre post with
  | @sub ss s cs h bt bts a h1 h2 h3 h4 _ ih =>
    intro sh hs
    have := ih (pre ++ h) post sh hs
    rw [List.length_append] at this
    have e1 := num_sub (ts := [.term]) (sen_sub h1)
    have e2 := (body_sub h2).2 [.term]
    have e3 := head_few h3
    have e4 := num_head (ts := [.term]) h4
    have e5 := num_kids2 (ts := [.term]) (show NT.terms ≠ .bridiTail by decide) cs
    omega
  | @tail i j cs a _ ih =>
    intro s hs
    have := ih pre post s hs
    have e := num_sub (ts := [.term]) (.child (List.mem_singleton.2 rfl) .refl : Sub (.nt i .bridiTail [.nt j .bridiTail1 cs]) (.nt j .bridiTail1 cs))
    omega
  | @tailKe i cs x xs y ys t a b _ k k' ht _ _ iha ihb =>
    intro s hs
    have e1 := num_head (ts := [.term]) k
    have e2 := num_head (ts := [.term]) k'
    have e3 := tail_few ht
    have e4 := num_kids3 (ts := [.term]) (show NT.bridiTail1 ≠ .bridiTail by decide) (show NT.bridiTail1 ≠ .tailTerms by decide)
      (show NT.bridiTail ≠ .tailTerms by decide) cs
    have e5 := num_nt (ts := [.term]) (i := i) (t := .bridiTail) (cs := cs)
    simp only [give, List.mem_append] at hs
    rcases hs with hs | hs
    · have := iha _ _ s hs
      rw [List.length_append] at this
      omega
    · have := ihb _ _ s hs
      rw [List.length_append] at this
      omega
  | @tail1 i j cs a _ ih =>
    intro s hs
    have := ih pre post s hs
    have e := num_sub (ts := [.term]) (.child (List.mem_singleton.2 rfl) .refl : Sub (.nt i .bridiTail1 [.nt j .bridiTail2 cs]) (.nt j .bridiTail2 cs))
    omega
  | @tail1and i cs x xs y ys t a b _ k k' ht _ _ iha ihb =>
    intro s hs
    have e1 := num_head (ts := [.term]) k
    have e2 := num_head (ts := [.term]) k'
    have e3 := tail_few ht
    have e4 := num_kids3 (ts := [.term]) (show NT.bridiTail1 ≠ .bridiTail2 by decide) (show NT.bridiTail1 ≠ .tailTerms by decide)
      (show NT.bridiTail2 ≠ .tailTerms by decide) cs
    have e5 := num_nt (ts := [.term]) (i := i) (t := .bridiTail1) (cs := cs)
    simp only [give, List.mem_append] at hs
    rcases hs with hs | hs
    · have := iha _ _ s hs
      rw [List.length_append] at this
      omega
    · have := ihb _ _ s hs
      rw [List.length_append] at this
      omega
  | @tail2 i j cs a _ ih =>
    intro s hs
    have := ih pre post s hs
    have e := num_sub (ts := [.term]) (.child (List.mem_singleton.2 rfl) .refl : Sub (.nt i .bridiTail2 [.nt j .bridiTail3 cs]) (.nt j .bridiTail3 cs))
    omega
  | @tail2and i cs x y ys t a b _ k ht _ _ iha ihb =>
    intro s hs
    have e1 : num [.term] x + num [.term] y ≤ numList [.term] (kids cs .bridiTail2) := by rw [k]; simp only [numList]; omega
    have e3 := tail_few ht
    have e4 := num_kids2 (ts := [.term]) (show NT.bridiTail2 ≠ .tailTerms by decide) cs
    have e5 := num_nt (ts := [.term]) (i := i) (t := .bridiTail2) (cs := cs)
    simp only [give, List.mem_append] at hs
    rcases hs with hs | hs
    · have := iha _ _ s hs
      rw [List.length_append] at this
      omega
    · have := ihb _ _ s hs
      rw [List.length_append] at this
      omega
  | @main i j ks cs t ht =>
    intro s hs
    simp only [give, List.mem_singleton] at hs
    subst hs
    have e3 := tail_few ht
    have e1 : num [.term] (.nt j .mainSelbri ks) ≤ numList [.term] (kids (.nt j .mainSelbri ks :: cs) .mainSelbri) := by
      simp only [kids, List.filter_cons, Node.isNT, beq_self_eq_true, if_true, numList]; omega
    have e4 := num_kids2 (ts := [.term]) (show NT.mainSelbri ≠ .tailTerms by decide) (.nt j .mainSelbri ks :: cs)
    have e5 := num_nt (ts := [.term]) (i := i) (t := .bridiTail3) (cs := .nt j .mainSelbri ks :: cs)
    simp only [List.length_append] at *; omega
  | @gek i g cs ks x y ys t a b hg k ht _ _ iha ihb =>
    intro s hs
    have e1 : num [.term] x + num [.term] y ≤ numList [.term] (kids ks .subsentence) := by rw [k]; simp only [numList]; omega
    have e3 := tail_few ht
    have e4 := num_kids2 (ts := [.term]) (show NT.subsentence ≠ .tailTerms by decide) ks
    have e5 := (gek_sub hg).2 [.term]
    have e6 := num_mem (ts := [.term]) (List.mem_cons_self .. : g ∈ g :: cs)
    have e7 := num_nt (ts := [.term]) (i := i) (t := .bridiTail3) (cs := g :: cs)
    simp only [give, List.mem_append] at hs
    rcases hs with hs | hs
    · have := iha _ _ s hs
      rw [List.length_append] at this
      omega
    · have := ihb _ _ s hs
      rw [List.length_append] at this
      omega

/-- The selbri of a bridi are in it. -/
theorem give_sub {x : Node} {a : Br} (h : BrR x a) (pre post : List Entry) :
    ∀ s ∈ give a pre post, Sub x s.ms ∧ ∃ i cs, s.ms = .nt i .mainSelbri cs := by
  induction h generalizing pre post with
  | @sub ss s cs h bt bts a h1 h2 h3 h4 _ ih =>
    intro sh hs
    obtain ⟨e1, e2⟩ := ih (pre ++ h) post sh hs
    exact ⟨(sen_sub h1).trans (((body_sub h2).1 _ (kids_mem h4).1).trans e1), e2⟩
  | tail _ ih => intro s hs; obtain ⟨e1, e2⟩ := ih pre post s hs; exact ⟨.child (List.mem_singleton.2 rfl) e1, e2⟩
  | tail1 _ ih => intro s hs; obtain ⟨e1, e2⟩ := ih pre post s hs; exact ⟨.child (List.mem_singleton.2 rfl) e1, e2⟩
  | tail2 _ ih => intro s hs; obtain ⟨e1, e2⟩ := ih pre post s hs; exact ⟨.child (List.mem_singleton.2 rfl) e1, e2⟩
  | tailKe _ k k' ht _ _ iha ihb =>
    intro s hs
    simp only [give, List.mem_append] at hs
    rcases hs with hs | hs
    · obtain ⟨e1, e2⟩ := iha _ _ s hs; exact ⟨(kid_sub k).trans e1, e2⟩
    · obtain ⟨e1, e2⟩ := ihb _ _ s hs; exact ⟨(kid_sub k').trans e1, e2⟩
  | tail1and _ k k' ht _ _ iha ihb =>
    intro s hs
    simp only [give, List.mem_append] at hs
    rcases hs with hs | hs
    · obtain ⟨e1, e2⟩ := iha _ _ s hs; exact ⟨(kid_sub k).trans e1, e2⟩
    · obtain ⟨e1, e2⟩ := ihb _ _ s hs; exact ⟨(kid_sub k').trans e1, e2⟩
  | @tail2and i cs x y ys t a b _ k ht _ _ iha ihb =>
    intro s hs
    have hy : y ∈ cs := by
      have : y ∈ kids cs .bridiTail2 := by rw [k]; simp
      exact (List.mem_filter.1 this).1
    simp only [give, List.mem_append] at hs
    rcases hs with hs | hs
    · obtain ⟨e1, e2⟩ := iha _ _ s hs; exact ⟨(kid_sub k).trans e1, e2⟩
    · obtain ⟨e1, e2⟩ := ihb _ _ s hs; exact ⟨.child hy e1, e2⟩
  | main _ =>
    intro s hs
    simp only [give, List.mem_singleton] at hs
    subst hs
    exact ⟨.child (List.mem_cons_self ..) .refl, _, _, rfl⟩
  | @gek i g cs ks x y ys t a b hg k ht _ _ iha ihb =>
    intro s hs
    have hy : y ∈ ks := by
      have : y ∈ kids ks .subsentence := by rw [k]; simp
      exact (List.mem_filter.1 this).1
    simp only [give, List.mem_append] at hs
    rcases hs with hs | hs
    · obtain ⟨e1, e2⟩ := iha _ _ s hs
      exact ⟨.child (List.mem_cons_self ..) (((gek_sub hg).1 _ (kids_mem k).1).trans e1), e2⟩
    · obtain ⟨e1, e2⟩ := ihb _ _ s hs
      exact ⟨.child (List.mem_cons_self ..) (((gek_sub hg).1 _ hy).trans e1), e2⟩

/-! ## Selbri -/

theorem core_sub {s : Node} {es : List Node} (h : CoreR s es) : (∀ c ∈ es, Sub s c) ∧ ∀ ts, numList ts es ≤ num ts s := by
  induction h with
  | @here i j k cs ds es xs ys h1 h2 =>
    refine ⟨fun c hc => (kid_sub h1).trans ((kid_sub h2).trans (.child hc .refl)), fun ts => ?_⟩
    have e1 := num_sub (ts := ts) (kid_sub (i := i) (u := .selbri) h1)
    have e2 := num_sub (ts := ts) (kid_sub (i := j) (u := .selbri1) h2)
    have e3 := num_nt (ts := ts) (i := k) (t := .selbri2) (cs := es)
    omega
  | @inner i j cs ds s es xs ys h1 _ h2 _ ih =>
    refine ⟨fun c hc => (kid_sub h1).trans ((kid_sub h2).trans (ih.1 c hc)), fun ts => ?_⟩
    have e1 := num_sub (ts := ts) (kid_sub (i := i) (u := .selbri) h1)
    have e2 := num_sub (ts := ts) (kid_sub (i := j) (u := .selbri1) h2)
    have e3 := ih.2 ts
    omega

theorem last_few {cs : List Node} {x : Node} (h : LastR cs x) (ts : List NT) : num ts x ≤ numList ts cs := by
  induction h with
  | here => simp [numList]
  | @more cs j ds x ys _ k _ ih =>
    have e1 := num_kid (ts := ts) k
    have e2 := num_nt (ts := ts) (i := j) (t := .selbri2) (cs := ds)
    omega

theorem entries_append (l m : List LC) : entries (l ++ m) = entries l + entries m := by
  induction l with
  | nil => simp [entries]
  | cons e l ih => cases e <;> simp only [List.cons_append, entries, ih] <;> omega

theorem jais_append (l m : List LC) : jais (l ++ m) = jais l + jais m := by
  induction l with
  | nil => simp [jais]
  | cons e l ih => cases e <;> simp only [List.cons_append, jais, ih] <;> omega

/-- The types that stand for `jai`. -/
abbrev jaiTypes : List NT := [.jaiTu2, .jaiTagTu2]

/-- The types of the conversions and of linked sumti. -/
abbrev convTypes : List NT := [.seTu2, .jaiTu2, .jaiTagTu2, .linkargs]

/-- What a selbri brings along is in its tree. -/
theorem jobs_few {x : Node} {a : Sb} (h : SbR x a) (pre post : List Entry) (lc : List LC) :
    (∀ j ∈ jobs a pre post lc, entries j.lc + j.pre.length + j.post.length ≤ entries lc + pre.length + post.length + num [.term] x ∧
      jais j.lc ≤ jais lc + num jaiTypes x) ∧ a.chain ≤ num convTypes x ∧ (num [.term] x ≤ maxTerms → a.Fits) := by
  have le : ∀ {x y : Node}, Sub x y → num [.term] y ≤ num [.term] x ∧ num jaiTypes y ≤ num jaiTypes x ∧ num convTypes y ≤ num convTypes x :=
    fun h => ⟨num_sub h, num_sub h, num_sub h⟩
  have step : ∀ {x y : Node} {a : Sb} {pre post : List Entry} {lc : List LC}, Sub x y →
      ((∀ j ∈ jobs a pre post lc, entries j.lc + j.pre.length + j.post.length ≤ entries lc + pre.length + post.length + num [.term] y ∧
      jais j.lc ≤ jais lc + num jaiTypes y) ∧ a.chain ≤ num convTypes y ∧ (num [.term] y ≤ maxTerms → a.Fits)) →
      ((∀ j ∈ jobs a pre post lc, entries j.lc + j.pre.length + j.post.length ≤ entries lc + pre.length + post.length + num [.term] x ∧
      jais j.lc ≤ jais lc + num jaiTypes x) ∧ a.chain ≤ num convTypes x ∧ (num [.term] x ≤ maxTerms → a.Fits)) := by
    intro x y a pre post lc hs ⟨h1, h2, h3⟩
    obtain ⟨l1, l2, l3⟩ := le hs
    refine ⟨fun j hj => ?_, by omega, fun h => h3 (by omega)⟩
    have := h1 j hj; omega
  have both : ∀ {x y z : Node} {a b : Sb} {pre post : List Entry} {lc : List LC}, Sub x y → Sub x z →
      (∀ pre post lc, (∀ j ∈ jobs a pre post lc, entries j.lc + j.pre.length + j.post.length ≤ entries lc + pre.length + post.length + num [.term] y ∧
      jais j.lc ≤ jais lc + num jaiTypes y) ∧ a.chain ≤ num convTypes y ∧ (num [.term] y ≤ maxTerms → a.Fits)) →
      (∀ pre post lc, (∀ j ∈ jobs b pre post lc, entries j.lc + j.pre.length + j.post.length ≤ entries lc + pre.length + post.length + num [.term] z ∧
      jais j.lc ≤ jais lc + num jaiTypes z) ∧ b.chain ≤ num convTypes z ∧ (num [.term] z ≤ maxTerms → b.Fits)) →
      ((∀ j ∈ jobs (.joined a b) pre post lc, entries j.lc + j.pre.length + j.post.length ≤ entries lc + pre.length + post.length + num [.term] x ∧
      jais j.lc ≤ jais lc + num jaiTypes x) ∧ (Sb.joined a b).chain ≤ num convTypes x ∧ (num [.term] x ≤ maxTerms → (Sb.joined a b).Fits)) := by
    intro x y z a b pre post lc hy hz ha hb
    obtain ⟨l1, l2, l3⟩ := le hy
    obtain ⟨m1, m2, m3⟩ := le hz
    obtain ⟨a1, a2, a3⟩ := ha pre post lc
    obtain ⟨b1, b2, b3⟩ := hb pre post lc
    refine ⟨fun j hj => ?_, by simp only [Sb.chain]; omega, fun h => ⟨a3 (by omega), b3 (by omega)⟩⟩
    simp only [jobs, List.mem_append] at hj
    rcases hj with hj | hj
    · have := a1 j hj; omega
    · have := b1 j hj; omega
  induction h generalizing pre post lc with
  | @selbri s j cs a hc _ ih => exact step ((core_sub hc).1 _ (List.mem_singleton.2 rfl)) (ih pre post lc)
  | @selbriCo s j cs ds k es a b hc _ hl _ _ iha ihb =>
    have l := le ((core_sub hc).1 _ (List.mem_cons_self ..))
    have m : ∀ ts, num ts (.nt k .selbri3 es) ≤ num ts s := fun ts => Nat.le_trans (last_few hl ts) ((core_sub hc).2 ts)
    obtain ⟨a1, a2, a3⟩ := iha pre [] lc
    obtain ⟨b1, b2, b3⟩ := ihb [] post lc
    have m1 := m [.term]
    have m2 := m jaiTypes
    have m3 := m convTypes
    refine ⟨fun j hj => ?_, by simp only [Sb.chain]; omega, fun h => ⟨a3 (by omega), b3 (by omega)⟩⟩
    simp only [jobs, List.mem_append] at hj
    rcases hj with hj | hj
    · have := a1 j hj; simp only [List.length_nil] at this; omega
    · have := b1 j hj; simp only [List.length_nil] at this; omega
  | tanru k _ ih => exact step (kid_sub k) (ih pre post lc)
  | conn k _ _ ih => exact step (kid_sub k) (ih pre post lc)
  | connMore _ k k' _ _ iha ihb => exact both (kid_sub k) (kid_sub k') iha ihb
  | connKe _ _ k k2 k' _ _ iha ihb => exact both ((kid_sub k).trans (kid_sub k2)) (kid_sub k') iha ihb
  | bo k _ _ ih => exact step (kid_sub k) (ih pre post lc)
  | boMore k k' _ _ iha ihb => exact both (kid_sub k) (kid_sub k') iha ihb
  | unit _ ih => exact step (.child (List.mem_singleton.2 rfl) (.child (List.mem_singleton.2 rfl) .refl)) (ih pre post lc)
  | cei _ => exact ⟨fun j hj => by simp [jobs] at hj, Nat.zero_le _, fun _ => trivial⟩
  | unitBo _ _ k' _ ih => exact step (kid_sub k') (ih pre post lc)
  | guhek _ _ k k' _ _ iha ihb => exact both (kid_sub k) (kid_sub k') iha ihb
  | plain _ ih => exact step (.child (List.mem_singleton.2 rfl) .refl) (ih pre post lc)
  | @linked i j k cs ls r es a _ hl ih =>
    obtain ⟨h1, h2, h3⟩ := ih pre post (lc ++ [.links es])
    have l := linked_few hl
    simp only [num, numList] at *
    refine ⟨fun j hj => ?_, ?_, fun h => ⟨by omega, h3 (by omega)⟩⟩
    · have := h1 j hj
      simp only [entries_append, jais_append, entries, jais] at this
      omega
    · have : NT.linkargs ∈ convTypes := by decide
      simp only [Sb.chain, if_pos this]; omega
  | word _ =>
    refine ⟨fun j hj => ?_, Nat.zero_le _, fun _ => trivial⟩
    simp only [jobs, List.mem_singleton] at hj
    subst hj
    simp only; omega
  | ke k _ ih => exact step (.child (List.mem_cons_self ..) (kid_sub k)) (ih pre post lc)
  | @se i j c k w p cs r u us a _ _ hk _ ih =>
    obtain ⟨h1, h2, h3⟩ := ih pre post (lc ++ [.se p c.id])
    obtain ⟨l1, l2, l3⟩ := le (kid_sub (i := j) (u := .seTu2) hk)
    obtain ⟨m1, m2, _⟩ := le (.child (List.mem_cons_self ..) .refl : Sub (.nt i .tanruUnit2 (.nt j .seTu2 (c :: cs) :: r)) (.nt j .seTu2 (c :: cs)))
    have hc := num_kid (ts := convTypes) hk
    refine ⟨fun j hj => ?_, ?_, fun h => h3 (by omega)⟩
    · have := h1 j hj
      simp only [entries_append, jais_append, entries, jais] at this
      omega
    · have : NT.seTu2 ∈ convTypes := by decide
      simp only [Sb.chain, num.eq_1, numList, if_pos this] at *; omega
  | @jai i j cs r u us a hk _ ih =>
    obtain ⟨h1, h2, h3⟩ := ih pre post (lc ++ [.jai])
    obtain ⟨l1, l2, l3⟩ := le (kid_sub (i := j) (u := .jaiTu2) hk)
    obtain ⟨m1, m2, _⟩ := le (.child (List.mem_cons_self ..) .refl : Sub (.nt i .tanruUnit2 (.nt j .jaiTu2 cs :: r)) (.nt j .jaiTu2 cs))
    have hc := num_kid (ts := convTypes) hk
    have hj' := num_kid (ts := jaiTypes) hk
    have i1 : NT.jaiTu2 ∈ convTypes := by decide
    have i2 : NT.jaiTu2 ∈ jaiTypes := by decide
    refine ⟨fun j hj => ?_, ?_, fun h => h3 (by omega)⟩
    · have := h1 j hj
      simp only [entries_append, jais_append, entries, jais] at this
      simp only [num.eq_1, numList, if_pos i2] at *
      omega
    · simp only [Sb.chain, num.eq_1, numList, if_pos i1] at *; omega
  | @jaiTag i j cs r t ts u us a _ hk _ ih =>
    obtain ⟨h1, h2, h3⟩ := ih pre post (lc ++ [.jaiTag t.id u.id])
    obtain ⟨l1, l2, l3⟩ := le (kid_sub (i := j) (u := .jaiTagTu2) hk)
    obtain ⟨m1, m2, _⟩ := le (.child (List.mem_cons_self ..) .refl : Sub (.nt i .tanruUnit2 (.nt j .jaiTagTu2 cs :: r)) (.nt j .jaiTagTu2 cs))
    have hc := num_kid (ts := convTypes) hk
    have hj' := num_kid (ts := jaiTypes) hk
    have i1 : NT.jaiTagTu2 ∈ convTypes := by decide
    have i2 : NT.jaiTagTu2 ∈ jaiTypes := by decide
    refine ⟨fun j hj => ?_, ?_, fun h => h3 (by omega)⟩
    · have := h1 j hj
      simp only [entries_append, jais_append, entries, jais] at this
      simp only [num.eq_1, numList, if_pos i2] at *
      omega
    · simp only [Sb.chain, num.eq_1, numList, if_pos i1] at *; omega
  | nahe k _ ih => exact step (.child (List.mem_cons_self ..) (kid_sub k)) (ih pre post lc)
  | nus => exact ⟨fun j hj => by simp [jobs] at hj, Nat.zero_le _, fun _ => trivial⟩

end Jbo.Gram
