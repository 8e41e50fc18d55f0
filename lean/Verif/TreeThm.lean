import Verif.Tree
import Verif.TreeSpec

/-! # Theorems about parse trees (C14, C15, C44, C45) -/

namespace Jbo.Tree
open Jbo Lex2 Lex2Spec TreeSpec

theorem leavesList_eq {α} (cs : List (Tree α)) : leavesList cs = cs.flatMap leaves := by
  induction cs with
  | nil => rfl
  | cons c cs ih => rw [leavesList, ih]; rfl

theorem polishList_eq {α} (cs : List (Tree α)) : polishList cs = cs.flatMap polish := by
  induction cs with
  | nil => rfl
  | cons c cs ih => rw [polishList, ih]; rfl

theorem expandList_eq (cs : List (Tree Node)) : expandList cs = cs.map expand := by
  induction cs with
  | nil => rfl
  | cons c cs ih => rw [expandList, ih]; rfl

theorem readLeaf_own (l : Leaf) : readLeaf l = l.bahe ++ ownWords l := rfl

/-! ## C14 -/

theorem bahe_leaves (bs : List Tok) :
    (leavesList (baheLeaves bs)).flatMap (fun n => ownWords n.leaf) = bs := by
  induction bs with
  | nil => rfl
  | cons b bs ih =>
    simp only [baheLeaves, List.map_cons, leavesList, List.flatMap_append] at *
    rw [ih]; rfl

theorem expandUi_words (l : Leaf) :
    (leaves (expandUi l)).flatMap (fun n => ownWords n.leaf) = readLeaf l := by
  rw [expandUi]
  split
  · rename_i h; simp [leaves, readLeaf_own, h]
  · have := bahe_leaves l.bahe
    rw [leavesList_eq] at this
    simp [leaves, leavesList_eq, List.flatMap_append, this, readLeaf_own]

theorem expandLeaf_words (n : Node) :
    (leaves (expandLeaf n)).flatMap (fun n => ownWords n.leaf) = readNode n := by
  rw [expandLeaf]
  split
  · rename_i h; simp [leaves, readNode, readLeaf_own, h]
  · have := bahe_leaves n.leaf.bahe
    rw [leavesList_eq] at this
    have hui : ∀ ls : List Leaf,
        ((ls.map expandUi).flatMap leaves).flatMap (fun n => ownWords n.leaf) = ls.flatMap readLeaf := by
      intro ls
      induction ls with
      | nil => rfl
      | cons l ls ih => rw [List.map_cons, List.flatMap_cons, List.flatMap_append, ih, expandUi_words]; rfl
    simp only [leaves, leavesList_eq, List.flatMap_append, List.flatMap_cons, this, hui, readNode,
      readLeaf_own, List.flatMap_nil, List.append_nil, List.append_assoc, List.cons_append,
      List.nil_append]

mutual
theorem expand_words : (t : Tree Node) →
    (leaves (expand t)).flatMap (fun n => ownWords n.leaf) = (leaves t).flatMap readNode
  | .leaf n => by rw [expand, expandLeaf_words]; simp [leaves]
  | .node _ cs => by rw [expand, leaves, leaves]; exact expandList_words cs
theorem expandList_words : (cs : List (Tree Node)) →
    (leavesList (expandList cs)).flatMap (fun n => ownWords n.leaf) =
      (leavesList cs).flatMap readNode
  | [] => rfl
  | c :: cs => by
    rw [expandList, leavesList, leavesList, List.flatMap_append, List.flatMap_append, expand_words c,
      expandList_words cs]
end

/-- C14.  Expanding the attachments of any parse tree with a non-terminal root: the words of the
leaves, left to right, are the words of the source as attached (emphasis before its word,
indicators after it, recursively). -/
theorem expand_source_order (ty : Ty) (cs : List (Tree Node)) :
    (leaves (expandTop (.node ty cs))).flatMap (fun n => ownWords n.leaf) =
      (leaves (.node ty cs)).flatMap readNode := by
  rw [expandTop, leaves, leaves]; exact expandList_words cs

mutual
theorem expand_ui : (t : Tree Node) → ∀ n ∈ leaves (expand t), n.ui = []
  | .leaf n => by
    rw [expand, expandLeaf]
    split
    · rename_i h; simp [leaves, h.2]
    · intro m hm
      simp only [leaves, leavesList_eq, List.mem_flatMap] at hm
      obtain ⟨c, hc, hm⟩ := hm
      rcases List.mem_append.1 hc with h | h
      · simp only [baheLeaves, List.mem_map] at h
        obtain ⟨b, _, rfl⟩ := h
        simp [leaves] at hm; subst hm; rfl
      · rcases List.mem_cons.1 h with h | h
        · subst h; simp [leaves] at hm; subst hm; rfl
        · simp only [List.mem_map] at h
          obtain ⟨l, _, rfl⟩ := h
          rw [expandUi] at hm
          split at hm
          · simp [leaves] at hm; subst hm; rfl
          · simp only [leaves, leavesList_eq, List.mem_flatMap] at hm
            obtain ⟨c, hc, hm⟩ := hm
            rcases List.mem_append.1 hc with h | h
            · simp only [baheLeaves, List.mem_map] at h
              obtain ⟨b, _, rfl⟩ := h
              simp [leaves] at hm; subst hm; rfl
            · simp at h; subst h; simp [leaves] at hm; subst hm; rfl
  | .node _ cs => by rw [expand, leaves]; exact expandList_ui cs
theorem expandList_ui : (cs : List (Tree Node)) → ∀ n ∈ leavesList (expandList cs), n.ui = []
  | [] => by simp [expandList, leavesList]
  | c :: cs => by
    intro n hn
    rw [expandList, leavesList] at hn
    rcases List.mem_append.1 hn with h | h
    · exact expand_ui c n h
    · exact expandList_ui cs n h
end

/-- Afterwards no indicator is hidden in an attachment list. -/
theorem expand_all_visible (ty : Ty) (cs : List (Tree Node)) :
    ∀ n ∈ leaves (expandTop (.node ty cs)), n.ui = [] := by
  rw [expandTop, leaves]; exact expandList_ui cs

/-- A tree without attachments is unchanged. -/
theorem expand_plain (ty : Ty) (cs : List (Tree Node))
    (h : ∀ n ∈ leavesList cs, n.leaf.bahe = [] ∧ n.ui = []) :
    expandTop (.node ty cs) = .node ty cs := by
  have key : (∀ t : Tree Node, (∀ n ∈ leaves t, n.leaf.bahe = [] ∧ n.ui = []) → expand t = t) := by
    intro t
    refine Tree.rec (motive_1 := fun t => (∀ n ∈ leaves t, n.leaf.bahe = [] ∧ n.ui = []) → expand t = t)
      (motive_2 := fun cs => (∀ n ∈ leavesList cs, n.leaf.bahe = [] ∧ n.ui = []) → expandList cs = cs)
      ?_ ?_ ?_ ?_ t
    · intro n hn; rw [expand, expandLeaf, if_pos (hn n (by simp [leaves]))]
    · intro ty cs ih hn; rw [expand, ih (by simpa [leaves] using hn)]
    · intro _; rfl
    · intro c cs ih1 ih2 hn
      rw [expandList, ih1 (fun n h => hn n (by simp [leavesList, h])),
        ih2 (fun n h => hn n (by simp [leavesList, h]))]
  rw [expandTop, expandList_eq]
  congr 1
  have : ∀ c ∈ cs, expand c = c := by
    intro c hc
    refine key c (fun n hn => h n ?_)
    rw [leavesList_eq]; exact List.mem_flatMap.2 ⟨c, hc, hn⟩
  exact (List.map_congr_left this).trans (List.map_id _)

/-- The chain on an expanded word is not reset by the code: expanding a second time repeats
ba'e.  (The program expands once.) -/
theorem expand_twice_repeats :
    let t : Tree Node := .node (.nt 0) [.leaf (.mk (.mk (.brivla "klama".toList)
      [.cmavo .BAhE "ba'e".toList] false none) [])]
    (leaves (expandTop t)).map (fun n => n.leaf.tok) =
      [.cmavo .BAhE "ba'e".toList, .brivla "klama".toList] ∧
    (leaves (expandTop (expandTop t))).map (fun n => n.leaf.tok) =
      [.cmavo .BAhE "ba'e".toList, .cmavo .BAhE "ba'e".toList, .brivla "klama".toList] := by
  decide +kernel

/-- "ba'e mi .ui ba'e .ui klama" -/
def sampleTree : Tree Node :=
  .node (.nt 7)
    [.leaf (.mk (.mk (.cmavo .KOhA "mi".toList) [.cmavo .BAhE "ba'e".toList] false none)
      [.mk (.cmavo .UI "ui".toList) [] true none,
       .mk (.cmavo .UI "ui".toList) [.cmavo .BAhE "ba'e".toList] false none]),
     .node (.nt 3) [.leaf (.mk (.mk (.brivla "klama".toList) [] false none) [])]]

example : (leaves (expandTop sampleTree)).flatMap (fun n => ownWords n.leaf) =
    [.cmavo .BAhE "ba'e".toList, .cmavo .KOhA "mi".toList, .cmavo .UI "ui".toList, naiTok,
     .cmavo .BAhE "ba'e".toList, .cmavo .UI "ui".toList, .brivla "klama".toList] := by decide +kernel

/-! ## C15 -/

theorem compress_node {α} (ty : Ty) (cs : List (Tree α)) :
    compress (.node ty cs) = .node ty (cs.map (fun c => compress (strip c))) := by
  rw [compress]; congr 1
  exact List.attach_map_val (l := cs) (f := fun c => compress (strip c))

theorem strip_polish {α} (t : Tree α) :
    (polish (strip t)).filter Item.keep = (polish t).filter Item.keep := by
  induction t using strip.induct with
  | case1 ty c ih => rw [strip, ih]; simp [polish, polishList, Item.keep]
  | case2 t h => rw [strip]; exact h

/-- A tree that is a leaf or has other than one child. -/
def NotSingle {α} : Tree α → Prop
  | .node _ [_] => False
  | _ => True

theorem strip_notSingle {α} (t : Tree α) : NotSingle (strip t) := by
  induction t using strip.induct with
  | case1 ty c ih => rw [strip]; exact ih
  | case2 t h =>
    rw [strip]
    · cases t with
      | leaf a => trivial
      | node ty cs =>
        match cs, h with
        | [], _ => trivial
        | [c], h => exact absurd rfl (h ty c)
        | _ :: _ :: _, _ => trivial
    · exact h

theorem compress_notSingle {α} (t : Tree α) (h : NotSingle t) : NotSingle (compress t) := by
  cases t with
  | leaf a => rw [compress]; trivial
  | node ty cs =>
    rw [compress_node]
    match cs, h with
    | [], _ => trivial
    | _ :: _ :: _, _ => trivial

theorem strip_id {α} (t : Tree α) (h : NotSingle t) : strip t = t := by
  cases t with
  | leaf a => rfl
  | node ty cs =>
    match cs, h with
    | [], _ => rfl
    | _ :: _ :: _, _ => rfl

/-- Induction over trees by size. -/
theorem size_induct {α} {P : Tree α → Prop}
    (step : ∀ t, (∀ t', sizeOf t' < sizeOf t → P t') → P t) (t : Tree α) : P t := by
  induction hl : sizeOf t using Nat.strongRecOn generalizing t with
  | ind n ih => exact step t (fun t' h => ih _ (by omega) t' rfl)

theorem child_size {α} {c : Tree α} {ty : Ty} {cs : List (Tree α)} (h : c ∈ cs) :
    sizeOf (strip c) < sizeOf (Tree.node ty cs) := by
  have h1 := List.sizeOf_lt_of_mem h
  have h2 := strip_size c
  simp; omega

theorem compress_polish {α} (t : Tree α) :
    (polish (compress t)).filter Item.keep = (polish t).filter Item.keep := by
  induction t using size_induct with
  | step t ih =>
  cases t with
  | leaf a => rw [compress]
  | node ty cs =>
    rw [compress_node, polish, polish, List.length_map, List.filter_cons, List.filter_cons]
    have : (polishList (cs.map (fun c => compress (strip c)))).filter Item.keep =
        (polishList cs).filter Item.keep := by
      have hc : ∀ c ∈ cs, (polish (compress (strip c))).filter Item.keep = (polish c).filter Item.keep :=
        fun c hc => (ih _ (child_size hc)).trans (strip_polish c)
      clear ih
      induction cs with
      | nil => rfl
      | cons c cs ih =>
        simp only [List.map_cons, polishList, List.filter_append]
        rw [hc c (by simp), ih (fun c h => hc c (by simp [h]))]
    rw [this]

mutual
theorem leaves_polish {α} : (t : Tree α) →
    leaves t = ((polish t).filter Item.keep).filterMap (fun i => match i with | .word a => some a | _ => none)
  | .leaf a => rfl
  | .node ty cs => by
    have := leavesList_polish cs
    rw [leaves, polish, List.filter_cons, this]
    split <;> rfl
theorem leavesList_polish {α} : (cs : List (Tree α)) →
    leavesList cs =
      ((polishList cs).filter Item.keep).filterMap (fun i => match i with | .word a => some a | _ => none)
  | [] => rfl
  | c :: cs => by
    rw [leavesList, polishList, List.filter_append, List.filterMap_append, ← leaves_polish c,
      ← leavesList_polish cs]
end

/-- C15.  The leaf sequence of every tree is preserved. -/
theorem compress_leaves {α} (t : Tree α) : leaves (compress t) = leaves t := by
  rw [leaves_polish, compress_polish, ← leaves_polish]

/-- Every node below the root is a leaf or has other than one child. -/
inductive Compact {α} : Tree α → Prop
  | leaf (a) : Compact (.leaf a)
  | node (ty cs) (h1 : ∀ c ∈ cs, NotSingle c) (h2 : ∀ c ∈ cs, Compact c) : Compact (.node ty cs)

/-- C15.  No single-child non-terminal remains below the root. -/
theorem compress_compact {α} (t : Tree α) : Compact (compress t) := by
  induction t using size_induct with
  | step t ih =>
  cases t with
  | leaf a => rw [compress]; exact .leaf a
  | node ty cs =>
    rw [compress_node]
    refine .node _ _ (fun c hc => ?_) (fun c hc => ?_)
    · obtain ⟨c', hc', rfl⟩ := List.mem_map.1 hc
      exact compress_notSingle _ (strip_notSingle c')
    · obtain ⟨c', hc', rfl⟩ := List.mem_map.1 hc
      exact ih _ (child_size hc')

/-- A compact tree is left alone. -/
theorem compress_of_compact {α} (t : Tree α) (h : Compact t) : compress t = t := by
  induction h with
  | leaf a => rw [compress]
  | node ty cs h h2 ih =>
    rw [compress_node]
    congr 1
    have : ∀ c ∈ cs, compress (strip c) = c := by
      intro c hc
      rw [strip_id c (h c hc)]; exact ih c hc
    exact (List.map_congr_left this).trans (List.map_id _)

/-- C15.  Compressing twice is compressing once. -/
theorem compress_idempotent {α} (t : Tree α) : compress (compress t) = compress t :=
  compress_of_compact _ (compress_compact t)

/-- C15.  The compressed tree, in prefix notation, is that of the tree with the unary nodes
below the root left out and nothing else changed; the root itself is kept. -/
theorem compress_exact {α} (ty : Ty) (cs : List (Tree α)) :
    ∃ cs', compress (.node ty cs) = .node ty cs' ∧ cs'.length = cs.length ∧
      polishList cs' = (polishList cs).filter Item.keep := by
  refine ⟨_, compress_node ty cs, List.length_map _, ?_⟩
  have full : ∀ t : Tree α, NotSingle t → Compact t → (polish t).filter Item.keep = polish t := by
    intro t hn hc
    induction hc with
    | leaf a => rfl
    | node ty cs h h2 ih =>
      have : (polishList cs).filter Item.keep = polishList cs := by
        clear hn
        induction cs with
        | nil => rfl
        | cons c cs ihc =>
          rw [polishList, List.filter_append, ih c (by simp) (h c (by simp)),
            ihc (fun c hc => h c (by simp [hc])) (fun c hc => h2 c (by simp [hc]))
              (fun c hc => ih c (by simp [hc]))]
      rw [polish, List.filter_cons, this]
      match cs, hn with
      | [], _ => rfl
      | _ :: _ :: _, _ => rfl
  induction cs with
  | nil => rfl
  | cons c cs ih =>
    simp only [List.map_cons, polishList, List.filter_append]
    rw [ih]
    congr 1
    rw [← strip_polish, ← compress_polish (strip c)]
    exact (full _ (compress_notSingle _ (strip_notSingle c)) (compress_compact _)).symm

example : leaves (compress (.node (.nt 0) [.node (.nt 1) [.node (.nt 2) [.leaf 5, .node (.nt 3) [.leaf 6]]]])) =
    [5, 6] := by decide +kernel

/-- Prefix notation determines the tree. -/
theorem polish_append_injective {α} (t t' : Tree α) (r r' : List (Item α))
    (h : polish t ++ r = polish t' ++ r') : t = t' ∧ r = r' := by
  refine (Tree.rec
    (motive_1 := fun t => ∀ (t' : Tree α) (r r' : List (Item α)), polish t ++ r = polish t' ++ r' → t = t' ∧ r = r')
    (motive_2 := fun cs => ∀ (cs' : List (Tree α)) (r r' : List (Item α)), cs.length = cs'.length →
      polishList cs ++ r = polishList cs' ++ r' → cs = cs' ∧ r = r')
    ?_ ?_ ?_ ?_ t) t' r r' h
  · intro a t' r r' h
    cases t' with
    | leaf b => simp [polish] at h; exact ⟨by rw [h.1], h.2⟩
    | node ty cs => simp [polish] at h
  · intro ty cs ih t' r r' h
    cases t' with
    | leaf b => simp [polish] at h
    | node ty' cs' =>
      simp [polish] at h
      obtain ⟨⟨h1, h2⟩, h3⟩ := h
      obtain ⟨h4, h5⟩ := ih cs' r r' h2 h3
      exact ⟨by rw [h1, h4], h5⟩
  · intro cs' r r' hl h
    cases cs' with
    | nil => exact ⟨rfl, by simpa [polishList] using h⟩
    | cons c cs => simp at hl
  · intro c cs ih1 ih2 cs' r r' hl h
    cases cs' with
    | nil => simp at hl
    | cons c' cs' =>
      simp only [polishList, List.append_assoc] at h
      obtain ⟨h1, h2⟩ := ih1 c' _ _ h
      obtain ⟨h3, h4⟩ := ih2 cs' r r' (by simpa using hl) h2
      exact ⟨by rw [h1, h3], h4⟩

/-! ## C44: bracketed output -/

theorem spaced_dense (ws : List Word) : dense (spaced ws) = ws.map .txt := by
  induction ws with
  | nil => rfl
  | cons w ws ih =>
    cases ws with
    | nil => rfl
    | cons v vs =>
      rw [spaced]
      · simp only [dense] at *
        simp [ih, ink, List.filter_cons]
      · simp

theorem dense_append (a b : List Ev) : dense (a ++ b) = dense a ++ dense b := by
  simp [dense, ink, List.filter_cons]

theorem dense_spaceB4 (st : St) : dense (spaceB4 st) = [] := by
  rw [spaceB4]; split <;> rfl

theorem dense_clear (st : St) (n : Nat) : dense (clearEols st n).1 = [] := by
  rw [clearEols]; split
  · simp [dense, ink, List.filter_cons]
  · rfl

theorem caiPieces_eq {c : Cai} (h : c ≠ .PEINAI) : caiPieces c = (caiWords c).flatMap tokText := by
  cases c <;> first | rfl | exact absurd rfl h

theorem cmavoPieces_eq (p : PLeaf) (s : Sel) (w : Word) (h : Showable p)
    (hp : p.leaf.tok = .cmavo s w) : cmavoPieces p s w = shown p := by
  obtain ⟨h1, h2⟩ := h
  rw [cmavoPieces, shown, hp]
  by_cases he : p.elid
  · simp only [he, if_true]; rfl
  · simp only [he]
    rw [hp] at h1 h2
    by_cases hs : s = .UI
    · subst hs
      simp only [ownWords, hp]
      cases hn : p.leaf.neg <;> cases hc : p.leaf.cai with
      | none => simp [tokText, naiTok]
      | some c =>
        rw [hc] at h2
        have := caiPieces_eq (c := c) (fun e => (h2 (by simp)).2 (by rw [e]))
        simp [tokText, naiTok, this]
    · have hc : p.leaf.cai = none := by
        cases hc : p.leaf.cai with
        | none => rfl
        | some c => have := (h2 (by simp [hc])).1; simp [Tok.isSel, hs] at this
      by_cases hs2 : s = .CAI
      · subst hs2
        simp only [ownWords, hp, hc]
        cases hn : p.leaf.neg <;> simp [tokText, naiTok]
      · have hn : p.leaf.neg = false := by
          rw [Bool.eq_false_iff]; intro e
          have := h1 e; simp [Tok.isSel, hs, hs2] at this
        simp [ownWords, hp, hc, hn, hs, hs2, tokText]

theorem shown_other (p : PLeaf) (h : Showable p) (hn : ∀ s w, p.leaf.tok ≠ .cmavo s w) :
    shown p = tokText p.leaf.tok := by
  obtain ⟨h1, h2⟩ := h
  have hsel : ∀ s, p.leaf.tok.isSel s = false := by
    intro s
    cases ht : p.leaf.tok <;> simp [Tok.isSel]
    exact absurd ht (hn _ _)
  have e1 : p.leaf.neg = false := by
    rw [Bool.eq_false_iff]; intro e; have := h1 e; simp [hsel] at this
  have e2 : p.leaf.cai = none := by
    cases hc : p.leaf.cai with
    | none => rfl
    | some c => have := (h2 (by simp [hc])).1; simp [hsel] at this
  rw [shown]
  split
  · split
    · rename_i h; exact absurd h (hn _ _)
    · rfl
  · simp [ownWords, e1, e2]

theorem joinZei (parts : List Word) : joinWith " zei ".toList parts = List.intercalate " zei ".toList parts := by
  induction parts with
  | nil => rfl
  | cons w ws ih =>
    cases ws with
    | nil => simp [joinWith, List.intercalate]
    | cons v vs =>
      rw [joinWith, ih]
      · simp [List.intercalate, List.intersperse]
      · simp

theorem prLeaf_dense (p : PLeaf) (d : Nat) (st : St) (n : Nat) (h : Showable p) :
    dense (prLeaf p d st n).1 = mirror (.leaf p) d := by
  have hc := dense_clear st n
  rw [prLeaf, mirror]
  generalize clearEols st n = ce at *
  obtain ⟨e0, st'⟩ := ce
  simp only at hc ⊢
  cases ht : p.leaf.tok with
  | cmavo s w =>
    simp only [dense_append, dense_spaceB4, spaced_dense, hc, List.nil_append]
    rw [cmavoPieces_eq p s w h ht]
  | zei parts =>
    have hs := shown_other p h (by intro s w e; rw [ht] at e; cases e)
    rw [ht] at hs
    simp only [dense_append, hc, List.nil_append, hs, tokText, joinZei]
    rfl
  | _ =>
    have hs := shown_other p h (by intro s w e; rw [ht] at e; cases e)
    rw [ht] at hs
    simp only [dense_append, dense_spaceB4, spaced_dense, hc, List.nil_append, hs, tokText]
    try simp [dense, ink, List.filter_cons]

mutual
theorem pr_dense : (t : Tree PLeaf) → (∀ p ∈ leaves t, Showable p) → ∀ (d : Nat) (st : St) (n : Nat),
    dense (pr t d st n).1 = mirror t d
  | .leaf p, h, d, st, n => by rw [pr]; exact prLeaf_dense p d st n (h p (by simp [leaves]))
  | .node ty cs, h, d, st, n => by
    have ih := prList_dense cs (by simpa [leaves] using h) (d + 1) .B_OPEN 0
    rw [pr, mirror]
    simp only [dense_append, dense_clear, dense_spaceB4, ih]
    simp [dense, ink, List.filter_cons]
theorem prList_dense : (cs : List (Tree PLeaf)) → (∀ p ∈ leavesList cs, Showable p) →
    ∀ (d : Nat) (st : St) (n : Nat), dense (prList cs d st n).1 = mirrorList cs d
  | [], _, d, st, n => rfl
  | c :: cs, h, d, st, n => by
    have i1 := pr_dense c (fun p hp => h p (by simp [leavesList, hp])) d st n
    have i2 := prList_dense cs (fun p hp => h p (by simp [leavesList, hp])) d
      (pr c d st n).2.1 (pr c d st n).2.2
    rw [prList, mirrorList]
    simp only [dense_append, i1, i2]
end

/-- C44, partial.  Up to white space the printout is the bracketing that mirrors the tree, for
every tree whose attachments the printer knows (`Showable`).  Missing: leaves that are not
`Showable`; the statement fails there (`pei_nai_not_shown`, `cai_cai_not_shown`). -/
theorem print_mirrors_partial (t : Tree PLeaf) (h : ∀ p ∈ leaves t, Showable p) :
    dense (printText t) = mirror t 0 := by
  rw [printText, dense_append, pr_dense t h]; simp [dense, ink, List.filter_cons]

mutual
theorem mirror_texts : (t : Tree PLeaf) → ∀ d, texts (mirror t d) = (leaves t).flatMap shown
  | .leaf p, d => by
    have hm : ∀ ws : List Word, texts (ws.map .txt) = ws := by
      intro ws; induction ws with
      | nil => rfl
      | cons w ws ih => simp [texts, ih]
    have hm2 : ∀ ws : List Word, texts (ws.map .txt ++ [Ev.cl (d + 1)]) = ws := by
      intro ws; induction ws with
      | nil => rfl
      | cons w ws ih => simp [texts, ih]
    rw [mirror]
    simp only [leaves, List.flatMap_cons, List.flatMap_nil, List.append_nil]
    split <;> first | (simp only [List.cons_append, texts]; exact hm2 _) | exact hm _
  | .node ty cs, d => by
    have := mirrorList_texts cs (d + 1) [Ev.cl d]
    rw [mirror, leaves, List.cons_append]
    show texts (mirrorList cs (d + 1) ++ [Ev.cl d]) = _
    rw [this]; simp [texts]
theorem mirrorList_texts : (cs : List (Tree PLeaf)) → ∀ d es,
    texts (mirrorList cs d ++ es) = (leavesList cs).flatMap shown ++ texts es
  | [], d, es => rfl
  | c :: cs, d, es => by
    have happ : ∀ a b : List Ev, texts (a ++ b) = texts a ++ texts b := by
      intro a b; induction a with
      | nil => rfl
      | cons e a ih => cases e <;> simp [texts, ih]
    have := mirrorList_texts cs d es
    rw [mirrorList, leavesList, List.append_assoc, happ, this, mirror_texts c d]
    simp
end

/-- C44, partial.  The text pieces printed are the words of the leaves in order. -/
theorem print_words_partial (t : Tree PLeaf) (h : ∀ p ∈ leaves t, Showable p) :
    texts (printText t) = (leaves t).flatMap shown := by
  have hd : ∀ es : List Ev, texts (dense es) = texts es := by
    intro es; induction es with
    | nil => rfl
    | cons e es ih => simp only [dense] at *; cases e <;> simp [texts, ih, ink, List.filter_cons]
  rw [← hd, print_mirrors_partial t h, mirror_texts]

theorem nest_append (a b : List Ev) (s : List Nat) : nest s (a ++ b) = (nest s a).bind (fun s' => nest s' b) := by
  induction a generalizing s with
  | nil => rfl
  | cons e a ih =>
    cases e with
    | cl d =>
      cases s with
      | nil => rfl
      | cons d' s => simp only [List.cons_append, nest]; split
                     · exact ih s
                     · rfl
    | _ => simp [nest, ih]

theorem nest_quiet (es : List Ev) (h : ∀ e ∈ es, e = .sp ∨ e = .nl ∨ ∃ w, e = .txt w) (s : List Nat) :
    nest s es = some s := by
  induction es with
  | nil => rfl
  | cons e es ih =>
    have := ih (fun e he => h e (by simp [he]))
    rcases h e (by simp) with rfl | rfl | ⟨w, rfl⟩ <;> simp [nest, this]

theorem quiet_spaced (ws : List Word) : ∀ e ∈ spaced ws, e = .sp ∨ e = .nl ∨ ∃ w, e = .txt w := by
  induction ws with
  | nil => simp [spaced]
  | cons w ws ih =>
    cases ws with
    | nil => simp [spaced]
    | cons v vs =>
      rw [spaced]
      · intro e he
        rcases List.mem_cons.1 he with rfl | he
        · simp
        rcases List.mem_cons.1 he with rfl | he
        · simp
        · exact ih e he
      · simp

theorem quiet_spaceB4 (st : St) : ∀ e ∈ spaceB4 st, e = .sp ∨ e = .nl ∨ ∃ w, e = .txt w := by
  rw [spaceB4]; split <;> simp

theorem quiet_clear (st : St) (n : Nat) : ∀ e ∈ (clearEols st n).1, e = .sp ∨ e = .nl ∨ ∃ w, e = .txt w := by
  rw [clearEols]; split
  · intro e he; rw [List.eq_of_mem_replicate he]; simp
  · simp

theorem prLeaf_nest (p : PLeaf) (d : Nat) (st : St) (n : Nat) (s : List Nat) :
    nest s (prLeaf p d st n).1 = some s := by
  have hc := quiet_clear st n
  rw [prLeaf]
  generalize clearEols st n = ce at *
  obtain ⟨e0, st'⟩ := ce
  simp only at hc ⊢
  cases p.leaf.tok <;>
    simp [nest_append, nest_quiet _ hc, nest_quiet _ (quiet_spaceB4 _), nest_quiet _ (quiet_spaced _), nest]

mutual
theorem pr_nest : (t : Tree PLeaf) → ∀ (d : Nat) (st : St) (n : Nat) (s : List Nat),
    nest s (pr t d st n).1 = some s
  | .leaf p, d, st, n, s => by rw [pr]; exact prLeaf_nest p d st n s
  | .node ty cs, d, st, n, s => by
    have := prList_nest cs (d + 1) .B_OPEN 0 (d :: s)
    rw [pr]
    simp [nest_append, nest_quiet _ (quiet_clear _ _), nest_quiet _ (quiet_spaceB4 _), nest, this]
theorem prList_nest : (cs : List (Tree PLeaf)) → ∀ (d : Nat) (st : St) (n : Nat) (s : List Nat),
    nest s (prList cs d st n).1 = some s
  | [], d, st, n, s => rfl
  | c :: cs, d, st, n, s => by
    have i1 := pr_nest c d st n s
    have i2 := prList_nest cs d (pr c d st n).2.1 (pr c d st n).2.2 s
    rw [prList]
    simp [nest_append, i1, i2]
end

/-- C44.  The brackets printed for any tree are properly nested and each closing bracket has the
depth (kind and number) of its opening bracket. -/
theorem print_balanced (t : Tree PLeaf) : nest [] (printText t) = some [] := by
  rw [printText, nest_append, pr_nest]; rfl

/-- C44.  The closing bracket of a depth is the mate of the opening one with the same number. -/
theorem render_matches (d : Nat) :
    ∃ o c num, render (.op d) = o :: num ∧ render (.cl d) = c :: num ∧ mate o = some c := by
  have e1 : d % 4 < 4 := Nat.mod_lt _ (by decide)
  have c1 : d % 4 = 0 ∨ d % 4 = 1 ∨ d % 4 = 2 ∨ d % 4 = 3 := by omega
  rcases c1 with c1 | c1 | c1 | c1
  · exact ⟨'(', ')', _, by rw [render, if_pos c1], by rw [render, if_pos c1], by decide⟩
  · exact ⟨'[', ']', [], by simp [render, c1], by simp [render, c1], by decide⟩
  · exact ⟨'{', '}', [], by simp [render, c1], by simp [render, c1], by decide⟩
  · exact ⟨'<', '>', [], by simp [render, c1], by simp [render, c1], by decide⟩

/-! ### Pieces of text never touch -/

/-- Whether the output so far ends in text, `none` once two pieces touched. -/
def run : Bool → List Ev → Option Bool
  | b, [] => some b
  | b, .txt _ :: es => if b then none else run true es
  | _, _ :: es => run false es

theorem run_append (a c : List Ev) (b : Bool) : run b (a ++ c) = (run b a).bind (fun b' => run b' c) := by
  induction a generalizing b with
  | nil => rfl
  | cons e a ih => cases e <;> cases b <;> simp [run, ih]

theorem run_apart (es : List Ev) (b b' : Bool) (h : run b es = some b') : Apart es := by
  rintro p q v w rfl
  rw [run_append] at h
  cases hp : run b p with
  | none => simp [hp] at h
  | some c => rw [hp] at h; cases c <;> simp [run] at h

theorem run_spaced (ws : List Word) (h : ws ≠ []) : run false (spaced ws) = some true := by
  induction ws with
  | nil => exact absurd rfl h
  | cons w ws ih =>
    cases ws with
    | nil => rfl
    | cons v vs =>
      rw [spaced]
      · simp only [run]; exact ih (by simp)
      · simp

theorem run_spaceB4 (st : St) (b : Bool) (h : b = true → st = .B_TEXT) :
    run b (spaceB4 st) = some false := by
  rw [spaceB4]
  split
  · cases b <;> rfl
  · rename_i hst
    cases b with
    | false => rfl
    | true => exact absurd (Or.inl (h rfl)) hst

theorem run_clear (st : St) (n : Nat) (b : Bool) (h : b = true → st = .B_TEXT) :
    ∃ b', run b (clearEols st n).1 = some b' ∧ (b' = true → (clearEols st n).2 = .B_TEXT) := by
  rw [clearEols]
  split
  · rename_i hn
    refine ⟨false, ?_, by simp⟩
    have : ∀ n b, 0 < n → run b (List.replicate n .nl) = some false := by
      intro n
      induction n with
      | zero => intro b h; omega
      | succ n ih =>
        intro b _
        rw [List.replicate_succ]
        show run false (List.replicate n .nl) = some false
        cases n with
        | zero => rfl
        | succ n => exact ih false (by omega)
    exact this n b hn
  · exact ⟨b, rfl, h⟩

theorem cmavoPieces_ne (p : PLeaf) (s : Sel) (w : Word) : cmavoPieces p s w ≠ [] := by
  rw [cmavoPieces]; split <;> simp

theorem prLeaf_run (p : PLeaf) (d : Nat) (st : St) (n : Nat) (b : Bool) (h : b = true → st = .B_TEXT) :
    ∃ b', run b (prLeaf p d st n).1 = some b' ∧ (b' = true → (prLeaf p d st n).2.1 = .B_TEXT) := by
  obtain ⟨b1, h1, h2⟩ := run_clear st n b h
  rw [prLeaf]
  generalize clearEols st n = ce at *
  obtain ⟨e0, st'⟩ := ce
  simp only at h1 h2 ⊢
  have h3 := run_spaceB4 st' b1 h2
  cases p.leaf.tok with
  | cmavo s w => exact ⟨true, by simp [run_append, h1, h3, run_spaced _ (cmavoPieces_ne p s w)], by simp⟩
  | zoi f t x => exact ⟨true, by simp [run_append, h1, h3, run_spaced], by simp⟩
  | zo x => exact ⟨true, by simp [run_append, h1, h3, run_spaced], by simp⟩
  | zei x => exact ⟨false, by simp [run_append, h1, run], by simp⟩
  | lohu x => exact ⟨false, by simp [run_append, h1, h3, run_spaced, run], by simp⟩
  | bu x => exact ⟨true, by simp [run_append, h1, h3, run_spaced], by simp⟩
  | brivla x => exact ⟨true, by simp [run_append, h1, h3, run], by simp⟩
  | cmene x => exact ⟨true, by simp [run_append, h1, h3, run], by simp⟩
  | marker x => exact ⟨b1, h1, h2⟩
  | garbage x => exact ⟨b1, h1, h2⟩
  | broken x => exact ⟨b1, h1, h2⟩

mutual
theorem pr_run : (t : Tree PLeaf) → ∀ (d : Nat) (st : St) (n : Nat) (b : Bool),
    (b = true → st = .B_TEXT) →
    ∃ b', run b (pr t d st n).1 = some b' ∧ (b' = true → (pr t d st n).2.1 = .B_TEXT)
  | .leaf p, d, st, n, b, h => by rw [pr]; exact prLeaf_run p d st n b h
  | .node ty cs, d, st, n, b, h => by
    obtain ⟨b1, h1, h2⟩ := run_clear st n b h
    obtain ⟨b2, h3, _⟩ := prList_run cs (d + 1) .B_OPEN 0 false (by simp)
    rw [pr]
    exact ⟨false, by simp [run_append, h1, run_spaceB4 _ b1 h2, h3, run], by simp⟩
theorem prList_run : (cs : List (Tree PLeaf)) → ∀ (d : Nat) (st : St) (n : Nat) (b : Bool),
    (b = true → st = .B_TEXT) →
    ∃ b', run b (prList cs d st n).1 = some b' ∧ (b' = true → (prList cs d st n).2.1 = .B_TEXT)
  | [], d, st, n, b, h => ⟨b, rfl, h⟩
  | c :: cs, d, st, n, b, h => by
    obtain ⟨b1, h1, h2⟩ := pr_run c d st n b h
    obtain ⟨b2, h3, h4⟩ := prList_run cs d (pr c d st n).2.1 (pr c d st n).2.2 b1 h2
    rw [prList]
    exact ⟨b2, by simp [run_append, h1, h3], h4⟩
end

/-- C44.  In the printout of any tree two words never run together. -/
theorem print_apart (t : Tree PLeaf) : Apart (printText t) := by
  obtain ⟨b, h, _⟩ := pr_run t 0 .B_OPEN 0 false (by simp)
  refine run_apart _ false false ?_
  rw [printText, run_append, h]; rfl

/-- Defect: "ui pei nai" is printed as "ui pei". -/
theorem pei_nai_not_shown :
    let p : PLeaf := .mk (.mk (.cmavo .UI "ui".toList) [] false (some .PEINAI)) 0 false
    texts (printText (.leaf p)) = ["ui".toList, "pei".toList] ∧
      shown p = ["ui".toList, "pei".toList, "nai".toList] := by decide +kernel

/-- Defect: "cai sai" (the second attached to the first) is printed as "cai". -/
theorem cai_cai_not_shown :
    let p : PLeaf := .mk (.mk (.cmavo .CAI "cai".toList) [] false (some .SAI)) 0 false
    texts (printText (.leaf p)) = ["cai".toList] ∧
      shown p = ["cai".toList, "sai".toList] := by decide +kernel

/-- Defect: "fu'o nai" (nai attached to fu'o) is printed as "fu'o". -/
theorem fuho_nai_not_shown :
    let p : PLeaf := .mk (.mk (.cmavo .FUhO "fu'o".toList) [] true none) 0 false
    texts (printText (.leaf p)) = ["fu'o".toList] ∧
      shown p = ["fu'o".toList, "nai".toList] := by decide +kernel

/-- A tree meeting the hypotheses: "mi ui sai nai klama KU" with a line end. -/
def sampleP : Tree PLeaf :=
  .node (.nt 1) [.leaf (.mk (.mk (.cmavo .KOhA "mi".toList) [] false none) 0 false),
    .leaf (.mk (.mk (.cmavo .UI "ui".toList) [] true (some .SAINAI)) 1 false),
    .node (.nt 2) [.leaf (.mk (.mk (.brivla "klama".toList) [] false none) 0 false),
      .leaf (.mk (.mk (.cmavo .KU "ku".toList) [] false none) 0 true)]]

example : ∀ p ∈ leaves sampleP, Showable p := by
  simp [sampleP, leaves, leavesList, Showable, Tok.isSel]
example : (printText sampleP).flatMap render = "(0mi ui nai sai nai\n[klama KU])0\n".toList := by
  decide +kernel

/-! ## C45: tree display -/

/-- Line depth. -/
def Line.indent : Line → Nat
  | .nt _ d => d
  | .term _ d => d

mutual
theorem tr_deeper : (t : Tree PLeaf) → ∀ d, ∀ l ∈ tr t d, d ≤ l.indent
  | .leaf p, d => by
    rw [tr]; split
    · simp
    · simp [Line.indent]
  | .node ty cs, d => by
    intro l hl
    rw [tr] at hl
    rcases List.mem_append.1 hl with h | h
    · have := trList_deeper cs (d + 1) l h; omega
    · simp at h; subst h; simp [Line.indent]
theorem trList_deeper : (cs : List (Tree PLeaf)) → ∀ d, ∀ l ∈ trList cs d, d ≤ l.indent
  | [], d => by simp [trList]
  | c :: cs, d => by
    intro l hl
    rw [trList] at hl
    rcases List.mem_append.1 hl with h | h
    · exact tr_deeper c d l h
    · exact trList_deeper cs d l h
end

/-- Trees without markers (which are not displayed). -/
def NoMarkers (t : Tree PLeaf) : Prop := ∀ p ∈ leaves t, ∀ m, p.leaf.tok ≠ .marker m

/-- Cutting a display behind its first line of depth `d`. -/
theorem cut_unique (a a' r r' : List Line) (x x' : Line) (d : Nat)
    (ha : ∀ l ∈ a, d < l.indent) (ha' : ∀ l ∈ a', d < l.indent) (hx : x.indent = d) (hx' : x'.indent = d)
    (h : a ++ x :: r = a' ++ x' :: r') : a = a' ∧ x = x' ∧ r = r' := by
  induction a generalizing a' with
  | nil =>
    cases a' with
    | nil => simp at h; exact ⟨rfl, h.1, h.2⟩
    | cons b a' => simp at h; have := ha' b (by simp); rw [← h.1] at this; omega
  | cons c a ih =>
    cases a' with
    | nil => simp at h; have := ha c (by simp); rw [h.1] at this; omega
    | cons b a' =>
      simp at h
      obtain ⟨h1, h2, h3⟩ := ih a' (fun l hl => ha l (by simp [hl])) (fun l hl => ha' l (by simp [hl])) h.2
      exact ⟨by rw [h.1, h1], h2, h3⟩

/-- The last line of a tree's display is its root, the others are deeper. -/
theorem tr_split (t : Tree PLeaf) (d : Nat) (h : NoMarkers t) :
    ∃ a x, tr t d = a ++ [x] ∧ x.indent = d ∧ (∀ l ∈ a, d < l.indent) ∧
      ((∃ p, t = .leaf p ∧ a = [] ∧ x = .term p d) ∨
       (∃ ty cs, t = .node ty cs ∧ a = trList cs (d + 1) ∧ x = .nt ty d)) := by
  cases t with
  | leaf p =>
    refine ⟨[], .term p d, ?_, rfl, by simp, .inl ⟨p, rfl, rfl, rfl⟩⟩
    rw [tr]; split
    · rename_i m hm; exact absurd hm (h p (by simp [leaves]) m)
    · rfl
  | node ty cs =>
    refine ⟨trList cs (d + 1), .nt ty d, by rw [tr], rfl, fun l hl => ?_, .inr ⟨ty, cs, rfl, rfl, rfl⟩⟩
    have := trList_deeper cs (d + 1) l hl; omega

/-- C45.  The tree display determines the tree: two different trees (without the invisible
markers) are never displayed alike. -/
theorem display_injective (t t' : Tree PLeaf) (d : Nat) (h : NoMarkers t) (h' : NoMarkers t')
    (e : tr t d = tr t' d) : t = t' := by
  refine (Tree.rec
    (motive_1 := fun t => ∀ (t' : Tree PLeaf) (d : Nat), NoMarkers t → NoMarkers t' → tr t d = tr t' d → t = t')
    (motive_2 := fun cs => ∀ (cs' : List (Tree PLeaf)) (d : Nat), (∀ c ∈ cs, NoMarkers c) →
      (∀ c ∈ cs', NoMarkers c) → trList cs d = trList cs' d → cs = cs')
    ?_ ?_ ?_ ?_ t) t' d h h' e
  · intro p t' d h h' e
    obtain ⟨a, x, e1, _, _, c⟩ := tr_split (.leaf p) d h
    obtain ⟨a', x', e1', _, _, c'⟩ := tr_split t' d h'
    rw [e1, e1'] at e
    obtain ⟨e2, e3⟩ := List.append_inj' e rfl
    simp at e3
    rcases c with ⟨q, hq, ha, hx⟩ | ⟨ty, cs, hq, _⟩
    · rcases c' with ⟨q', hq', ha', hx'⟩ | ⟨ty, cs, hq', ha', hx'⟩
      · rw [hx, hx'] at e3; injection e3 with e3; rw [hq, hq', e3]
      · rw [hx, hx'] at e3; cases e3
    · cases hq
  · intro ty cs ih t' d h h' e
    obtain ⟨a, x, e1, _, _, c⟩ := tr_split (.node ty cs) d h
    obtain ⟨a', x', e1', _, _, c'⟩ := tr_split t' d h'
    rw [e1, e1'] at e
    obtain ⟨e2, e3⟩ := List.append_inj' e rfl
    simp at e3
    rcases c with ⟨q, hq, _⟩ | ⟨ty0, cs0, hq, ha, hx⟩
    · cases hq
    · injection hq with hq1 hq2; subst hq1 hq2
      rcases c' with ⟨q', hq', ha', hx'⟩ | ⟨ty', cs', hq', ha', hx'⟩
      · rw [hx, hx'] at e3; cases e3
      · rw [hx, hx'] at e3; injection e3 with e3
        subst hq'
        have sub : ∀ (ty : Ty) (cs : List (Tree PLeaf)), NoMarkers (.node ty cs) → ∀ c ∈ cs, NoMarkers c := by
          intro ty cs h c hc p hp m
          refine h p ?_ m
          rw [leaves, leavesList_eq]; exact List.mem_flatMap.2 ⟨c, hc, hp⟩
        rw [ih cs' (d + 1) (sub _ _ h) (sub _ _ h') (by rw [← ha, ← ha', e2]), e3]
  · intro cs' d _ h' e
    cases cs' with
    | nil => rfl
    | cons c' cs' =>
      obtain ⟨a', x', e1', _⟩ := tr_split c' d (h' c' (by simp))
      simp [trList, e1'] at e
  · intro c cs ih1 ih2 cs' d h h' e
    cases cs' with
    | nil =>
      obtain ⟨a, x, e1, _⟩ := tr_split c d (h c (by simp))
      simp [trList, e1] at e
    | cons c' cs' =>
      obtain ⟨a, x, e1, hx, ha, _⟩ := tr_split c d (h c (by simp))
      obtain ⟨a', x', e1', hx', ha', _⟩ := tr_split c' d (h' c' (by simp))
      rw [trList, trList, e1, e1', List.append_assoc, List.append_assoc, List.singleton_append,
        List.singleton_append] at e
      obtain ⟨e2, e3, e4⟩ := cut_unique a a' _ _ x x' d ha ha' hx hx' e
      have e5 := ih1 c' d (h c (by simp)) (h' c' (by simp)) (by rw [e1, e1', e2, e3])
      have e6 := ih2 cs' d (fun c hc => h c (by simp [hc])) (fun c hc => h' c (by simp [hc])) e4
      rw [e5, e6]

example : NoMarkers sampleP := by
  simp [sampleP, NoMarkers, leaves, leavesList]

end Jbo.Tree
