import Verif.TermsTreeSpec
/-!
# The walk through the selbri finds the words of the specification
-/

namespace Jbo.Terms
open Spec

mutual
/-- The height of a tree. -/
def Node.depth : Node → Nat
  | .nt _ _ cs => depthList cs + 1
  | _ => 0
def depthList : List Node → Nat
  | [] => 0
  | c :: cs => max c.depth (depthList cs)
end

theorem depth_le {c : Node} {cs : List Node} (h : c ∈ cs) : c.depth ≤ depthList cs := by
  induction cs with
  | nil => cases h
  | cons x cs ih =>
    simp only [depthList]
    rcases List.mem_cons.1 h with rfl | h
    · exact Nat.le_max_left ..
    · exact Nat.le_trans (ih h) (Nat.le_max_right ..)

theorem depth_nt (i : Nat) (t : NT) (cs : List Node) : (Node.nt i t cs).depth = depthList cs + 1 := by rw [Node.depth]

theorem kids_mem {cs : List Node} {t : NT} {x : Node} {xs : List Node} (h : kids cs t = x :: xs) : x ∈ cs ∧ ∃ i ds, x = .nt i t ds := by
  have : x ∈ kids cs t := by rw [h]; exact List.mem_cons_self ..
  obtain ⟨h1, h2⟩ := List.mem_filter.1 this
  refine ⟨h1, ?_⟩
  cases x with
  | nt i t' ds => simp only [Node.isNT, beq_iff_eq] at h2; exact ⟨i, ds, by rw [h2]⟩
  | brivla _ => cases h2
  | zei _ => cases h2
  | cmavo _ _ _ => cases h2
  | leaf _ => cases h2

theorem kids_depth {cs : List Node} {t : NT} {x : Node} {xs : List Node} (h : kids cs t = x :: xs) : x.depth ≤ depthList cs :=
  depth_le (kids_mem h).1

theorem findNth_some {i : Nat} {t' : NT} {cs : List Node} {t : NT} {x : Node} {xs : List Node} (h : kids cs t = x :: xs) :
    findNth (.nt i t' cs) 1 t = .ok (some x) := by
  unfold kids at h
  simp only [findNth, Node.children, bind, Except.bind, pure, Except.pure, h]
  rfl

theorem findNth_none {i : Nat} {t' : NT} {cs : List Node} {t : NT} (h : kids cs t = []) : findNth (.nt i t' cs) 1 t = .ok none := by
  unfold kids at h
  simp only [findNth, Node.children, bind, Except.bind, pure, Except.pure, h]
  rfl

theorem findNth_two {i : Nat} {t' : NT} {cs : List Node} {t : NT} {x y : Node} {xs : List Node} (h : kids cs t = x :: y :: xs) :
    findNth (.nt i t' cs) 2 t = .ok (some y) := by
  unfold kids at h
  simp only [findNth, Node.children, bind, Except.bind, pure, Except.pure, h]
  rfl

theorem typeCheck_nt (i : Nat) (t : NT) (cs : List Node) : typeCheck (.nt i t cs) t = .ok () := by
  simp [typeCheck, Node.isNT]

theorem nch_nt (i : Nat) (t : NT) (cs : List Node) : nch (.nt i t cs) = .ok cs.length := rfl

theorem childRef_zero (i : Nat) (t : NT) (c : Node) (cs : List Node) : childRef (.nt i t (c :: cs)) 0 = .ok c := rfl

theorem childRef_one (i : Nat) (t : NT) (c d : Node) (cs : List Node) : childRef (.nt i t (c :: d :: cs)) 1 = .ok d := rfl

theorem ok_bind {α β : Type} (a : α) (f : α → M β) : (Except.ok a >>= f) = f a := rfl

/-! ## Words -/

theorem skipBahe_skip {bs : List Node} (h : ∀ b ∈ bs, ∃ k v, b = .cmavo k .BAhE v) (x : Node) (r : List Node) :
    skipBahe (bs ++ x :: r) = skipBahe (x :: r) := by
  induction bs with
  | nil => rfl
  | cons b bs ih =>
    obtain ⟨k, v, rfl⟩ := h b (List.mem_cons_self ..)
    simp only [List.cons_append, skipBahe]
    exact ih (fun b hb => h b (List.mem_cons_of_mem _ hb))

theorem skipBahe_cmavo {i : Nat} {s : Sel} {w : String} (h : s ≠ .BAhE) (r : List Node) :
    skipBahe (.cmavo i s w :: r) = .ok (.cmavo i s w) := by
  cases s <;> first | rfl | exact absurd rfl h

theorem word_strip {c : Node} {i : Nat} {s : Sel} {w : String} (h : Word c i s w) : stripAttitudinal c = .ok (.cmavo i s w) := by
  cases h with
  | alone => rfl
  | marked h1 h2 => rw [stripAttitudinal, skipBahe_skip h1, skipBahe_cmavo h2]

theorem word_maybe {c : Node} {i : Nat} {s : Sel} {w : String} (h : Word c i s w) : maybeStrip c = .ok (.cmavo i s w) := by
  cases h with
  | alone => rfl
  | marked h1 h2 =>
    rw [maybeStrip, if_pos (by rfl), stripAttitudinal, skipBahe_skip h1, skipBahe_cmavo h2]

/-! ## Terms -/

theorem recoverFa_ok {c : Node} {k : Nat} {w : String} {p : Nat} (h : Word c k .FA w) (hp : (w, p) ∈ faPlaces) :
    recoverFa c = .ok p ∧ p ≠ 0 := by
  unfold recoverFa
  rw [word_strip h]
  simp only [ok_bind]
  simp only [faPlaces, List.mem_cons, Prod.mk.injEq, List.not_mem_nil, or_false] at hp
  rcases hp with ⟨rfl, rfl⟩ | ⟨rfl, rfl⟩ | ⟨rfl, rfl⟩ | ⟨rfl, rfl⟩ | ⟨rfl, rfl⟩ | ⟨rfl, rfl⟩ <;>
    exact ⟨rfl, by decide⟩

theorem recoverSe_ok {c : Node} {k : Nat} {w : String} {p : Nat} (h : Word c k .SE w) (hp : (w, p) ∈ sePlaces) : recoverSe c = .ok p := by
  unfold recoverSe
  rw [word_strip h]
  simp only [ok_bind]
  simp only [sePlaces, List.mem_cons, Prod.mk.injEq, List.not_mem_nil, or_false] at hp
  rcases hp with ⟨rfl, rfl⟩ | ⟨rfl, rfl⟩ | ⟨rfl, rfl⟩ | ⟨rfl, rfl⟩ <;> rfl

theorem term_entry {t : Node} {e : Option Entry} (h : TermR t e) : entryOf t = .ok e := by
  cases h with
  | plain => rfl
  | placed h1 h2 =>
    obtain ⟨a, b⟩ := recoverFa_ok h1 h2
    simp only [entryOf, childRef_zero, ok_bind, ntOf, a]
    rw [if_neg b]; rfl
  | @asked i j c cs r k h1 =>
    have a : recoverFa c = .ok 0 := by unfold recoverFa; rw [word_strip h1]; rfl
    simp only [entryOf, childRef_zero, ok_bind, ntOf, a]
    rfl
  | tagged => rfl
  | tagset => rfl
  | @other i j t cs r h =>
    simp only [entryOf, childRef_zero, ok_bind, ntOf]
    cases t <;> first | rfl | exact absurd (by decide) h

theorem term_type {t : Node} {e : Option Entry} (h : TermR t e) : typeCheck t .term = .ok () := by
  cases h <;> exact typeCheck_nt ..

theorem terms1_build {t1 : Node} {e : Option Entry} (h : Terms1R t1 e) (vv : List Entry) (hv : vv.length + e.toList.length ≤ maxTerms) :
    buildOne vv t1 = .ok (vv ++ e.toList) := by
  cases h with
  | pehe hl =>
    simp only [buildOne, typeCheck_nt, ok_bind, nch_nt]
    rw [if_pos hl]; simp [pure, Except.pure]
  | cehe hl =>
    simp only [buildOne, typeCheck_nt, ok_bind, nch_nt, childRef_zero]
    rw [if_neg (by simp), if_pos hl]; simp [pure, Except.pure]
  | one h =>
    simp only [buildOne, typeCheck_nt, ok_bind, nch_nt, childRef_zero, term_type h, term_entry h]
    rw [if_neg (by simp), if_neg (by simp)]
    cases e with
    | none => simp [store]
    | some e =>
      simp only [Option.toList_some, List.length_cons, List.length_nil] at hv
      rw [store, if_pos (by omega)]; rfl

theorem terms_build {x : Node} {es : List Entry} (h : TermsR x es) (vv : List Entry) (hv : vv.length + es.length ≤ maxTerms) (fuel : Nat)
    (hf : x.depth ≤ fuel) : buildLoop fuel x vv = .ok (vv ++ es.reverse) := by
  induction h generalizing vv fuel with
  | @one i t1 e h1 =>
    rw [depth_nt] at hf
    cases fuel with
    | zero => omega
    | succ fuel =>
      simp only [buildLoop, Node.children, ok_bind]
      rw [terms1_build h1 vv hv]
      cases e <;> rfl
  | @more i x t1 es e h1 h2 ih =>
    rw [depth_nt] at hf
    have := depth_le (c := x) (cs := [x, t1]) (List.mem_cons_self ..)
    rw [List.length_append] at hv
    cases fuel with
    | zero => omega
    | succ fuel =>
      simp only [buildLoop, Node.children, ok_bind]
      rw [terms1_build h2 vv (by omega), ok_bind, ih _ (by rw [List.length_append]; omega) fuel (by omega), List.reverse_append,
        List.append_assoc]
      cases e <;> rfl

theorem termsR_type {x : Node} {es : List Entry} (h : TermsR x es) : typeCheck x .terms = .ok () := by
  cases h <;> exact typeCheck_nt ..

/-- `tv_build` gives the terms from left to right. -/
theorem terms_vector {x : Node} {es : List Entry} (h : TermsR x es) (hv : es.length ≤ maxTerms) (fuel : Nat) (hf : x.depth ≤ fuel) :
    tvBuild fuel x = .ok es := by
  rw [tvBuild, termsR_type h, ok_bind, terms_build h [] (by simpa using hv) fuel hf]
  simp [bind, Except.bind, pure, Except.pure]

theorem links_build {la : Node} {es : List Entry} (h : LinkedR la es) (vv : List Entry) (hv : vv.length + es.length ≤ maxTerms) (fuel : Nat)
    (hf : la.depth ≤ fuel) : linkLoop fuel la vv = .ok (vv ++ es) := by
  induction h generalizing vv fuel with
  | @last i t cs tm ms e h1 h2 h3 =>
    rw [depth_nt] at hf
    cases fuel with
    | zero => omega
    | succ fuel =>
      simp only [linkLoop, findNth_some h1, findNth_none h3, ok_bind, asserted, term_entry h2]
      cases e with
      | none => simp [store, ok_bind, pure, Except.pure]
      | some e =>
        simp only [Option.toList_some, List.length_cons, List.length_nil] at hv
        rw [store, if_pos (by omega)]; rfl
  | @more i t cs tm ms e lk ls es h1 h2 h3 h4 ih =>
    rw [depth_nt] at hf
    have := kids_depth h3
    rw [List.length_append] at hv
    cases fuel with
    | zero => omega
    | succ fuel =>
      simp only [linkLoop, findNth_some h1, findNth_some h3, ok_bind, asserted, term_entry h2]
      cases e with
      | none =>
        rw [store, ok_bind]
        exact ih vv (by simpa using hv) fuel (by omega)
      | some e =>
        simp only [Option.toList_some, List.length_cons, List.length_nil] at hv
        rw [store, if_pos (by omega), ok_bind, ih _ (by simp only [List.length_append, List.length_cons, List.length_nil]; omega) fuel (by omega)]
        simp

/-! ## Selbri -/

theorem core_depth {s : Node} {es : List Node} (h : CoreR s es) : depthList es + 3 ≤ s.depth := by
  induction h with
  | here h1 h2 =>
    have a := kids_depth h1
    have b := kids_depth h2
    simp only [depth_nt] at *
    omega
  | inner h1 h2 h3 _ ih =>
    have a := kids_depth h1
    have b := kids_depth h3
    simp only [depth_nt] at *
    omega

theorem core_find {s : Node} {es : List Node} (h : CoreR s es) (fuel : Nat) (hf : s.depth ≤ fuel + 1) :
    ∃ k, findSelbri2 fuel s = .ok (.nt k .selbri2 es) := by
  induction h generalizing fuel with
  | @here i j k cs ds es xs ys h1 h2 =>
    have a := kids_depth h1
    have b := kids_depth h2
    simp only [depth_nt] at *
    cases fuel with
    | zero => omega
    | succ fuel =>
      simp only [findSelbri2, findNth_some h1, findNth_some h2, ok_bind, deref]
      exact ⟨k, rfl⟩
  | @inner i j cs ds s es xs ys h1 h2 h3 h4 ih =>
    have a := kids_depth h1
    have b := kids_depth h3
    simp only [depth_nt] at *
    cases fuel with
    | zero => omega
    | succ fuel =>
      simp only [findSelbri2, findNth_some h1, findNth_none h2, findNth_some h3, ok_bind, deref, asserted]
      exact ih fuel (by omega)

theorem core_type {s : Node} {es : List Node} (h : CoreR s es) : ∃ i cs, s = .nt i .selbri cs := by
  cases h <;> exact ⟨_, _, rfl⟩

theorem last_find {cs : List Node} {x : Node} (h : LastR cs x) (k fuel : Nat) (hf : depthList cs + 1 ≤ fuel) :
    x.depth ≤ depthList cs ∧ ∃ j r, lastSelbri2 fuel (.nt k .selbri2 cs) = .ok (.nt j .selbri2 (x :: r)) := by
  induction h generalizing k fuel with
  | @here x =>
    refine ⟨depth_le (List.mem_cons_self ..), ?_⟩
    cases fuel with
    | zero => omega
    | succ fuel => exact ⟨k, [], rfl⟩
  | @more cs j ds x ys h1 h2 h3 ih =>
    have a := kids_depth h2
    simp only [depth_nt] at a
    cases fuel with
    | zero => omega
    | succ fuel =>
      obtain ⟨i1, j', r, i2⟩ := ih j fuel (by omega)
      refine ⟨by omega, j', r, ?_⟩
      simp only [lastSelbri2, nch_nt, ok_bind, findNth_some h2, deref]
      rw [if_pos h1]
      exact i2

/-- The head of a label and the node that is glossed. -/
def headOf : Leaf → Head
  | .brivla i => .brivla i
  | .goha i => .goha i
  | .zei i => .zei i
  | .me s => .me s
  | .nuha _ op => .nuha op
  | .moi n m => .numberMoi n m
  | .nu i => .abstraction i

/-- The node whose gloss is converted. -/
def glossOf : Leaf → Option Nat
  | .brivla i => some i
  | .goha i => some i
  | .zei i => some i
  | .me _ => none
  | .nuha i _ => some i
  | .moi _ _ => none
  | .nu i => some i

/-- What happens at a word. -/
def leafRun (j : Job) : M (List Ev) := do
  return (← assignPlaces j.pre j.post j.lc (headOf j.leaf)) ++ ((glossOf j.leaf).map (assignConversion j.lc)).getD []

/-- The events that matter to the reader of the output. -/
def keep : Ev → Bool
  | .label .. => true
  | .conv .. => true
  | .dontGloss _ => true
  | _ => false

theorem convLoop_keep (l : List LC) (f : Nat → Nat) : (convLoop l f).2.filter keep = (convLoop l f).2 := by
  induction l generalizing f with
  | nil => rfl
  | cons e l ih =>
    cases e with
    | links es => exact ih f
    | jai => exact ih f
    | jaiTag t u => rfl
    | se c id => simp only [convLoop, List.filter_cons, keep, if_true]; rw [ih]

theorem conversion_keep (lc : List LC) (n : Nat) : (assignConversion lc n).filter keep = assignConversion lc n := by
  rw [assignConversion, List.filter_append, convLoop_keep]; rfl

theorem fixup_keep (i : Nat) (p : Place) (h : Head) : keep (fixup i p h) = true := rfl

theorem assignFa_keep {h : Head} {es : List Entry} {a a' : Arrays} {evs : List Ev} (hr : assignFa h es a = .ok (a', evs)) :
    evs.filter keep = evs := by
  induction es generalizing a evs with
  | nil => cases hr; rfl
  | cons e es ih =>
    cases e with
    | pos id => exact ih hr
    | fiha id => exact ih hr
    | tag id => exact ih hr
    | fa p id =>
      rw [assignFa] at hr
      split at hr
      · simp only [bind, Except.bind] at hr
        split at hr
        · cases hr
        split at hr
        · split at hr
          · cases hr
          rename_i v hv
          cases hr
          rw [List.filter_cons, fixup_keep, if_pos rfl, ih (a := _) (evs := v.2) hv]
        · exact ih hr
      · simp only [bind, Except.bind] at hr
        split at hr
        · cases hr
        split at hr
        · split at hr
          · cases hr
          rename_i v hv
          cases hr
          rw [List.filter_cons, fixup_keep, if_pos rfl, ih (a := _) (evs := v.2) hv]
        · exact ih hr

theorem assignPos_keep {h : Head} {es : List Entry} {b : Nat} {a a' : Arrays} {evs : List Ev} (hr : assignPos h es b a = .ok (a', evs)) :
    evs.filter keep = evs := by
  induction es generalizing a b evs with
  | nil => cases hr; rfl
  | cons e es ih =>
    cases e with
    | fiha id => exact ih hr
    | tag id => exact ih hr
    | fa p id => rw [assignPos] at hr; split at hr <;> exact ih hr
    | pos id =>
      rw [assignPos] at hr
      simp only [bind, Except.bind] at hr
      split at hr
      · cases hr
      split at hr
      · cases hr
      rename_i v hv
      cases hr
      rw [List.filter_cons, fixup_keep, if_pos rfl, ih hv]

theorem assignTerms_keep {h : Head} {es : List Entry} {b : Nat} {a a' : Arrays} {evs : List Ev} (hr : assignTerms h es b a = .ok (a', evs)) :
    evs.filter keep = evs := by
  rw [assignTerms] at hr
  simp only [bind, Except.bind] at hr
  split at hr
  · cases hr
  rename_i v hv
  split at hr
  · cases hr
  rename_i w hw
  cases hr
  rw [List.filter_append, assignFa_keep hv, assignPos_keep hw]

theorem chain_keep {h : Head} {lc : List LC} {a a' : Arrays} {evs : List Ev} (hr : chain h lc a = .ok (a', evs)) :
    evs.filter keep = evs := by
  induction lc generalizing a a' evs with
  | nil => cases hr; rfl
  | cons e lc ih =>
    rw [chain] at hr
    simp only [bind, Except.bind] at hr
    split at hr
    · cases hr
    rename_i v hv
    split at hr
    · cases hr
    rename_i w hw
    cases hr
    rw [List.filter_append, ih hv]
    congr 1
    cases e with
    | links es => exact assignTerms_keep hw
    | se c id => cases hw; rfl
    | jai =>
      simp only [chainStep, bind, Except.bind] at hw
      split at hw
      · cases hw
      cases hw; rfl
    | jaiTag t u =>
      simp only [chainStep, bind, Except.bind] at hw
      split at hw
      · cases hw
      cases hw; rfl

theorem assignPlaces_keep {pre post : List Entry} {lc : List LC} {h : Head} {evs : List Ev} (hr : assignPlaces pre post lc h = .ok evs) :
    evs.filter keep = evs := by
  rw [assignPlaces] at hr
  simp only [bind, Except.bind] at hr
  split at hr
  · cases hr
  rename_i v hv
  split at hr
  · cases hr
  rename_i w hw
  split at hr
  · cases hr
  rename_i u hu
  cases hr
  rw [List.filter_append, List.filter_append, chain_keep hv, assignTerms_keep hw, assignTerms_keep hu]

/-- The function of the code for a node. -/
def procOf (x : Node) (fuel : Nat) (pre post : List Entry) (lc : List LC) : M (List Ev) :=
  match x with
  | .nt _ .selbri _ => selbriArgs fuel x pre post lc
  | .nt _ .selbri3 _ => selbri3Args fuel x pre post lc
  | .nt _ .selbri4 _ => selbri4Loop fuel x pre post lc
  | .nt _ .selbri5 _ => selbri5Args fuel x pre post lc
  | .nt _ .selbri6 _ => selbri6Args fuel x pre post lc
  | .nt _ .tanruUnit1 _ => tu1Args fuel x pre post lc
  | .nt _ .tanruUnit2 _ => tu2Args fuel x pre post lc
  | _ => .error .assertion

theorem leaf_run {i : Nat} {cs : List Node} {l : Leaf} (h : LeafR cs l) {pre post : List Entry} {lc : List LC} {E : List Ev}
    (hE : leafRun ⟨l, pre, post, lc⟩ = .ok E) :
    ∃ evs, evs.filter keep = E ∧ ∀ fuel, tu2Args (fuel + 1) (.nt i .tanruUnit2 cs) pre post lc = .ok evs := by
  simp only [leafRun] at hE
  cases hp : assignPlaces pre post lc (headOf l) with
  | error x => rw [hp] at hE; cases hE
  | ok ps =>
    rw [hp] at hE
    have k1 := assignPlaces_keep hp
    cases hE
    cases h with
    | @brivla n r =>
      refine ⟨ps ++ assignConversion lc n, ?_, fun fuel => ?_⟩
      rotate_left
      · simp only [tu2Args, typeCheck_nt, ok_bind, childRef_zero]
        rw [show maybeStrip (.brivla n) = .ok (.brivla n) from rfl, ok_bind]
        dsimp only
        simp only [headOf] at hp
        rw [hp]; rfl
      · simp only [List.filter_append, k1, conversion_keep, glossOf, Option.map_some, Option.getD_some]
    | @brivlaM j n bs r cs hb =>
      refine ⟨ps ++ assignConversion lc n, ?_, fun fuel => ?_⟩
      rotate_left
      · simp only [tu2Args, typeCheck_nt, ok_bind, childRef_zero]
        rw [maybeStrip, if_pos (by rfl), stripAttitudinal, skipBahe_skip hb]
        simp only [skipBahe, ok_bind]
        simp only [headOf] at hp
        rw [hp]; rfl
      · simp only [List.filter_append, k1, conversion_keep, glossOf, Option.map_some, Option.getD_some]
    | @zei n r =>
      refine ⟨ps ++ assignConversion lc n, ?_, fun fuel => ?_⟩
      rotate_left
      · simp only [tu2Args, typeCheck_nt, ok_bind, childRef_zero]
        rw [show maybeStrip (.zei n) = .ok (.zei n) from rfl, ok_bind]
        dsimp only
        simp only [headOf] at hp
        rw [hp]; rfl
      · simp only [List.filter_append, k1, conversion_keep, glossOf, Option.map_some, Option.getD_some]
    | @zeiM j n bs r cs hb =>
      refine ⟨ps ++ assignConversion lc n, ?_, fun fuel => ?_⟩
      rotate_left
      · simp only [tu2Args, typeCheck_nt, ok_bind, childRef_zero]
        rw [maybeStrip, if_pos (by rfl), stripAttitudinal, skipBahe_skip hb]
        simp only [skipBahe, ok_bind]
        simp only [headOf] at hp
        rw [hp]; rfl
      · simp only [List.filter_append, k1, conversion_keep, glossOf, Option.map_some, Option.getD_some]
    | @goha c n w r hw =>
      refine ⟨ps ++ assignConversion lc n, ?_, fun fuel => ?_⟩
      rotate_left
      · simp only [tu2Args, typeCheck_nt, ok_bind, childRef_zero, word_maybe hw]
        simp only [headOf] at hp
        rw [hp]; rfl
      · simp only [List.filter_append, k1, conversion_keep, glossOf, Option.map_some, Option.getD_some]
    | @me c n w r s ss hw hs =>
      refine ⟨.brac s.id :: ps, ?_, fun fuel => ?_⟩
      rotate_left
      · simp only [tu2Args, typeCheck_nt, ok_bind, childRef_zero, word_maybe hw, findNth_some hs, asserted]
        simp only [headOf] at hp
        rw [hp]; rfl
      · simp only [List.filter_cons, keep, k1, glossOf, Option.map_none, Option.getD_none, List.append_nil]
        rfl
    | @nuha c n w r s ss hw hs =>
      refine ⟨ps ++ assignConversion lc n ++ [.brac s.id], ?_, fun fuel => ?_⟩
      rotate_left
      · simp only [tu2Args, typeCheck_nt, ok_bind, childRef_zero, word_maybe hw, findNth_some hs, deref]
        simp only [headOf] at hp
        rw [hp]; rfl
      · simp only [List.filter_append, k1, conversion_keep, glossOf, Option.map_some, Option.getD_some]
        simp [keep]
    | @moi j n t ds m k w cs r ht hw =>
      have hm : findCmavo (.nt j .numberMoiTu2 (.nt n t ds :: m :: cs)) .MOI = .ok (some (.cmavo k .MOI w)) := by
        simp only [findCmavo, Node.children, ok_bind, List.flatMap_cons]
        have h1 : opened (.nt n t ds) = [.nt n t ds] := by
          cases t <;> first | rfl | exact absurd rfl ht
        rw [h1]
        cases hw with
        | alone => rfl
        | marked hb _ =>
          simp only [opened, List.singleton_append, List.find?_cons, List.find?_append, Node.isSel]
          rw [List.find?_eq_none.2 (fun b hb' => by
            obtain ⟨k, v, rfl⟩ := hb b hb'
            simp)]
          rfl
      refine ⟨ps ++ (if 0 < pre.length ∨ 0 < post.length then [.brac n] else []), ?_, fun fuel => ?_⟩
      rotate_left
      · simp only [tu2Args, typeCheck_nt, ok_bind, childRef_zero]
        rw [maybeStrip, if_neg (by simp [Node.isNT])]
        simp only [ok_bind, childRef_zero, hm, deref]
        simp only [headOf] at hp
        simp only [Node.id]
        rw [hp]; rfl
      · simp only [glossOf, Option.map_none, Option.getD_none, List.append_nil, List.filter_append, k1]
        split <;> simp [keep]
    | @nu j k c n w cs ds r hw =>
      refine ⟨ps ++ assignConversion lc n, ?_, fun fuel => ?_⟩
      rotate_left
      · simp only [tu2Args, typeCheck_nt, ok_bind, childRef_zero]
        rw [maybeStrip, if_neg (by simp [Node.isNT])]
        simp only [ok_bind, childRef_zero, typeCheck_nt, word_maybe hw]
        simp only [headOf] at hp
        rw [hp]; rfl
      · simp only [List.filter_append, k1, conversion_keep, glossOf, Option.map_some, Option.getD_some]

end Jbo.Terms
