import Verif.ConnectSpec
import Verif.GramLook
import Verif.GramEx
/-!
# The truth functions of connectives on every parse tree
-/

namespace Jbo.Connect
open Jbo.Terms Jbo.Terms.Spec Jbo.Gram Spec

/-! ## Words among the children -/

theorem look_free {s : Sel} {z : List Node} (h : Free z) : look s z = none := by
  rcases h with rfl | ⟨i, cs, rfl⟩
  · rfl
  · simp [look, opened, Node.isSel]

/-- An optional word as the parser gives it. -/
inductive COpt (s : Sel) : List Node → Option String → Prop
  | out : COpt s [] none
  | put {c i w} : Clean c i s w → COpt s [c] (some w)

theorem look_same {s : Sel} (hs : Plain s) {a : List Node} {o : Option String} (h : COpt s a o) : (look s a).isSome = o.isSome := by
  cases h with
  | out => rfl
  | put hc => rw [look_clean hs hc]; simp

theorem look_other {s s' : Sel} (hs : Plain s) {a : List Node} {o : Option String} (h : COpt s' a o) (hn : s' ≠ s) : look s a = none := by
  cases h with
  | out => rfl
  | put hc => rw [look_clean hs hc, if_neg hn]

theorem opt_clean {u : NT} {i : Nat} {cs : List Node} (h : Parse u (.nt i u cs)) {s : Sel} {a : List Node} {o : Option String}
    (ha : ∀ c ∈ a, c ∈ cs) (ho : Opt s a o) : COpt s a o := by
  cases ho with
  | out => exact .out
  | put hw => exact .put (kid_clean h (ha _ (List.mem_singleton.2 rfl)) hw)

/-! ## The table -/

/-- The table of `connect.c` has the truth functions. -/
theorem pattern_shown (n1 c n2 : Bool) (m : Tr) : pattern n1 c n2 m = .ok (shown (meaning m) n1 c n2) := by
  cases n1 <;> cases c <;> cases n2 <;> cases m <;> rfl

example : shown (meaning .u) true true true = "FTFT" := by decide

/-! ## Afterthought connectives -/

def wordsFor : Sel → String → Option Tr
  | .A => aWords
  | .JA => jaWords
  | .GIhA => gihaWords
  | .GUhA => guhaWords
  | .GA => gaWords
  | _ => fun _ => none

theorem words_keys {s : Sel} {w : String} {m : Tr} (h : (w, m) ∈ keys s) : wordsFor s w = some m := by
  cases s <;> simp only [keys, List.mem_cons, Prod.mk.injEq, List.not_mem_nil, or_false] at h
  all_goals
    rcases h with ⟨rfl, rfl⟩ | ⟨rfl, rfl⟩ | ⟨rfl, rfl⟩ | ⟨rfl, rfl⟩ | ⟨rfl, rfl⟩ <;> rfl

theorem keys_words {s : Sel} (hs : s ∈ [Sel.A, .JA, .GIhA, .GUhA, .GA]) {w : String} (h : w ∈ wordsOf s) : ∃ m, (w, m) ∈ keys s := by
  simp only [List.mem_cons, List.not_mem_nil, or_false] at hs
  rcases hs with rfl | rfl | rfl | rfl | rfl <;>
  · simp only [wordsOf, List.mem_cons, List.not_mem_nil, or_false] at h
    rcases h with rfl | rfl | rfl | rfl | rfl <;> simp [keys]

theorem after_sel {t : NT} {s : Sel} (h : (t, s) ∈ afters) : Plain s ∧ s ≠ .NA ∧ s ≠ .SE ∧ s ≠ .NAI ∧ s ∈ [Sel.A, .JA, .GIhA, .GUhA, .GA] := by
  simp only [afters, List.mem_cons, Prod.mk.injEq, List.not_mem_nil, or_false] at h
  rcases h with ⟨_, rfl⟩ | ⟨_, rfl⟩ | ⟨_, rfl⟩ | ⟨_, rfl⟩ | ⟨_, rfl⟩ <;>
    exact ⟨⟨by decide, by decide⟩, by decide, by decide, by decide, by decide⟩

theorem node_after {t : NT} {s : Sel} (h : (t, s) ∈ afters) (anc : List Node) (i : Nat) (cs : List Node) :
    node anc (.nt i t cs) = processAfter s (wordsFor s) (.nt i t cs) := by
  simp only [afters, List.mem_cons, Prod.mk.injEq, List.not_mem_nil, or_false] at h
  rcases h with ⟨rfl, rfl⟩ | ⟨rfl, rfl⟩ | ⟨rfl, rfl⟩ | ⟨rfl, rfl⟩ | ⟨rfl, rfl⟩ <;> rfl

theorem plain_na : Plain .NA := ⟨by decide, by decide⟩
theorem plain_se : Plain .SE := ⟨by decide, by decide⟩
theorem plain_nai : Plain .NAI := ⟨by decide, by decide⟩
theorem plain_gi : Plain .GI := ⟨by decide, by decide⟩
theorem plain_ga : Plain .GA := ⟨by decide, by decide⟩
theorem plain_guha : Plain .GUhA := ⟨by decide, by decide⟩

/-- What an afterthought connective gets, whatever the word of NA. -/
theorem after_eval {anc : List Node} {i j : Nat} {t : NT} {s : Sel} {a b d : List Node} {k : Node} {w : String} {na se nai : Option String} {m : Tr}
    (ht : (t, s) ∈ afters) (ha : COpt .NA a na) (hb : COpt .SE b se) (hk : Clean k j s w) (hd : COpt .NAI d nai) (hm : (w, m) ∈ keys s) :
    node anc (.nt i t (a ++ b ++ k :: d)) = .ok [.truth i .after (shown (meaning m) na.isSome se.isSome nai.isSome)] := by
  obtain ⟨ps, n1, n2, n3, _⟩ := after_sel ht
  rw [node_after ht]
  have e1 : look s (a ++ b ++ k :: d) = some (.cmavo j s w) := by
    rw [look_append, look_append, look_other ps ha (Ne.symm n1), look_other ps hb (Ne.symm n2), look_cons, look_clean ps hk]
    simp
  have e2 : (look .NA (a ++ b ++ k :: d)).isSome = na.isSome := by
    rw [look_append, look_append, look_cons, look_clean plain_na hk, if_neg n1, look_other plain_na hb (by decide),
      look_other plain_na hd (by decide), ← look_same plain_na ha]
    simp
  have e3 : (look .SE (a ++ b ++ k :: d)).isSome = se.isSome := by
    rw [look_append, look_append, look_cons, look_clean plain_se hk, if_neg n2, look_other plain_se ha (by decide),
      look_other plain_se hd (by decide), ← look_same plain_se hb]
    simp
  have e4 : (look .NAI (a ++ b ++ k :: d)).isSome = nai.isSome := by
    rw [look_append, look_append, look_cons, look_clean plain_nai hk, if_neg n3, look_other plain_nai ha (by decide),
      look_other plain_nai hb (by decide), ← look_same plain_nai hd]
    simp
  simp only [processAfter, find_look, e1, asserted, textOf, words_keys hm, afterthought, e2, e3, e4, pattern_shown, bind, Except.bind,
    Node.id, pure, Except.pure]

/-! ## The rules -/

/-- An optional symbol of a rule. -/
def opts (it : Item) : List (List Item) := [[], [it]]

def shapeAfter (s : Sel) (its : List Item) : Bool :=
  (opts (.t .NA)).any fun o1 => (opts (.t .SE)).any fun o2 => (opts (.t .NAI)).any fun o3 => its == o1 ++ (o2 ++ .t s :: (o3 ++ []))

def shapeFore (s : Sel) (its : List Item) : Bool :=
  (opts (.t .SE)).any fun o1 => (opts (.t .NAI)).any fun o2 => (opts (.n .freeSeq)).any fun o3 => its == o1 ++ (.t s :: (o2 ++ (o3 ++ [])))

def shapeGik (its : List Item) : Bool :=
  (opts (.t .NAI)).any fun o2 => (opts (.n .freeSeq)).any fun o3 => its == .t .GI :: (o2 ++ (o3 ++ []))

def shapeGek (its : List Item) : Bool :=
  shapeFore .GA its || ((opts (.n .freeSeq)).any fun o => its == .n .joik :: .t .GI :: (o ++ [])) || its == [.n .stag, .n .gik]

theorem after_rules : afters.all (fun p => on p.1 (shapeAfter p.2)) = true := by decide +kernel
theorem guhek_rules : on .guhek (shapeFore .GUhA) = true := by decide +kernel
theorem gek_rules : on .gek shapeGek = true := by decide +kernel
theorem gik_rules : on .gik shapeGik = true := by decide +kernel

/-- Where forethought connectives stand there is one `gi`. -/
theorem gik_beside : rules.all (fun r => !(r.rhs.contains (.n .gek) || r.rhs.contains (.n .guhek)) || r.rhs.count (.n .gik) == 1) = true := by
  decide +kernel

theorem kids_opt {s : Sel} (hs : s ≠ .BAhE) {o its : List Item} (ho : o ∈ opts (.t s)) {cs : List Node} (h : Kids Parse (o ++ its) cs) :
    ∃ a na ds, cs = a ++ ds ∧ Opt s a na ∧ Kids Parse its ds := by
  simp only [opts, List.mem_cons, List.not_mem_nil, or_false] at ho
  rcases ho with rfl | rfl
  · exact ⟨[], none, cs, rfl, .out, h⟩
  · obtain ⟨c, ds, rfl, hw, hk⟩ := firstT h
    obtain ⟨i, w, hw, _⟩ := word_clean hs hw
    exact ⟨[c], some w, ds, rfl, .put hw, hk⟩

theorem kids_free {o its : List Item} (ho : o ∈ opts (.n .freeSeq)) {cs : List Node} (h : Kids Parse (o ++ its) cs) :
    ∃ z ds, cs = z ++ ds ∧ Free z ∧ Kids Parse its ds := by
  simp only [opts, List.mem_cons, List.not_mem_nil, or_false] at ho
  rcases ho with rfl | rfl
  · exact ⟨[], cs, rfl, .inl rfl, h⟩
  · obtain ⟨c, ds, rfl, hp, hk⟩ := first h
    obtain ⟨i, es, _, rfl, _⟩ := parse_inv hp
    exact ⟨[_], ds, rfl, .inr ⟨i, es, rfl⟩, hk⟩

theorem after_shape {t : NT} {s : Sel} (ht : (t, s) ∈ afters) {i : Nat} {cs : List Node} (h : Parse t (.nt i t cs)) :
    ∃ a b k j w d na se nai m, cs = a ++ b ++ k :: d ∧ Opt .NA a na ∧ Opt .SE b se ∧ Word k j s w ∧ Opt .NAI d nai ∧ (w, m) ∈ keys s := by
  obtain ⟨⟨hb, _⟩, _, _, _, hs⟩ := after_sel ht
  obtain ⟨_, its, _, e, hf, hk⟩ := on_use (List.all_eq_true.1 after_rules _ ht) h
  cases e
  simp only [shapeAfter, List.any_eq_true, beq_iff_eq] at hf
  obtain ⟨o1, h1, o2, h2, o3, h3, rfl⟩ := hf
  obtain ⟨a, na, ds, rfl, ha, hk⟩ := kids_opt (by decide) h1 hk
  obtain ⟨b, se, ds, rfl, hb', hk⟩ := kids_opt (by decide) h2 hk
  obtain ⟨k, ds, rfl, hw, hk⟩ := firstT hk
  obtain ⟨j, w, hw, hm⟩ := word_clean hb hw
  obtain ⟨d, nai, ds, rfl, hd, hk⟩ := kids_opt (by decide) h3 hk
  cases kids_nil hk
  obtain ⟨m, hm⟩ := keys_words hs hm
  exact ⟨a, b, k, j, w, d, na, se, nai, m, by simp, ha, hb', hw, hd, hm⟩

theorem gi_word {w : String} (h : w ∈ wordsOf .GI) : w = "gi" := by simpa [wordsOf] using h

theorem gik_shape {i : Nat} {cs : List Node} (h : Parse .gik (.nt i .gik cs)) :
    ∃ gi hh gd gz nai, cs = gi :: gd ++ gz ∧ Word gi hh .GI "gi" ∧ Opt .NAI gd nai ∧ Free gz := by
  obtain ⟨_, its, _, e, hf, hk⟩ := on_use gik_rules h
  cases e
  simp only [shapeGik, List.any_eq_true, beq_iff_eq] at hf
  obtain ⟨o1, h1, o2, h2, rfl⟩ := hf
  obtain ⟨k, ds, rfl, hw, hk⟩ := firstT hk
  obtain ⟨j, w, hw, hm⟩ := word_clean (by decide) hw
  obtain ⟨d, nai, ds, rfl, hd, hk⟩ := kids_opt (by decide) h1 hk
  obtain ⟨z, ds, rfl, hz, hk⟩ := kids_free h2 hk
  cases kids_nil hk
  rw [gi_word hm] at hw
  exact ⟨k, j, d, z, nai, by simp, hw, hd, hz⟩

theorem fore_shape {s : Sel} (hb : s ≠ .BAhE) (hs : s ∈ [Sel.A, .JA, .GIhA, .GUhA, .GA]) {its : List Item} (hf : shapeFore s its = true)
    {cs : List Node} (hk : Kids Parse its cs) :
    ∃ b k j w d z se nai m, cs = b ++ k :: d ++ z ∧ Opt .SE b se ∧ Word k j s w ∧ Opt .NAI d nai ∧ Free z ∧ (w, m) ∈ keys s := by
  simp only [shapeFore, List.any_eq_true, beq_iff_eq] at hf
  obtain ⟨o1, h1, o2, h2, o3, h3, rfl⟩ := hf
  obtain ⟨b, se, ds, rfl, hb', hk⟩ := kids_opt (by decide) h1 hk
  obtain ⟨k, ds, rfl, hw, hk⟩ := firstT hk
  obtain ⟨j, w, hw, hm⟩ := word_clean hb hw
  obtain ⟨d, nai, ds, rfl, hd, hk⟩ := kids_opt (by decide) h2 hk
  obtain ⟨z, ds, rfl, hz, hk⟩ := kids_free h3 hk
  cases kids_nil hk
  obtain ⟨m, hm⟩ := keys_words hs hm
  exact ⟨b, k, j, w, d, z, se, nai, m, by simp, hb', hw, hd, hz, hm⟩

/-! ## Forethought connectives -/

theorem find_gik {p : Nat} {v : NT} {ds : List Node} {g : Node} (h : kids ds .gik = [g]) : findNth (.nt p v ds) 1 .gik = .ok (some g) := by
  simp only [findNth, Node.children, bind, Except.bind, pure, Except.pure]
  unfold kids at h
  rw [h]; rfl

theorem gik_nai {g h : Nat} {gi : Node} {gd gz : List Node} {nai : Option String} (hg : Clean gi h .GI "gi") (hd : COpt .NAI gd nai)
    (hz : Free gz) : (look .NAI (gi :: gd ++ gz)).isSome = nai.isSome := by
  rw [List.cons_append, look_cons, look_append, look_clean plain_nai hg, look_free hz, ← look_same plain_nai hd]
  simp

theorem node_fore {t : NT} {s : Sel} (h : (t, s) ∈ fores) (anc : List Node) (i : Nat) (cs : List Node) {j : Nat} {w : String} {m : Tr}
    (hl : look s cs = some (.cmavo j s w)) (hm : (w, m) ∈ keys s) : node anc (.nt i t cs) = forethought anc (.nt i t cs) m := by
  simp only [fores, List.mem_cons, Prod.mk.injEq, List.not_mem_nil, or_false] at h
  have hw := words_keys hm
  rcases h with ⟨rfl, rfl⟩ | ⟨rfl, rfl⟩
  · have hw : gaWords w = some m := hw
    simp only [node, processGek, find_look, hl, textOf, bind, Except.bind, hw]
  · have hw : guhaWords w = some m := hw
    simp only [node, processGuhek, find_look, hl, asserted, textOf, bind, Except.bind, hw]

theorem fore_sel {t : NT} {s : Sel} (h : (t, s) ∈ fores) : Plain s ∧ s ≠ .SE ∧ s ≠ .NAI ∧ s ∈ [Sel.A, .JA, .GIhA, .GUhA, .GA] := by
  simp only [fores, List.mem_cons, Prod.mk.injEq, List.not_mem_nil, or_false] at h
  rcases h with ⟨_, rfl⟩ | ⟨_, rfl⟩ <;> exact ⟨⟨by decide, by decide⟩, by decide, by decide, by decide⟩

theorem fore_eval {anc : List Node} {p : Nat} {v : NT} {ds : List Node} {i : Nat} {t : NT} {s : Sel} {b d z : List Node} {k : Node} {j : Nat}
    {w : String} {g h : Nat} {gi : Node} {gd gz : List Node} {se nai nai' : Option String} {m : Tr} (ht : (t, s) ∈ fores)
    (hg : kids ds .gik = [.nt g .gik (gi :: gd ++ gz)]) (hb : COpt .SE b se) (hk : Clean k j s w) (hd : COpt .NAI d nai) (hz : Free z)
    (hgi : Clean gi h .GI "gi") (hgd : COpt .NAI gd nai') (hgz : Free gz) (hm : (w, m) ∈ keys s) :
    node (.nt p v ds :: anc) (.nt i t (b ++ k :: d ++ z)) =
      .ok [.truth i .ge (shown (meaning m) nai.isSome se.isSome nai'.isSome), .truth g .gi (shown (meaning m) nai.isSome se.isSome nai'.isSome)] := by
  obtain ⟨ps, n2, n3, _⟩ := fore_sel ht
  have e1 : look s (b ++ k :: d ++ z) = some (.cmavo j s w) := by
    rw [look_append, look_append, look_other ps hb (Ne.symm n2), look_cons, look_clean ps hk]
    simp
  have e3 : (look .SE (b ++ k :: d ++ z)).isSome = se.isSome := by
    rw [look_append, look_append, look_cons, look_clean plain_se hk, if_neg n2, look_other plain_se hd (by decide), look_free hz,
      ← look_same plain_se hb]
    simp
  have e4 : (look .NAI (b ++ k :: d ++ z)).isSome = nai.isSome := by
    rw [look_append, look_append, look_cons, look_clean plain_nai hk, if_neg n3, look_other plain_nai hb (by decide), look_free hz,
      ← look_same plain_nai hd]
    simp
  rw [node_fore ht _ i _ e1 hm]
  simp only [forethought, parent, find_gik hg, asserted, find_look, e3, e4, gik_nai (g := g) hgi hgd hgz, pattern_shown, bind, Except.bind,
    Node.id, pure, Except.pure]

theorem joi_eval {anc : List Node} {p : Nat} {v : NT} {ds : List Node} {i jj : Nat} {js z : List Node} {k : Node} {j : Nat}
    {g h : Nat} {gi : Node} {gd gz : List Node} {nai' : Option String} (hg : kids ds .gik = [.nt g .gik (gi :: gd ++ gz)])
    (hk : Clean k j .GI "gi") (hz : Free z) (hgi : Clean gi h .GI "gi") (hgd : COpt .NAI gd nai') (hgz : Free gz) :
    node (.nt p v ds :: anc) (.nt i .gek (.nt jj .joik js :: k :: z)) =
      .ok [.joined i .geJoik jj false nai'.isSome, .joined g .giJoik jj false nai'.isSome] := by
  have jn : ∀ s, look s [Node.nt jj .joik js] = none := fun s => rfl
  have e1 : look .GA (.nt jj .joik js :: k :: z) = none := by
    rw [look_cons, look_cons .GA k, jn, look_clean plain_ga hk, look_free hz]; rfl
  have e2 : look .GI (.nt jj .joik js :: k :: z) = some (.cmavo j .GI "gi") := by
    rw [look_cons, look_cons .GI k, jn, look_clean plain_gi hk, look_free hz]; rfl
  have e3 : findNth (.nt i .gek (.nt jj .joik js :: k :: z)) 1 .joik = .ok (some (.nt jj .joik js)) := rfl
  obtain ⟨q, hq⟩ : ∃ q, findNth (.nt i .gek (.nt jj .joik js :: k :: z)) 1 .gik = .ok q := ⟨_, rfl⟩
  simp only [node, processGek, find_look, e1, e2, hq, joikGi, parent, find_gik hg, asserted, e3, gik_nai (g := g) hgi hgd hgz, bind, Except.bind,
    Node.id, pure, Except.pure]

theorem tense_eval {anc : List Node} {p : Nat} {v : NT} {ds : List Node} {i jj : Nat} {js : List Node} {g1 h1 : Nat} {gi1 : Node}
    {gd1 gz1 : List Node} {g h : Nat} {gi : Node} {gd gz : List Node} {nai nai' : Option String}
    (hg : kids ds .gik = [.nt g .gik (gi :: gd ++ gz)]) (hgi1 : Clean gi1 h1 .GI "gi") (hgd1 : COpt .NAI gd1 nai) (hgz1 : Free gz1)
    (hgi : Clean gi h .GI "gi") (hgd : COpt .NAI gd nai') (hgz : Free gz) :
    node (.nt p v ds :: anc) (.nt i .gek [.nt jj .stag js, .nt g1 .gik (gi1 :: gd1 ++ gz1)]) =
      .ok [.joined i .geStag jj nai.isSome nai'.isSome, .joined g .giStag jj nai.isSome nai'.isSome] := by
  have e1 : look .GA [.nt jj .stag js, .nt g1 .gik (gi1 :: gd1 ++ gz1)] = none := rfl
  have e2 : look .GI [.nt jj .stag js, .nt g1 .gik (gi1 :: gd1 ++ gz1)] = none := rfl
  have e3 : findNth (.nt i .gek [.nt jj .stag js, .nt g1 .gik (gi1 :: gd1 ++ gz1)]) 1 .stag = .ok (some (.nt jj .stag js)) := rfl
  have e4 : findNth (.nt i .gek [.nt jj .stag js, .nt g1 .gik (gi1 :: gd1 ++ gz1)]) 1 .gik =
      .ok (some (.nt g1 .gik (gi1 :: gd1 ++ gz1))) := rfl
  simp only [node, processGek, find_look, e1, e2, e4, stagGik, parent, find_gik hg, asserted, e3, gik_nai (g := g1) hgi1 hgd1 hgz1,
    gik_nai (g := g) hgi hgd hgz, bind, Except.bind, Node.id, pure, Except.pure]

/-- Where a forethought connective stands. -/
theorem fore_beside {top : Node} (hp : Parse .chunks top) {anc : List Node} {i : Nat} {t : NT} {cs : List Node}
    (ht : t = .gek ∨ t = .guhek) (h : Occ top anc (.nt i t cs)) :
    ∃ p v ds rest g gi hh gd gz nai, anc = .nt p v ds :: rest ∧ Parse v (.nt p v ds) ∧ .nt i t cs ∈ ds ∧
      kids ds .gik = [.nt g .gik (gi :: gd ++ gz)] ∧ Parse .gik (.nt g .gik (gi :: gd ++ gz)) ∧ Word gi hh .GI "gi" ∧ Opt .NAI gd nai ∧ Free gz := by
  have hna : t ≠ .augmented := by rcases ht with rfl | rfl <;> decide
  obtain ⟨hx, h | ⟨p, v, ds, rest, rfl, hv, hm, _, _⟩⟩ := occ_nt hp h hna
  · obtain ⟨_, _, rfl⟩ := h
    rcases ht with ht | ht <;> cases ht
  · obtain ⟨_, _, r, e, hr, rfl, hk⟩ := parse_inv hv
    cases e
    have hin : .n t ∈ r.rhs := by
      rcases kid_cases hk hm with ⟨u, hu, hpu⟩ | ⟨it, _, hw⟩ | ⟨s, k, w, _, _, e⟩
      · obtain ⟨_, _, _, e, _⟩ := parse_inv hpu; cases e; exact hu
      · exact absurd (word_sub hw .refl rfl) hna
      · cases e
    have hc := all_mem gik_beside hr
    have : r.rhs.count (.n .gik) = 1 := by
      simp only [Bool.or_eq_true, Bool.not_eq_true', Bool.or_eq_false_iff, List.contains_eq_mem, decide_eq_false_iff_not, beq_iff_eq] at hc
      rcases hc with ⟨h1, h2⟩ | hc
      · rcases ht with rfl | rfl
        · exact absurd hin h1
        · exact absurd hin h2
      · exact hc
    obtain ⟨g, hg, hpg⟩ := kids_one hk (by decide) this
    obtain ⟨gn, gcs, _, rfl, _⟩ := parse_inv hpg
    obtain ⟨gi, hh, gd, gz, nai, rfl, h1, h2, h3⟩ := gik_shape hpg
    exact ⟨p, _, ds, rest, gn, gi, hh, gd, gz, nai, rfl, hv, hm, hg, hpg, h1, h2, h3⟩

/-! ## The theorems -/

theorem clean_of {u : NT} {i : Nat} {cs : List Node} (h : Parse u (.nt i u cs)) {c : Node} (hc : c ∈ cs) {j : Nat} {s : Sel} {w : String}
    (hw : Word c j s w) : Clean c j s w := kid_clean h hc hw

theorem na_word {w : String} (h : w ∈ wordsOf .NA) : w = "ja'a" ∨ w = "na" := by simpa [wordsOf] using h

theorem clean_word {c : Node} {j : Nat} {s : Sel} {w : String} (h : Clean c j s w) : Word c j s w ∧ w ∈ wordsOf s := by
  cases h with
  | alone h => exact ⟨.alone, h⟩
  | marked hb hs h _ => exact ⟨.marked hb.any hs, h⟩

/-- What a node is to get is what it gets. -/
theorem told_eval {top : Node} (hp : Parse .chunks top) {anc : List Node} {x : Node} (ho : Occ top anc x) {e : Ev}
    (h : Told (fun _ => true) anc x e) : ∃ es, node anc x = .ok es ∧ e ∈ es ∧ ∀ e' ∈ es, Told (fun _ => true) anc x e' := by
  cases h with
  | @after _ i t s a b k j w d na se nai m ht ha hb hk hd hm =>
    have hna : t ≠ .augmented := by rintro rfl; revert ht; simp [afters]
    have hx := (occ_nt hp ho hna).1
    have ha' := opt_clean hx (fun c hc => by simp [hc]) ha
    have hneg : na.any (fun _ => true) = na.isSome := by cases na <;> rfl
    refine ⟨_, after_eval ht ha' (opt_clean hx (fun c hc => by simp [hc]) hb) (kid_clean hx (by simp) hk)
      (opt_clean hx (fun c hc => by simp [hc]) hd) hm, ?_, ?_⟩
    · rw [hneg]; exact List.mem_singleton.2 rfl
    · intro e' he
      rw [List.mem_singleton.1 he, ← hneg]
      exact .after ht ha hb hk hd hm
  | @fore anc' p v ds i t s b k j w d z g h gi gd gz se nai nai' m n pos ht hx hg hb hk hd hz hgi hgd hgz hm hn =>
    have htt : t = .gek ∨ t = .guhek := by
      simp only [fores, List.mem_cons, Prod.mk.injEq, List.not_mem_nil, or_false] at ht
      rcases ht with ⟨rfl, _⟩ | ⟨rfl, _⟩
      · exact .inl rfl
      · exact .inr rfl
    have hna : t ≠ .augmented := by rcases htt with rfl | rfl <;> decide
    have hpx := (occ_nt hp ho hna).1
    obtain ⟨_, _, _, _, _, _, _, _, _, _, e, _, _, hg2, hpg, _⟩ := fore_beside hp htt ho
    cases e
    rw [hg] at hg2
    rw [← (List.cons.inj hg2).1] at hpg
    refine ⟨_, fore_eval ht hg (opt_clean hpx (fun c hc => by simp [hc]) hb) (kid_clean hpx (by simp) hk)
      (opt_clean hpx (fun c hc => by simp [hc]) hd) hz (kid_clean hpg (by simp) hgi) (opt_clean hpg (fun c hc => by simp [hc]) hgd) hgz hm, ?_, ?_⟩
    · simp only [List.mem_cons, Prod.mk.injEq, List.not_mem_nil, or_false] at hn ⊢
      rcases hn with ⟨rfl, rfl⟩ | ⟨rfl, rfl⟩ <;> simp
    · intro e' he
      simp only [List.mem_cons, List.not_mem_nil, or_false] at he
      rcases he with rfl | rfl
      · exact .fore ht hx hg hb hk hd hz hgi hgd hgz hm (by simp)
      · exact .fore ht hx hg hb hk hd hz hgi hgd hgz hm (by simp)
  | @joi anc' p v ds i jj js k j z g h gi gd gz nai' n pos hx hg hk hz hgi hgd hgz hn =>
    have hpx := (occ_nt hp ho (by decide)).1
    obtain ⟨_, _, _, _, _, _, _, _, _, _, e, _, _, hg2, hpg, _⟩ := fore_beside hp (.inl rfl) ho
    cases e
    rw [hg] at hg2
    rw [← (List.cons.inj hg2).1] at hpg
    refine ⟨_, joi_eval hg (kid_clean hpx (by simp) hk) hz (kid_clean hpg (by simp) hgi) (opt_clean hpg (fun c hc => by simp [hc]) hgd) hgz, ?_, ?_⟩
    · simp only [List.mem_cons, Prod.mk.injEq, List.not_mem_nil, or_false] at hn ⊢
      rcases hn with ⟨rfl, rfl⟩ | ⟨rfl, rfl⟩ <;> simp
    · intro e' he
      simp only [List.mem_cons, List.not_mem_nil, or_false] at he
      rcases he with rfl | rfl
      · exact .joi hx hg hk hz hgi hgd hgz (by simp)
      · exact .joi hx hg hk hz hgi hgd hgz (by simp)
  | @tense anc' p v ds i jj js g1 h1 gi1 gd1 gz1 g h gi gd gz nai nai' n pos hx hg hgi1 hgd1 hgz1 hgi hgd hgz hn =>
    have hpx := (occ_nt hp ho (by decide)).1
    obtain ⟨_, _, _, _, _, _, _, _, _, _, e, _, _, hg2, hpg, _⟩ := fore_beside hp (.inl rfl) ho
    cases e
    rw [hg] at hg2
    rw [← (List.cons.inj hg2).1] at hpg
    have hp1 : Parse .gik (.nt g1 .gik (gi1 :: gd1 ++ gz1)) :=
      (occ_nt hp (.child ho (by decide) (List.mem_cons_of_mem _ (List.mem_singleton.2 rfl))) (by decide)).1
    refine ⟨_, tense_eval hg (kid_clean hp1 (by simp) hgi1) (opt_clean hp1 (fun c hc => by simp [hc]) hgd1) hgz1
      (kid_clean hpg (by simp) hgi) (opt_clean hpg (fun c hc => by simp [hc]) hgd) hgz, ?_, ?_⟩
    · simp only [List.mem_cons, Prod.mk.injEq, List.not_mem_nil, or_false] at hn ⊢
      rcases hn with ⟨rfl, rfl⟩ | ⟨rfl, rfl⟩ <;> simp
    · intro e' he
      simp only [List.mem_cons, List.not_mem_nil, or_false] at he
      rcases he with rfl | rfl
      · exact .tense hx hg hgi1 hgd1 hgz1 hgi hgd hgz (by simp)
      · exact .tense hx hg hgi1 hgd1 hgz1 hgi hgd hgz (by simp)

/-- The connectives. -/
def types : List NT := [.ek, .jek, .jekOptKe, .jekOptKebo, .gihek, .gek, .guhek]

theorem node_other (anc : List Node) (x : Node) (h : ∀ i t cs, x = .nt i t cs → t ∉ types) : node anc x = .ok [] := by
  cases x with
  | nt i t cs =>
    have := h i t cs rfl
    cases t <;> first | rfl | exact absurd (by decide) this
  | _ => rfl

theorem told_type {neg : String → Bool} {anc : List Node} {x : Node} {e : Ev} (h : Told neg anc x e) : ∃ i t cs, x = .nt i t cs ∧ t ∈ types := by
  cases h with
  | after ht _ _ _ _ _ =>
    simp only [afters, List.mem_cons, Prod.mk.injEq, List.not_mem_nil, or_false] at ht
    rcases ht with ⟨rfl, _⟩ | ⟨rfl, _⟩ | ⟨rfl, _⟩ | ⟨rfl, _⟩ | ⟨rfl, _⟩ <;> exact ⟨_, _, _, rfl, by decide⟩
  | fore ht _ _ _ _ _ _ _ _ _ _ _ =>
    simp only [fores, List.mem_cons, Prod.mk.injEq, List.not_mem_nil, or_false] at ht
    rcases ht with ⟨rfl, _⟩ | ⟨rfl, _⟩ <;> exact ⟨_, _, _, rfl, by decide⟩
  | joi _ _ _ _ _ _ _ _ => exact ⟨_, _, _, rfl, by decide⟩
  | tense _ _ _ _ _ _ _ _ _ => exact ⟨_, _, _, rfl, by decide⟩

/-- Every connective is to get something. -/
theorem told_some {top : Node} (hp : Parse .chunks top) {anc : List Node} {i : Nat} {t : NT} {cs : List Node} (ht : t ∈ types)
    (ho : Occ top anc (.nt i t cs)) : ∃ e, Told (fun _ => true) anc (.nt i t cs) e := by
  have hna : t ≠ .augmented := by rintro rfl; revert ht; decide
  have hx := (occ_nt hp ho hna).1
  have aft : ∀ {s}, (t, s) ∈ afters → ∃ e, Told (fun _ => true) anc (.nt i t cs) e := by
    intro s hs
    obtain ⟨a, b, k, j, w, d, na, se, nai, m, rfl, h1, h2, h3, h4, h5⟩ := after_shape hs hx
    exact ⟨_, .after hs h1 h2 h3 h4 h5⟩
  have fo : ∀ {s}, (t, s) ∈ fores → (∃ its, shapeFore s its = true ∧ Kids Parse its cs) → ∃ e, Told (fun _ => true) anc (.nt i t cs) e := by
    rintro s hs ⟨its, hf, hk⟩
    have htt : t = .gek ∨ t = .guhek := by
      simp only [fores, List.mem_cons, Prod.mk.injEq, List.not_mem_nil, or_false] at hs
      rcases hs with ⟨rfl, _⟩ | ⟨rfl, _⟩
      · exact .inl rfl
      · exact .inr rfl
    obtain ⟨ps, _, _, hm⟩ := fore_sel hs
    obtain ⟨b, k, j, w, d, z, se, nai, m, rfl, h1, h2, h3, h4, h5⟩ := fore_shape ps.1 hm hf hk
    obtain ⟨p, v, ds, rest, g, gi, hh, gd, gz, nai', rfl, hv, hmem, hg, _, g1, g2, g3⟩ := fore_beside hp htt ho
    exact ⟨_, .fore hs hmem hg h1 h2 h3 h4 g1 g2 g3 h5 (List.mem_cons_self ..)⟩
  simp only [types, List.mem_cons, List.not_mem_nil, or_false] at ht
  rcases ht with rfl | rfl | rfl | rfl | rfl | rfl | rfl
  · exact aft (s := .A) (by decide)
  · exact aft (s := .JA) (by decide)
  · exact aft (s := .JA) (by decide)
  · exact aft (s := .JA) (by decide)
  · exact aft (s := .GIhA) (by decide)
  · obtain ⟨_, its, _, e, hf, hk⟩ := on_use gek_rules hx
    cases e
    simp only [shapeGek, Bool.or_eq_true, beq_iff_eq, List.any_eq_true] at hf
    rcases hf with (hf | ⟨o, hoo, rfl⟩) | rfl
    · exact fo (s := .GA) (by decide) ⟨its, hf, hk⟩
    · obtain ⟨c, ds, rfl, hc, hk1⟩ := first hk
      obtain ⟨jj, js, _, rfl, _⟩ := parse_inv hc
      obtain ⟨k, ds, rfl, hw, hk2⟩ := firstT hk1
      obtain ⟨j, w, hw, hm⟩ := word_clean (by decide) hw
      rw [gi_word hm] at hw
      obtain ⟨z, ds, rfl, hz, hk3⟩ := kids_free hoo hk2
      cases kids_nil hk3
      rw [List.append_nil] at ho ⊢
      obtain ⟨p, v, ds, rest, g, gi, hh, gd, gz, nai', rfl, hv, hmem, hg, _, g1, g2, g3⟩ := fore_beside hp (.inl rfl) ho
      exact ⟨_, .joi hmem hg hw hz g1 g2 g3 (List.mem_cons_self ..)⟩
    · obtain ⟨c, ds, rfl, hc0, hk1⟩ := first hk
      obtain ⟨jj, js, _, rfl, _⟩ := parse_inv hc0
      obtain ⟨c, rfl, hc⟩ := only hk1
      obtain ⟨g1, gs, _, rfl, _⟩ := parse_inv hc
      obtain ⟨gi1, h1, gd1, gz1, nai, rfl, a1, a2, a3⟩ := gik_shape hc
      obtain ⟨p, v, ds, rest, g, gi, hh, gd, gz, nai', rfl, hv, hmem, hg, _, b1, b2, b3⟩ := fore_beside hp (.inl rfl) ho
      exact ⟨_, .tense hmem hg a1 a2 a3 b1 b2 b3 (List.mem_cons_self ..)⟩
  · obtain ⟨_, its, _, e, hf, hk⟩ := on_use guhek_rules hx
    cases e
    exact fo (s := .GUhA) (by decide) ⟨its, hf, hk⟩

/-- **What the program does.**  On every tree of the grammar the pass ends without a failed assertion and hangs
on the nodes exactly the truth patterns of the connectives, if every word of NA is taken for a negation. -/
theorem connectives_any (top : Node) (hp : Parse .chunks top) :
    ∃ log, connectivesProcessing top = .ok log ∧ ∀ e, e ∈ log ↔ ∃ anc x, Occ top anc x ∧ Told (fun _ => true) anc x e := by
  refine pass_logs top fun anc x ho => ⟨occ_augOk hp ho, ?_⟩
  by_cases h : ∃ i t cs, x = .nt i t cs ∧ t ∈ types
  · obtain ⟨i, t, cs, rfl, ht⟩ := h
    obtain ⟨e, he⟩ := told_some hp ht ho
    obtain ⟨es, h1, _, h3⟩ := told_eval hp ho he
    refine ⟨es, h1, fun e' => ⟨h3 e', fun h' => ?_⟩⟩
    obtain ⟨es', h1', h2', _⟩ := told_eval hp ho h'
    rw [h1] at h1'
    cases h1'
    exact h2'
  · refine ⟨[], node_other anc x (fun i t cs e ht => h ⟨i, t, cs, e, ht⟩), fun e => ⟨nofun, fun he => ?_⟩⟩
    exact absurd (told_type he) h

/-- Without `ja'a` every word of NA is `na`. -/
theorem told_same {top : Node} (hp : Parse .chunks top) (hj : NoJaha top) {anc : List Node} {x : Node} (ho : Occ top anc x) {e : Ev}
    {neg neg' : String → Bool} (hn : neg "na" = neg' "na") (h : Told neg anc x e) : Told neg' anc x e := by
  cases h with
  | @after _ i t s a b k j w d na se nai m ht ha hb hk hd hm =>
    have hna : t ≠ .augmented := by rintro rfl; revert ht; simp [afters]
    have hx := (occ_nt hp ho hna).1
    have : na.any neg = na.any neg' := by
      cases opt_clean hx (fun c hc => by simp [hc]) ha with
      | out => rfl
      | @put c l v hc =>
        obtain ⟨hw, hv⟩ := clean_word hc
        rcases na_word hv with rfl | rfl
        · exact absurd hw (hj _ _ _ _ _ _ _ ho ht (by simp))
        · exact hn
    rw [this]
    exact .after ht ha hb hk hd hm
  | fore ht hx hg hb hk hd hz hgi hgd hgz hm hn => exact .fore ht hx hg hb hk hd hz hgi hgd hgz hm hn
  | joi hx hg hk hz hgi hgd hgz hn => exact .joi hx hg hk hz hgi hgd hgz hn
  | tense hx hg hgi1 hgd1 hgz1 hgi hgd hgz hn => exact .tense hx hg hgi1 hgd1 hgz1 hgi hgd hgz hn

/-- **Connectives.**  On every tree of the grammar without `ja'a` in connectives the pass hangs on the nodes
exactly the truth patterns of the connectives. -/
theorem connectives_partial (top : Node) (hp : Parse .chunks top) (hj : NoJaha top) :
    ∃ log, connectivesProcessing top = .ok log ∧ ∀ e, e ∈ log ↔ ∃ anc x, Occ top anc x ∧ Told naNegates anc x e := by
  obtain ⟨log, h1, h2⟩ := connectives_any top hp
  refine ⟨log, h1, fun e => ?_⟩
  rw [h2]
  constructor
  · rintro ⟨anc, x, ho, h⟩; exact ⟨anc, x, ho, told_same (neg := fun _ => true) hp hj ho rfl h⟩
  · rintro ⟨anc, x, ho, h⟩; exact ⟨anc, x, ho, told_same (neg' := fun _ => true) hp hj ho rfl h⟩

/-! ## Examples -/

/-- A sentence *x prami* with a sumti. -/
def about (sumti : List Node) : Node :=
  Gram.textOf (up [.noCuSentence] (up [.terms, .terms1, .terms2] [.nt 10 .term (up [.termPlainSumti, .sumti, .sumti1] sumti)] ++
    tailOf' [.brivla 21] []))

def mi : List Node := up [.sumti4, .sumti5, .sumti5a, .sumti6] [.cmavo 11 .KOhA "mi"]
def doo : List Node := up [.sumti4, .sumti5, .sumti5a, .sumti6] [.cmavo 12 .KOhA "do"]

def withEk (ek : List Node) : Node := about (up [.sumti2] (up [.sumti2, .sumti3] mi ++ [.nt 13 .ek ek] ++ up [.sumti3] doo))

/-- *mi na.enai do prami*: true if both are false. -/
def nor : Node := withEk [.cmavo 1 .NA "na", .cmavo 2 .A "e", .cmavo 3 .NAI "nai"]

/-- *ge nai mi gi do prami*. -/
def genai : Node := about (up [.sumti2, .sumti3, .sumti4] ([.nt 13 .gek [.cmavo 1 .GA "ge", .cmavo 2 .NAI "nai"]] ++
  up [.sumti, .sumti1, .sumti2, .sumti3] mi ++ [.nt 14 .gik [.cmavo 3 .GI "gi"]] ++ doo))

example : Parse .chunks nor ∧ connectivesProcessing nor = .ok [.truth 13 .after "FFFT"] :=
  ⟨parse_of (by decide +kernel), rfl⟩

example : Parse .chunks genai ∧ connectivesProcessing genai = .ok [.truth 13 .ge "FFTF", .truth 14 .gi "FFTF"] :=
  ⟨parse_of (by decide +kernel), rfl⟩

mutual
/-- A check for `NoJaha`: the word does not occur. -/
def without (w : String) : Node → Bool
  | .cmavo _ _ v => v != w
  | .nt _ _ cs => withouts w cs
  | _ => true
def withouts (w : String) : List Node → Bool
  | [] => true
  | c :: cs => without w c && withouts w cs
end

theorem withouts_mem {w : String} {cs : List Node} (h : withouts w cs = true) : ∀ c ∈ cs, without w c = true := by
  induction cs with
  | nil => simp
  | cons c cs ih =>
    rw [withouts, Bool.and_eq_true] at h
    intro d hd
    rcases List.mem_cons.1 hd with rfl | hd
    · exact h.1
    · exact ih h.2 d hd

theorem without_occ {w : String} {top : Node} (h : without w top = true) {anc : List Node} {x : Node} (ho : Occ top anc x) :
    without w x = true := by
  induction ho with
  | top => exact h
  | child _ _ hc ih => rw [without] at ih; exact withouts_mem ih _ hc
  | word _ _ _ ih => rw [without] at ih; exact withouts_mem ih _ (by simp)
  | before _ _ hm ih => rw [without] at ih; exact withouts_mem ih _ (by simp [hm])
  | after _ _ _ hm ih => rw [without] at ih; exact withouts_mem ih _ (by simp [hm])

theorem noJaha_of {top : Node} (h : without "ja'a" top = true) : NoJaha top := by
  intro anc i t s cs c j ho _ hc hw
  have h1 := without_occ h ho
  rw [without] at h1
  have h2 := withouts_mem h1 c hc
  cases hw with
  | alone => simp [without] at h2
  | marked _ _ =>
    rw [without] at h2
    have := withouts_mem h2 (.cmavo j .NA "ja'a") (by simp)
    simp [without] at this

example : NoJaha nor ∧ NoJaha genai := ⟨noJaha_of (by decide +kernel), noJaha_of (by decide +kernel)⟩

/-- *mi ja'a .e do prami*. -/
def jaha : Node := withEk [.cmavo 1 .NA "ja'a", .cmavo 2 .A "e"]

theorem jaha_shape : ∃ anc, Occ jaha anc (.nt 13 .ek [.cmavo 1 .NA "ja'a", .cmavo 2 .A "e"]) :=
  ⟨_, down_occ (top := jaha) [0, 0, 0, 0, 0, 0, 0, 0, 0, 0, 0, 0, 0, 0, 0, 0, 0, 0, 0, 1] .top rfl⟩

/-- **A defect.**  In *mi ja'a .e do prami* the connective is an affirmed `e`, true when both are; the program shows
it as "the second but not the first". -/
theorem jaha_negated : Parse .chunks jaha ∧ (∃ anc x, Occ jaha anc x ∧ Told naNegates anc x (.truth 13 .after "TFFF")) ∧
    connectivesProcessing jaha = .ok [.truth 13 .after "FFTF"] := by
  refine ⟨parse_of (by decide +kernel), ?_, rfl⟩
  obtain ⟨anc, h⟩ := jaha_shape
  exact ⟨anc, _, h, .after (na := some "ja'a") (se := none) (nai := none) (a := [.cmavo 1 .NA "ja'a"]) (b := []) (d := []) (w := "e") (s := .A)
    (m := .e) (by decide) (.put .alone) .out .alone .out (by decide)⟩

end Jbo.Connect
