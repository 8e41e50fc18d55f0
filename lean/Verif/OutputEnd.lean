import Verif.OutputThm
import Verif.ConnectThm
import Verif.GramIds
/-!
# The display comes to its end

No assertion fails in `output.c` and nothing is read that is not there: the pass for connectives has hung its
property on every node for which the output asks for it.
-/

namespace Jbo.Output
open Jbo.Terms Jbo.Gram Jbo.Output.Spec

/-- The run ends. -/
def Oks (m : M (List Call)) : Prop := ∃ o, m = .ok o

theorem oks_bind {m : M (List Call)} {f : List Call → M (List Call)} (h : Oks m) (hf : ∀ a, Oks (f a)) : Oks (m >>= f) := by
  obtain ⟨a, rfl⟩ := h
  exact hf a

theorem oks_pure (a : List Call) : Oks (pure a) := ⟨a, rfl⟩

theorem oks_if {c : Bool} {m : M (List Call)} (h : c = true → Oks m) : Oks (onlyIf c m) := by
  cases c with
  | false => exact ⟨_, rfl⟩
  | true => exact h rfl

theorem oks_each {f : Node → M (List Call)} : ∀ {cs : List Node}, (∀ c ∈ cs, Oks (f c)) → Oks (each f cs) := by
  intro cs
  induction cs with
  | nil => intro _; exact ⟨_, rfl⟩
  | cons c cs ih =>
    intro h
    rw [each]
    exact oks_bind (h c (List.mem_cons_self ..)) fun a => oks_bind (ih fun d hd => h d (List.mem_cons_of_mem _ hd)) fun b => oks_pure _

theorem oks_parted {f : Show → Node → M (List Call)} {what : Show} {s : String} {cs : List Node} (hn : cs ≠ [])
    (h : ∀ c ∈ cs, Oks (f what c)) : Oks (parted f what s cs) := by
  cases cs with
  | nil => exact absurd rfl hn
  | cons c cs =>
    rw [parted]
    exact oks_bind (h c (List.mem_cons_self ..)) fun a =>
      oks_bind (oks_each fun d hd => h d (List.mem_cons_of_mem _ hd)) fun b => oks_pure _

theorem oks_tags {f : Show → Node → M (List Call)} : ∀ {ts : List Tag}, (∀ tag n, .jai tag n ∈ ts → Oks (f .tagTrans tag)) → Oks (outTags f ts) := by
  intro ts
  induction ts with
  | nil => intro _; exact ⟨_, rfl⟩
  | cons t ts ih =>
    intro h
    have ih := ih fun tag n hm => h tag n (List.mem_cons_of_mem _ hm)
    cases t with
    | text b p s => rw [outTags]; exact oks_bind ih fun a => oks_pure _
    | jai tag n => rw [outTags]; exact oks_bind (h tag n (List.mem_cons_self ..)) fun a => oks_bind ih fun b => oks_pure _

theorem oks_meaning {env : Env} {f : Show → Node → M (List Call)} {what : Show} {c : Conn}
    (h : ∀ p js n1 n2, c = .joined p js n1 n2 → p = .giStag ∨ p = .giJoik → ∀ w, w.loj = false → Oks (f w js)) :
    Oks (meaning env f what c) := by
  cases c with
  | truth p s => exact ⟨_, rfl⟩
  | joined p js n1 n2 =>
    have hw : (if what = .tagTrans then Show.tagTrans else Show.english).loj = false := by split <;> rfl
    cases p <;> simp only [meaning]
    case giStag => exact oks_bind (h _ _ _ _ rfl (.inl rfl) _ hw) fun a => oks_pure _
    case giJoik => exact oks_bind (h _ _ _ _ rfl (.inr rfl) _ hw) fun a => oks_pure _
    all_goals exact ⟨_, rfl⟩

/-! ## What the grammar gives -/

theorem offset_rule : on .timeOffset (fun its => its.head? == some (.t .PU)) = true := by decide +kernel
theorem tail_rule : on .sumtiTail (fun its => match its.head? with | some (.n _) => true | _ => false) = true := by decide +kernel
theorem tail1_rule : on .sumtiTail1 (fun its => match its with
    | [.n .quantifier, .n .sumti] => true
    | .n t :: _ => t != .quantifier
    | _ => false) = true := by decide +kernel

theorem offset_pu {i : Nat} {cs : List Node} (h : Parse .timeOffset (.nt i .timeOffset cs)) :
    ∃ x, findCmavo (.nt i .timeOffset cs) .PU = .ok (some x) := by
  obtain ⟨_, its, _, e, hf, hk⟩ := on_use offset_rule h
  cases e
  rw [beq_iff_eq] at hf
  cases its with
  | nil => cases hf
  | cons it its =>
    simp only [List.head?_cons, Option.some.injEq] at hf
    subst hf
    obtain ⟨c, ds, rfl, hw, _⟩ := firstT hk
    obtain ⟨j, w, hw, _⟩ := word_clean (by decide) hw
    have hcl := kid_clean h (List.mem_cons_self ..) hw
    rw [find_look, look_cons, look_clean ⟨by decide, by decide⟩ hcl]
    exact ⟨_, rfl⟩

theorem tail_first {i : Nat} {cs : List Node} (h : Parse .sumtiTail (.nt i .sumtiTail cs)) :
    ∃ j t ds rest, cs = .nt j t ds :: rest := by
  obtain ⟨_, its, _, e, hf, hk⟩ := on_use tail_rule h
  cases e
  cases its with
  | nil => cases hf
  | cons it its =>
    cases it with
    | n t =>
      obtain ⟨c, ds, rfl, hp, _⟩ := first hk
      obtain ⟨j, es, _, rfl, _⟩ := parse_inv hp
      exact ⟨_, _, _, _, rfl⟩
    | t _ => cases hf
    | e _ => cases hf
    | _ => cases hf

theorem tail1_quantified {i : Nat} {cs : List Node} (h : Parse .sumtiTail1 (.nt i .sumtiTail1 cs)) :
    cs ≠ [] ∧ ∃ b, quantified cs = .ok b := by
  obtain ⟨_, its, _, e, hf, hk⟩ := on_use tail1_rule h
  cases e
  split at hf
  · obtain ⟨c, ds, rfl, hp, hk⟩ := first hk
    obtain ⟨d, es, rfl, hp', _⟩ := first hk
    obtain ⟨j, es, _, rfl, _⟩ := parse_inv hp
    obtain ⟨j, es, _, rfl, _⟩ := parse_inv hp'
    exact ⟨nofun, _, rfl⟩
  · rename_i t its _
    obtain ⟨c, ds, rfl, hp, hk⟩ := first hk
    obtain ⟨j, es, _, rfl, _⟩ := parse_inv hp
    refine ⟨nofun, false, ?_⟩
    have ht : t ≠ .quantifier := by simpa using hf
    simp [quantified, typeOf, ht, bind, Except.bind, pure, Except.pure]
  · cases hf

/-! ## One node -/

/-- The types of nodes with connectives. -/
def linked : List NT := .gik :: Connect.types

theorem oks_inner {env : Env} {f : Show → Node → M (List Call)} {what : Show} {i : Nat} {t : NT} {cs : List Node}
    (hp : Parse t (.nt i t cs))
    (hk : ∀ c ∈ cs, ∀ w : Show, (what.loj = false → w.loj = false) → (t = .gek → what.loj = true ∧ w = .lojbanInd) → Oks (f w c))
    (ht : what.loj = true → ∀ tag n, .jai tag n ∈ env.tags i → Oks (f .tagTrans tag))
    (hc : t ∈ linked → what ≠ .lojbanInd → ∃ c, env.conn i = some c ∧
      ∀ p js n1 n2, c = .joined p js n1 n2 → p = .giStag ∨ p = .giJoik → ∀ w, w.loj = false → Oks (f w js)) :
    Oks (inner env f what i t cs) := by
  have he : t ≠ .gek → Oks (each (f what) cs) := fun hn => oks_each fun c h => hk c h what id (fun e => absurd e hn)
  have hpa : t ≠ .gek → ∀ s, cs ≠ [] → Oks (parted f what s cs) := fun hn s hcs =>
    oks_parted hcs fun c h => hk c h what id (fun e => absurd e hn)
  have hi : Oks (onlyIf what.loj (each (f .lojbanInd) cs)) := oks_if fun hl => oks_each fun c h =>
    hk c h .lojbanInd (fun hf => absurd (hl.symm.trans hf) (by decide)) (fun _ => ⟨hl, rfl⟩)
  have hcl : t ≠ .gek → Oks (outClustered env f what i t cs) := by
    intro hn
    unfold outClustered
    split
    · exact oks_bind hi fun a => oks_pure _
    · exact he hn
  have hco : t ∈ linked → Oks (outConnective env f what i cs) := by
    intro hm
    refine oks_bind hi fun a => oks_bind (oks_if fun hw => ?_) fun b => oks_pure _
    obtain ⟨c, e, hj⟩ := hc hm (by rintro rfl; revert hw; decide)
    rw [e]
    exact oks_meaning hj
  unfold inner
  split
  · split
    · rename_i h; exact hpa (by decide) _ (by rintro rfl; cases h)
    · exact he (by decide)
  · refine oks_bind (oks_if fun hl => ?_) fun a => oks_bind (he (by decide)) fun b => oks_pure _
    exact oks_bind (oks_tags (ht (by simp at hl; exact hl.1))) fun b => oks_pure _
  · split
    · rename_i h; exact hpa (by decide) _ (by rintro rfl; cases h)
    · exact he (by decide)
  · obtain ⟨_, its, _, e, h1, hk'⟩ := on_use observative_one hp
    cases e
    rw [beq_iff_eq] at h1
    subst h1
    obtain ⟨c, rfl, _⟩ := only hk'
    exact hk c (List.mem_cons_self ..) what id nofun
  · obtain ⟨x, hx⟩ := offset_pu hp
    simp only [outOffset, hx]
    exact oks_bind hi fun a => oks_pure _
  · exact hcl (by decide)
  · exact hcl (by decide)
  · exact hcl (by decide)
  · obtain ⟨j, u, ds, rest, rfl⟩ := tail_first hp
    simp only [outSumtiTail, typeOf]
    show Oks (if u = .sumti6 then _ else _)
    split
    · refine oks_bind (oks_if fun hl => ?_) fun a => oks_bind (oks_each fun c h => hk c (List.mem_cons_of_mem _ h) what id nofun) fun b =>
        oks_bind (oks_if fun hl => ?_) fun d => oks_pure _
      · exact oks_bind (hk _ (List.mem_cons_self ..) _ (fun hf => absurd (hl.symm.trans hf) (by decide)) nofun) fun b => oks_pure _
      · exact oks_bind (hk _ (List.mem_cons_self ..) _ (fun _ => rfl) nofun) fun b => oks_pure _
    · exact he (by decide)
  · split
    · rename_i h; exact hpa (by decide) _ (by rintro rfl; cases h)
    · exact he (by decide)
  · obtain ⟨hn, b, hb⟩ := tail1_quantified hp
    rw [hb]
    show Oks (if b = true then _ else _)
    split
    · exact hpa (by decide) _ hn
    · exact he (by decide)
  all_goals first
    | exact hco (by decide)
    | (refine he ?_; rintro rfl; contradiction)

/-! ## Connectives -/

section
open Jbo.Connect.Spec Jbo.Terms.Spec

/-- The node that gets a property. -/
def evId : Connect.Ev → Nat
  | .truth i _ _ => i
  | .joined i _ _ _ _ => i

theorem told_own {neg : String → Bool} {anc : List Node} {i : Nat} {t : NT} {cs : List Node} {e : Connect.Ev}
    (h : Told neg anc (.nt i t cs) e) : ∃ e', Told neg anc (.nt i t cs) e' ∧ evId e' = i := by
  cases h with
  | after h1 h2 h3 h4 h5 h6 => exact ⟨_, .after h1 h2 h3 h4 h5 h6, rfl⟩
  | fore h1 h2 h3 h4 h5 h6 h7 h8 h9 h10 h11 _ =>
    exact ⟨_, .fore h1 h2 h3 h4 h5 h6 h7 h8 h9 h10 h11 (List.mem_cons_self ..), rfl⟩
  | joi h1 h2 h3 h4 h5 h6 h7 _ => exact ⟨_, .joi h1 h2 h3 h4 h5 h6 h7 (List.mem_cons_self ..), rfl⟩
  | tense h1 h2 h3 h4 h5 h6 h7 h8 _ => exact ⟨_, .tense h1 h2 h3 h4 h5 h6 h7 h8 (List.mem_cons_self ..), rfl⟩

theorem kids_one {ds : List Node} {x y : Node} (h : kids ds .gik = [x]) (hy : y ∈ ds) (hg : y.isNT .gik = true) : y = x := by
  have : y ∈ kids ds .gik := List.mem_filter.2 ⟨hy, hg⟩
  rw [h] at this
  exact List.mem_singleton.1 this

theorem kids_mem {ds : List Node} {x : Node} (h : kids ds .gik = [x]) : x ∈ ds := by
  have : x ∈ kids ds .gik := by rw [h]; exact List.mem_singleton.2 rfl
  exact (List.mem_filter.1 this).1

theorem told_gi {neg : String → Bool} {anc : List Node} {p : Nat} {v : NT} {ds : List Node} {i : Nat} {t : NT} {cs : List Node} {e : Connect.Ev}
    (ht : t = .gek ∨ t = .guhek) (h : Told neg (.nt p v ds :: anc) (.nt i t cs) e) {g : Nat} {gs : List Node} (hg : .nt g .gik gs ∈ ds) :
    ∃ e', Told neg (.nt p v ds :: anc) (.nt i t cs) e' ∧ evId e' = g := by
  cases h with
  | after h1 h2 h3 h4 h5 h6 => rcases ht with rfl | rfl <;> simp [afters] at h1
  | fore h1 h2 h3 h4 h5 h6 h7 h8 h9 h10 h11 _ =>
    have e := kids_one h3 hg rfl
    cases e
    exact ⟨_, .fore h1 h2 h3 h4 h5 h6 h7 h8 h9 h10 h11 (List.mem_cons_of_mem _ (List.mem_cons_self ..)), rfl⟩
  | joi h1 h2 h3 h4 h5 h6 h7 _ =>
    have e := kids_one h2 hg rfl
    cases e
    exact ⟨_, .joi h1 h2 h3 h4 h5 h6 h7 (List.mem_cons_of_mem _ (List.mem_cons_self ..)), rfl⟩
  | tense h1 h2 h3 h4 h5 h6 h7 h8 _ =>
    have e := kids_one h2 hg rfl
    cases e
    exact ⟨_, .tense h1 h2 h3 h4 h5 h6 h7 h8 (List.mem_cons_of_mem _ (List.mem_cons_self ..)), rfl⟩

/-- What a non-logical connective or a tense in forethought is made of. -/
theorem told_joined {neg : String → Bool} {anc : List Node} {x : Node} {i jj : Nat} {p : Connect.Pos} {n1 n2 : Bool}
    (h : Told neg anc x (.joined i p jj n1 n2)) : ∃ q v ds rest k u js es, anc = .nt q v ds :: rest ∧ x = .nt k .gek (.nt jj u js :: es) ∧
      x ∈ ds ∧ u ≠ .augmented ∧ u ≠ .gik ∧ (p = .giStag ∨ p = .giJoik → ∃ gs, .nt i .gik gs ∈ ds) := by
  cases h with
  | joi h1 h2 h3 h4 h5 h6 h7 h8 =>
    refine ⟨_, _, _, _, _, _, _, _, rfl, rfl, h1, by decide, by decide, fun hq => ?_⟩
    simp only [List.mem_cons, Prod.mk.injEq, List.not_mem_nil, or_false] at h8
    rcases h8 with ⟨_, rfl⟩ | ⟨rfl, rfl⟩
    · rcases hq with hq | hq <;> cases hq
    · exact ⟨_, kids_mem h2⟩
  | tense h1 h2 h3 h4 h5 h6 h7 h8 h9 =>
    refine ⟨_, _, _, _, _, _, _, _, rfl, rfl, h1, by decide, by decide, fun hq => ?_⟩
    simp only [List.mem_cons, Prod.mk.injEq, List.not_mem_nil, or_false] at h9
    rcases h9 with ⟨_, rfl⟩ | ⟨rfl, rfl⟩
    · rcases hq with hq | hq <;> cases hq
    · exact ⟨_, kids_mem h2⟩

end

/-! ## Nodes and their numbers -/

theorem sub_occ {t : NT} {top : Node} (hp : Parse t top) {x y : Node} (h : Sub x y) : ∀ {anc : List Node}, Occ top anc x → ∃ anc', Occ top anc' y := by
  induction h with
  | refl => intro anc h; exact ⟨anc, h⟩
  | @child i u cs c y hc _ ih =>
    intro anc ho
    by_cases hu : u = .augmented
    · subst hu
      obtain ⟨bs, w, rs, rfl, h1, h2⟩ := occ_augOk hp ho _ _ rfl
      rcases List.mem_append.1 hc with hb | hc
      · exact ih (.before ho h1 hb)
      · rcases List.mem_cons.1 hc with rfl | hr
        · exact ih (.word ho h1 h2)
        · exact ih (.after ho h1 h2 hr)
    · exact ih (.child ho hu hc)

mutual
theorem nodeAt_sub (i : Nat) : ∀ (x : Node) {y : Node}, nodeAt i x = some y → Sub x y ∧ y.id = i
  | .nt j t cs, y, h => by
    rw [nodeAt] at h
    split at h
    · rename_i e; cases h; exact ⟨.refl, e⟩
    · obtain ⟨c, hc, hs, e⟩ := nodeIn_sub i cs h
      exact ⟨.child hc hs, e⟩
  | .brivla _, _, h => by cases h
  | .zei _, _, h => by cases h
  | .cmavo .., _, h => by cases h
  | .leaf _, _, h => by cases h
theorem nodeIn_sub (i : Nat) : ∀ (cs : List Node) {y : Node}, nodeIn i cs = some y → ∃ c ∈ cs, Sub c y ∧ y.id = i
  | [], _, h => by cases h
  | c :: cs, y, h => by
    rw [nodeIn] at h
    cases hc : nodeAt i c with
    | some z =>
      rw [hc] at h
      cases h
      exact ⟨c, List.mem_cons_self .., nodeAt_sub i c hc⟩
    | none =>
      rw [hc] at h
      obtain ⟨d, hd, hs⟩ := nodeIn_sub i cs h
      exact ⟨d, List.mem_cons_of_mem _ hd, hs⟩
end

theorem nodeIn_some {j : Nat} {c y : Node} (h : nodeAt j c = some y) : ∀ {cs : List Node}, c ∈ cs → ∃ y, nodeIn j cs = some y := by
  intro cs
  induction cs with
  | nil => intro hc; cases hc
  | cons d cs ih =>
    intro hc
    rw [nodeIn]
    cases hd : nodeAt j d with
    | some z => exact ⟨z, rfl⟩
    | none =>
      rcases List.mem_cons.1 hc with rfl | hc
      · rw [hd] at h; cases h
      · exact ih hc

theorem nodeAt_some {j : Nat} {u : NT} {ds : List Node} {x : Node} (h : Sub x (.nt j u ds)) : ∃ y, nodeAt j x = some y := by
  generalize e : Node.nt j u ds = z at h
  induction h with
  | refl => subst e; rw [nodeAt, if_pos rfl]; exact ⟨_, rfl⟩
  | child hc _ ih =>
    rw [nodeAt]
    split
    · exact ⟨_, rfl⟩
    · obtain ⟨y, hy⟩ := ih e
      exact nodeIn_some hy hc

theorem nodeAt_occ {t : NT} {top : Node} (hp : Parse t top) (hn : (ids top).Nodup) {anc : List Node} {j : Nat} {u : NT} {ds : List Node}
    (h : Occ top anc (.nt j u ds)) : nodeAt j top = some (.nt j u ds) := by
  obtain ⟨y, hy⟩ := nodeAt_some (occ_sub h)
  obtain ⟨hs, e⟩ := nodeAt_sub j top hy
  obtain ⟨anc', ho⟩ := sub_occ hp hs .top
  rw [hy, (occ_unique hp hn ho h e).2]

/-- Where there is `gi` there is the first part of the connective. -/
theorem gek_beside : rules.all (fun r => !r.rhs.contains (.n .gik) || r.lhs == .gek || r.rhs.contains (.n .gek) || r.rhs.contains (.n .guhek)) = true := by
  decide +kernel

theorem kids_has {P : NT → Node → Prop} {its : List Item} {cs : List Node} (h : Kids P its cs) {t : NT} (hm : .n t ∈ its) : ∃ c ∈ cs, P t c := by
  induction h with
  | nil => cases hm
  | n hp _ ih =>
    rcases List.mem_cons.1 hm with e | hm
    · cases e; exact ⟨_, List.mem_cons_self .., hp⟩
    · obtain ⟨c, h1, h2⟩ := ih hm; exact ⟨c, List.mem_cons_of_mem _ h1, h2⟩
  | word hw _ ih =>
    rcases List.mem_cons.1 hm with e | hm
    · subst e; cases hw with
      | alone h => cases h
      | marked _ h _ => cases h
    · obtain ⟨c, h1, h2⟩ := ih hm; exact ⟨c, List.mem_cons_of_mem _ h1, h2⟩
  | put _ _ ih =>
    obtain ⟨c, h1, h2⟩ := ih ((List.mem_cons.1 hm).resolve_left nofun)
    exact ⟨c, List.mem_cons_of_mem _ h1, h2⟩
  | out _ ih => exact ih ((List.mem_cons.1 hm).resolve_left nofun)

theorem sub_depth {x y : Node} (h : Sub x y) : y.depth ≤ x.depth := by
  induction h with
  | refl => exact Nat.le_refl _
  | child hc _ ih => have := depth_le hc; simp only [Node.depth]; omega

section
variable {top : Node} {env : Env} {log : List Connect.Ev} (hp : Parse .chunks top) (hn : (ids top).Nodup)
  (hl : Connect.connectivesProcessing top = .ok log) (hc : env.conn = connOf top log)
include hp hn hl hc

/-- The property that the output asks for is there, and what it leads to is below the same node. -/
theorem conn_there {anc : List Node} {q : Nat} {v : NT} {ds : List Node} (ho : Occ top anc (.nt q v ds)) (hv : v ≠ .augmented)
    {i : Nat} {t : NT} {cs : List Node} (hm : .nt i t cs ∈ ds) (ht : t ∈ linked) (hg : v = .gek → t ≠ .gik) :
    ∃ c, env.conn i = some c ∧ ∀ p js n1 n2, c = .joined p js n1 n2 → p = .giStag ∨ p = .giJoik →
      ∃ k u jj jt js', .nt k .gek u ∈ ds ∧ js = .nt jj jt js' ∧ js ∈ u ∧ jt ≠ .gik := by
  obtain ⟨log', hl', hlog⟩ := Connect.connectives_any top hp
  rw [hl] at hl'
  cases hl'
  have hx : Occ top (.nt q v ds :: anc) (.nt i t cs) := .child ho hv hm
  have htn : t ≠ .augmented := by rintro rfl; revert ht; decide
  -- an event for the node
  have some_ev : ∃ e ∈ log, evId e = i := by
    rcases List.mem_cons.1 ht with rfl | ht
    · have hpv := (occ_nt hp ho hv).1
      obtain ⟨_, _, r, e, hr, hlhs, hk⟩ := parse_inv hpv
      cases e
      have hin : .n .gik ∈ r.rhs := by
        rcases kid_cases hk hm with ⟨u, hu, hpu⟩ | ⟨it, _, hw⟩ | ⟨s, k, w, _, _, e⟩
        · obtain ⟨_, _, _, e, _⟩ := parse_inv hpu; cases e; exact hu
        · exact absurd (word_sub hw .refl rfl) htn
        · cases e
      have hb := List.all_eq_true.1 gek_beside r hr
      have hne : r.lhs ≠ .gek := by rw [hlhs]; exact fun e => hg e rfl
      have : ∃ t', (t' = .gek ∨ t' = .guhek) ∧ .n t' ∈ r.rhs := by
        simp only [Bool.or_eq_true, Bool.not_eq_true', beq_iff_eq, List.contains_iff_mem] at hb
        rcases hb with ((hb | hb) | hb) | hb
        · rw [List.contains_iff_mem.2 hin] at hb; cases hb
        · exact absurd hb hne
        · exact ⟨_, .inl rfl, hb⟩
        · exact ⟨_, .inr rfl, hb⟩
      obtain ⟨t', ht', hmem⟩ := this
      obtain ⟨c, hcd, hpc⟩ := kids_has hk hmem
      obtain ⟨k, es, _, rfl, _⟩ := parse_inv hpc
      have hoc : Occ top (.nt q v ds :: anc) (.nt k t' es) := .child ho hv hcd
      obtain ⟨e, he⟩ := Connect.told_some hp (by rcases ht' with rfl | rfl <;> decide) hoc
      obtain ⟨e', he', hid⟩ := told_gi ht' he hm
      exact ⟨e', (hlog e').2 ⟨_, _, hoc, he'⟩, hid⟩
    · obtain ⟨e, he⟩ := Connect.told_some hp ht hx
      obtain ⟨e', he', hid⟩ := told_own he
      exact ⟨e', (hlog e').2 ⟨_, _, hx, he'⟩, hid⟩
  -- every event leads somewhere
  have leads : ∀ j p js n1 n2, Connect.Ev.joined j p js n1 n2 ∈ log → ∃ y, nodeAt js top = some y ∧
      (j = i → p = .giStag ∨ p = .giJoik → ∃ k u jj jt js', .nt k .gek u ∈ ds ∧ y = .nt jj jt js' ∧ y ∈ u ∧ jt ≠ .gik) := by
    intro j p js n1 n2 hm'
    obtain ⟨anc', x', ho', htold⟩ := (hlog _).1 hm'
    obtain ⟨q', v', ds', rest, k, u, es, fs, rfl, rfl, hin, hu1, hu2, hgi⟩ := told_joined htold
    have hoj := Occ.child ho' (by decide) (List.mem_cons_self ..)
    refine ⟨_, nodeAt_occ hp hn hoj, fun ej hq => ?_⟩
    subst ej
    obtain ⟨gs, hgs⟩ := hgi hq
    obtain ⟨hor, _, _, _, e, hv'⟩ := occ_anc ho' [] _ _ rfl
    cases e
    have := (occ_unique hp hn (Occ.child hor hv' hgs) hx rfl).1
    cases this
    exact ⟨k, _, _, _, _, hin, rfl, List.mem_cons_self .., hu2⟩
  rw [hc]
  have found : ∃ c, connOf top log i = some c := by
    obtain ⟨e, he, hid⟩ := some_ev
    rw [connOf]
    rw [← Option.isSome_iff_exists, List.findSome?_isSome_iff]
    refine ⟨e, he, ?_⟩
    cases e with
    | truth j p s => simp [evId] at hid; simp [hid]
    | joined j p js n1 n2 =>
      simp [evId] at hid
      obtain ⟨y, hy, _⟩ := leads j p js n1 n2 he
      simp [hid, hy]
  obtain ⟨c, hcc⟩ := found
  refine ⟨c, hcc, ?_⟩
  rintro p js n1 n2 rfl hq
  obtain ⟨e, he, hfe⟩ := List.exists_of_findSome?_eq_some hcc
  cases e with
  | truth j p s => simp at hfe
  | joined j p' js' n1' n2' =>
    by_cases ej : j = i
    · simp only [ej, if_true, Option.map_eq_some_iff] at hfe
      obtain ⟨y, hy, hce⟩ := hfe
      cases hce
      obtain ⟨y', hy', hres⟩ := leads j p js' n1 n2 he
      rw [hy] at hy'
      cases hy'
      exact hres ej hq
    · simp [ej] at hfe

omit hp hn hl hc in
/-- Words with their indicators. -/
theorem word_ends : ∀ (n : Nat) (x : Node), x.depth ≤ n → (∀ i t cs, Sub x (.nt i t cs) → t = .augmented) → ∀ fuel, n < fuel → ∀ w,
    Oks (output env fuel w x) := by
  intro n
  induction n with
  | zero =>
    intro x hd _ fuel hf w
    cases fuel with
    | zero => omega
    | succ fuel =>
      cases x with
      | nt i t cs => simp [Node.depth] at hd
      | zei i => exact ⟨_, rfl⟩
      | brivla i => exact ⟨_, by unfold output; rfl⟩
      | cmavo i s v => exact ⟨_, by unfold output; rfl⟩
      | leaf i => exact ⟨_, by unfold output; rfl⟩
  | succ n ih =>
    intro x hd hx fuel hf w
    cases fuel with
    | zero => omega
    | succ fuel =>
      cases x with
      | nt i t cs =>
        have := hx i t cs .refl
        subst this
        rw [output]
        refine oks_bind (oks_each fun c hc => ?_) fun a => oks_pure _
        simp only [Node.depth] at hd
        have := depth_le hc
        exact ih c (by omega) (fun j u ds hs => hx j u ds (.child hc hs)) fuel (by omega) w
      | zei i => exact ⟨_, rfl⟩
      | brivla i => exact ⟨_, by unfold output; rfl⟩
      | cmavo i s v => exact ⟨_, by unfold output; rfl⟩
      | leaf i => exact ⟨_, by unfold output; rfl⟩

/-- Below any node: `more` is what the labels of terms need, if they are shown. -/
theorem below_ends (labels : Bool) (more : Nat)
    (hT : labels = true → ∀ i tag m, .jai tag m ∈ env.tags i → ∀ fuel, more < fuel → Oks (output env fuel .tagTrans tag)) :
    ∀ (n : Nat) (anc : List Node) (q : Nat) (v : NT) (ds : List Node), Occ top anc (.nt q v ds) → v ≠ .augmented → (Node.nt q v ds).depth ≤ n + 1 →
      ∀ c ∈ ds, ∀ fuel, n + more < fuel → ∀ w : Show, (labels = false → w.loj = false) → (v = .gek → w = .lojbanInd ∨ c.isNT .gik = false) →
        Oks (output env fuel w c) := by
  intro n
  induction n with
  | zero =>
    intro anc q v ds ho hv hd c hcm fuel hf w _ _
    simp only [Node.depth] at hd
    have hcd := depth_le hcm
    refine word_ends 0 c (by omega) (fun i t cs hs => ?_) fuel (by omega) w
    cases c with
    | nt _ _ _ => simp only [Node.depth] at hcd; omega
    | _ => cases hs
  | succ n ih =>
    intro anc q v ds ho hv hd c hcm fuel hf w hw hg
    simp only [Node.depth] at hd
    have hcd := depth_le hcm
    have hpv := (occ_nt hp ho hv).1
    obtain ⟨_, _, r, e, hr, hlhs, hk⟩ := parse_inv hpv
    cases e
    rcases kid_cases hk hcm with ⟨u, _, hpu⟩ | ⟨it, _, hwr⟩ | ⟨s, k, z, _, _, rfl⟩
    · obtain ⟨i, cs, _, rfl, _⟩ := parse_inv hpu
      have hu : u ≠ .augmented := parse_not_aug hpu
      have hoc : Occ top (.nt q v ds :: anc) (.nt i u cs) := .child ho hv hcm
      cases fuel with
      | zero => omega
      | succ fuel =>
        rw [output]
        refine oks_bind (oks_inner hpu (fun c hcc w' hw' hg' => ?_) (fun hwl tag m htag => ?_) (fun hul hwn => ?_)) fun a => oks_pure _
        · exact ih _ _ _ _ hoc hu (by omega) c hcc fuel (by omega) w' (fun hlab => hw' (hw hlab)) (fun hug => .inl (hg' hug).2)
        · cases labels with
          | false => rw [hw rfl] at hwl; cases hwl
          | true => exact hT rfl i tag m htag fuel (by omega)
        · obtain ⟨cn, h1, h2⟩ := conn_there hp hn hl hc ho hv hcm hul (fun hvg hug => by
            subst hug
            rcases hg hvg with h | h
            · exact hwn h
            · simp [Node.isNT] at h)
          refine ⟨cn, h1, fun p js n1 n2 ej hpj w' hw' => ?_⟩
          obtain ⟨k, es, jj, jt, js', hge, rfl, hje, hjt⟩ := h2 p js n1 n2 ej hpj
          have hoge : Occ top (.nt q v ds :: anc) (.nt k .gek es) := .child ho hv hge
          have hgd := depth_le hge
          exact ih _ _ _ _ hoge (by decide) (by omega) _ hje fuel (by omega) w' (fun _ => hw') (fun _ => .inr (by simp [Node.isNT, hjt]))
    · exact word_ends (n + 1) c (by omega) (fun i t cs hs => word_sub hwr hs rfl) fuel (by omega) w
    · exact word_ends (n + 1) _ (by simp [Node.depth]) (fun i t cs hs => by cases hs) fuel (by omega) w

/-- **The display comes to its end.** -/
theorem display_ends (hT : ∀ i tag m, .jai tag m ∈ env.tags i → ∃ anc q ds, Occ top anc (.nt q .jaiTagTu2 ds) ∧ tag ∈ ds)
    (fuel : Nat) (hf : 2 * top.depth < fuel) : ∃ out, output env fuel .both top = .ok out := by
  obtain ⟨i, cs, r, rfl, _, hlhs, hk⟩ := parse_inv hp
  have hsub : ∀ {anc x}, Occ (.nt i .chunks cs) anc x → x.depth ≤ (Node.nt i .chunks cs).depth := fun ho => sub_depth (occ_sub ho)
  have tags : ∀ j tag m, .jai tag m ∈ env.tags j → ∀ fuel, (Node.nt i .chunks cs).depth < fuel → Oks (output env fuel .tagTrans tag) := by
    intro j tag m hm fuel hf
    obtain ⟨anc, q, ds, ho, htag⟩ := hT j tag m hm
    have := hsub ho
    exact below_ends hp hn hl hc false 0 nofun (Node.nt i .chunks cs).depth anc q _ ds ho (by decide) (by omega) tag htag fuel (by omega) .tagTrans
      (fun _ => rfl) nofun
  cases fuel with
  | zero => omega
  | succ fuel =>
    rw [output]
    have h1 : 1 ≤ (Node.nt i .chunks cs).depth := by simp [Node.depth]
    refine oks_bind (oks_inner hp (fun c hcc w' _ _ => ?_) (fun _ tag m htag => tags i tag m htag fuel (by omega)) (fun h => ?_)) fun a => oks_pure _
    · refine below_ends hp hn hl hc true (Node.nt i .chunks cs).depth (fun _ => tags) ((Node.nt i .chunks cs).depth - 1) [] i .chunks cs .top (by decide)
        (by omega) c hcc fuel ?_ w' nofun nofun
      omega
    · exact absurd h (by decide)

end

end Jbo.Output
