import Verif.RelativeSpec
import Verif.GramLook
import Verif.GramEx
/-!
# Relative clauses on every parse tree
-/

namespace Jbo.Relative
open Jbo.Terms Jbo.Terms.Spec Jbo.Gram Spec

/-! ## The rules -/

def hosts : List NT := [.fragment, .sumti, .sumti5, .laheSumti6, .naheBoSumti6, .nameSumti6, .sumtiTail, .sumtiTail1, .freeVocative]

theorem clause_in : rules.all (fun r => !(r.rhs.contains (.n .relativeClause)) || r.lhs == .relativeClauseSeq) = true := by decide +kernel
theorem seq_in : rules.all (fun r => !(r.rhs.contains (.n .relativeClauseSeq)) || r.lhs == .relativeClauseSeq || r.lhs == .relativeClauses) = true := by
  decide +kernel
theorem clauses_in : rules.all (fun r => !(r.rhs.contains (.n .relativeClauses)) || hosts.contains r.lhs) = true := by decide +kernel

def headed (ts : List NT) (its : List Item) : Bool := !(its.contains (.n .relativeClauses)) || match its with
  | .n t :: _ => ts.contains t
  | _ => false

theorem sumti_rules : on .sumti (headed [.sumti1]) = true := by decide +kernel
theorem sumti5_rules : on .sumti5 (headed [.sumti5a, .sumti5b]) = true := by decide +kernel
theorem tail1_rules : on .sumtiTail1 (headed [.sumtiTail1a]) = true := by decide +kernel
theorem lahe_rules : on .laheSumti6 (fun its => its.count (.n .sumti) == 1) = true := by decide +kernel
theorem nahe_rules : on .naheBoSumti6 (fun its => its.count (.n .sumti) == 1) = true := by decide +kernel
theorem sumtiTail_rules : on .sumtiTail (fun its => decide (its.count (.n .sumti6) ≤ 1)) = true := by decide +kernel
theorem clause_rules : on .relativeClause (fun its => its == [.n .termRelativeClause] || its == [.n .fullRelativeClause]) = true := by
  decide +kernel
theorem goi_rules : on .termRelativeClause (fun its => match its with
    | .t .GOI :: r => r.count (.n .term) == 1
    | _ => false) = true := by decide +kernel
theorem term_child : on .term (fun its => match its with
    | [.n _] => true
    | _ => false) = true := by decide +kernel
theorem keha_words : ∀ s, s ≠ .KOhA → "ke'a" ∉ wordsOf s := by
  intro s hs
  cases s <;> first | exact absurd rfl hs | decide +kernel

theorem named_lhs {f : Rule → Bool} {u : NT} {it : Item} (h : rules.all f = true) (hn : Named u it) :
    ∃ r, r.lhs = u ∧ it ∈ r.rhs ∧ f r = true := by
  obtain ⟨r, hr, e, hi⟩ := hn
  exact ⟨r, e, hi, all_mem h hr⟩

/-! ## Where clauses stand -/

theorem clauses_host {top : Node} (hp : Parse .chunks top) {anc : List Node} {i : Nat} {cs : List Node}
    (ho : Occ top anc (.nt i .relativeClauses cs)) :
    ∃ j v ds rest, anc = .nt j v ds :: rest ∧ Parse v (.nt j v ds) ∧ .nt i .relativeClauses cs ∈ ds ∧ v ∈ hosts := by
  obtain ⟨_, j, v, ds, rest, rfl, _, hv, hm, hn⟩ := occ_parent hp ho (by decide) (by decide)
  obtain ⟨r, rfl, hi, hf⟩ := named_lhs clauses_in hn
  have : r.lhs ∈ hosts := by simpa [hi] using hf
  exact ⟨j, _, ds, rest, rfl, hv, hm, this⟩

theorem seq_host {top : Node} (hp : Parse .chunks top) : ∀ (n : Nat) {anc : List Node} {i : Nat} {cs : List Node}, anc.length ≤ n →
    Occ top anc (.nt i .relativeClauseSeq cs) →
    ∃ near k es j v ds rest, anc = near ++ .nt k .relativeClauses es :: .nt j v ds :: rest ∧
      (∀ y ∈ near, y.isNT .relativeClauseSeq = true) ∧ Parse v (.nt j v ds) ∧ .nt k .relativeClauses es ∈ ds ∧ v ∈ hosts := by
  intro n
  induction n with
  | zero =>
    intro anc i cs hl ho
    obtain ⟨_, j, v, ds, rest, rfl, _⟩ := occ_parent hp ho (by decide) (by decide)
    simp at hl
  | succ n ih =>
    intro anc i cs hl ho
    obtain ⟨_, j, v, ds, rest, rfl, hr, hv, hm, hn⟩ := occ_parent hp ho (by decide) (by decide)
    obtain ⟨r, rfl, hi, hf⟩ := named_lhs seq_in hn
    simp only [List.contains_iff_mem, hi, List.contains_eq_mem, decide_true, Bool.not_true, Bool.false_or, Bool.or_eq_true, beq_iff_eq] at hf
    rcases hf with e | e
    · rw [e] at hr
      obtain ⟨near, k, es, j', v', ds', rest', e2, h1, h2⟩ := ih (by simp at hl; omega) hr
      refine ⟨.nt j r.lhs ds :: near, k, es, j', v', ds', rest', by rw [e2]; rfl, fun y hy => ?_, h2⟩
      rcases List.mem_cons.1 hy with rfl | hy
      · simp [Node.isNT, e]
      · exact h1 y hy
    · rw [e] at hr
      obtain ⟨j', v', ds', rest', rfl, h1, h2, h3⟩ := clauses_host hp hr
      exact ⟨[], j, ds, j', v', ds', rest', by rw [e]; rfl, nofun, h1, h2, h3⟩

theorem clause_host {top : Node} (hp : Parse .chunks top) {anc : List Node} {i : Nat} {cs : List Node}
    (ho : Occ top anc (.nt i .relativeClause cs)) :
    ∃ near k es j v ds rest, anc = near ++ .nt k .relativeClauses es :: .nt j v ds :: rest ∧
      (∀ y ∈ near, y.isNT .relativeClauseSeq = true) ∧ Parse v (.nt j v ds) ∧ .nt k .relativeClauses es ∈ ds ∧ v ∈ hosts := by
  obtain ⟨_, j, v, ds, rest, rfl, hr, hv, hm, hn⟩ := occ_parent hp ho (by decide) (by decide)
  obtain ⟨r, rfl, hi, hf⟩ := named_lhs clause_in hn
  have e : r.lhs = .relativeClauseSeq := by simpa [hi] using hf
  rw [e] at hr
  obtain ⟨near, k, es, j', v', ds', rest', e2, h1, h2⟩ := seq_host hp _ (Nat.le_refl _) hr
  refine ⟨.nt j r.lhs ds :: near, k, es, j', v', ds', rest', by rw [e2]; rfl, fun y hy => ?_, h2⟩
  rcases List.mem_cons.1 hy with rfl | hy
  · simp [Node.isNT, e]
  · exact h1 y hy

theorem isNT_inv {x : Node} {t : NT} (h : x.isNT t = true) : ∃ i cs, x = .nt i t cs := by
  cases x <;> simp [Node.isNT] at h
  subst h
  exact ⟨_, _, rfl⟩

theorem enclosing_eval {near : List Node} (h : ∀ y ∈ near, y.isNT .relativeClauseSeq = true) {k : Nat} {es : List Node} {e : Node} {rest : List Node} :
    enclosing (near ++ .nt k .relativeClauses es :: e :: rest) = .ok e := by
  induction near with
  | nil => rfl
  | cons y near ih =>
    obtain ⟨i, cs, rfl⟩ := isNT_inv (h y (List.mem_cons_self ..))
    exact ih (fun z hz => h z (List.mem_cons_of_mem _ hz))

theorem stands_unique {anc : List Node} {e e' : Node} (h : Stands anc e) (h' : Stands anc e') : e = e' := by
  obtain ⟨n1, i1, c1, r1, rfl, h1⟩ := h
  obtain ⟨n2, i2, c2, r2, e2, h2⟩ := h'
  have a := enclosing_eval h1 (k := i1) (es := c1) (e := e) (rest := r1)
  have b := enclosing_eval h2 (k := i2) (es := c2) (e := e') (rest := r2)
  rw [e2, b] at a
  cases a; rfl

theorem head_eval {t : NT} {ts : List NT} (hr : on t (headed ts) = true) {j : Nat} {ds : List Node} (hv : Parse t (.nt j t ds)) {k : Nat}
    {es : List Node} (hm : .nt k .relativeClauses es ∈ ds) : ∃ a r, ds = a :: r ∧ ∃ u ∈ ts, a.isNT u = true := by
  obtain ⟨_, its, _, e, hf, hk⟩ := on_use hr hv
  cases e
  unfold headed at hf
  rw [Bool.or_eq_true] at hf
  have hn := kid_named hk (by decide) hm
  rcases hf with hf | hf
  · simp [hn] at hf
  · split at hf
    · obtain ⟨a, r, rfl, ha, _⟩ := first hk
      exact ⟨a, r, rfl, _, by simpa using hf, by rw [parse_isNT ha]; simp⟩
    · cases hf

theorem found_eval {v : NT} (hv : v ∈ hosts) {j : Nat} {ds : List Node} (hp : Parse v (.nt j v ds)) {k : Nat} {es : List Node}
    (hm : .nt k .relativeClauses es ∈ ds) :
    (∃ a, antecedentOf (.nt j v ds) = .ok (.node a) ∧ ∀ b, Antecedent (.nt j v ds) b ↔ b = a) ∨
      antecedentOf (.nt j v ds) = .ok .null ∧ ∀ b, ¬ Antecedent (.nt j v ds) b := by
  simp only [hosts, List.mem_cons, List.not_mem_nil, or_false] at hv
  have one : ∀ {t : NT}, on t (fun its => its.count (.n .sumti) == 1) = true → Parse t (.nt j t ds) → ∃ a, kids ds .sumti = [a] := by
    intro t hr hp
    obtain ⟨_, its, _, e, hf, hk⟩ := on_use hr hp
    cases e
    obtain ⟨a, h1, _⟩ := kids_one hk (t := .sumti) (by decide) (by simpa using hf)
    exact ⟨a, h1⟩
  rcases hv with rfl | rfl | rfl | rfl | rfl | rfl | rfl | rfl | rfl
  · exact .inr ⟨rfl, fun b h => by cases h with
      | lahe h _ => rcases h with h | h <;> cases h⟩
  · obtain ⟨a, r, rfl, u, hu, ha⟩ := head_eval sumti_rules hp hm
    cases List.mem_singleton.1 hu
    refine .inl ⟨a, rfl, fun b => ⟨fun h => ?_, fun e => by subst e; exact .sumti ha⟩⟩
    cases h with
    | sumti _ => rfl
    | lahe h _ => rcases h with h | h <;> cases h
  · obtain ⟨a, r, rfl, u, hu, ha⟩ := head_eval sumti5_rules hp hm
    refine .inl ⟨a, rfl, fun b => ⟨fun h => ?_, fun e => by
      subst e
      simp only [List.mem_cons, List.not_mem_nil, or_false] at hu
      rcases hu with rfl | rfl
      · exact .sumti5 (.inl ha)
      · exact .sumti5 (.inr ha)⟩⟩
    cases h with
    | sumti5 _ => rfl
    | lahe h _ => rcases h with h | h <;> cases h
  · obtain ⟨a, ha⟩ := one lahe_rules hp
    refine .inl ⟨a, ?_, fun b => ⟨fun h => ?_, fun e => by subst e; exact .lahe (.inl rfl) ha⟩⟩
    · simp only [kids] at ha
      simp [antecedentOf, ntOf, findNth, Node.children, ha, antecedentOf.opt, bind, Except.bind, pure, Except.pure]
    · cases h with
      | lahe _ h => rw [ha] at h; cases h; rfl
  · obtain ⟨a, ha⟩ := one nahe_rules hp
    refine .inl ⟨a, ?_, fun b => ⟨fun h => ?_, fun e => by subst e; exact .lahe (.inr rfl) ha⟩⟩
    · simp only [kids] at ha
      simp [antecedentOf, ntOf, findNth, Node.children, ha, antecedentOf.opt, bind, Except.bind, pure, Except.pure]
    · cases h with
      | lahe _ h => rw [ha] at h; cases h; rfl
  · refine .inl ⟨_, rfl, fun b => ⟨fun h => ?_, fun e => by subst e; exact .name⟩⟩
    cases h with
    | name => rfl
    | lahe h _ => rcases h with h | h <;> cases h
  · obtain ⟨_, its, _, e, hf, hk⟩ := on_use sumtiTail_rules hp
    cases e
    have ev : antecedentOf (.nt j .sumtiTail ds) = .ok (antecedentOf.opt (kids ds .sumti6)[0]?) := rfl
    rcases kids_le hk (by decide) (t := .sumti6) (by simpa using hf) with h0 | ⟨a, ha, _⟩
    · refine .inr ⟨by rw [ev, h0]; rfl, fun b h => ?_⟩
      cases h with
      | owner h => rw [h0] at h; cases h
      | lahe h _ => rcases h with h | h <;> cases h
    · refine .inl ⟨a, by rw [ev, ha]; rfl, fun b => ⟨fun h => ?_, fun e => by subst e; exact .owner ha⟩⟩
      cases h with
      | owner h => rw [ha] at h; cases h; rfl
      | lahe h _ => rcases h with h | h <;> cases h
  · obtain ⟨a, r, rfl, u, hu, ha⟩ := head_eval tail1_rules hp hm
    cases List.mem_singleton.1 hu
    refine .inl ⟨a, rfl, fun b => ⟨fun h => ?_, fun e => by subst e; exact .tail ha⟩⟩
    cases h with
    | tail _ => rfl
    | lahe h _ => rcases h with h | h <;> cases h
  · refine .inl ⟨_, rfl, fun b => ⟨fun h => ?_, fun e => by subst e; exact .vocative⟩⟩
    cases h with
    | vocative => rfl
    | lahe h _ => rcases h with h | h <;> cases h

theorem clause_at {P : Node → Prop} {top : Node} (hp : Parse .chunks top) {anc : List Node} {i : Nat} {cs : List Node}
    (ho : Occ top anc (.nt i .relativeClause cs)) :
    ∃ es, node anc (.nt i .relativeClause cs) = .ok es ∧ ∀ e, e ∈ es ↔ Told P anc (.nt i .relativeClause cs) e := by
  obtain ⟨near, k, ks, j, v, ds, rest, rfl, hn, hv, hm, hh⟩ := clause_host hp ho
  have hst : Stands (near ++ .nt k .relativeClauses ks :: .nt j v ds :: rest) (.nt j v ds) := ⟨near, k, ks, rest, rfl, hn⟩
  have ev : node (near ++ .nt k .relativeClauses ks :: .nt j v ds :: rest) (.nt i .relativeClause cs) =
      anyRelClause (near ++ .nt k .relativeClauses ks :: .nt j v ds :: rest) (.nt i .relativeClause cs) := rfl
  rcases found_eval hh hv hm with ⟨a, h1, h2⟩ | ⟨h1, h2⟩
  · refine ⟨[.antecedent i a.id, .brac a.id], ?_, fun e => ⟨fun h => .clause hst ((h2 a).2 rfl) h, fun h => ?_⟩⟩
    · rw [ev, anyRelClause, enclosing_eval hn]
      simp only [bind, Except.bind, h1]
      rfl
    · cases h with
      | clause hs ha he =>
        cases stands_unique hst hs
        cases (h2 _).1 ha
        exact he
  · refine ⟨[], ?_, fun e => ⟨nofun, fun h => ?_⟩⟩
    · rw [ev, anyRelClause, enclosing_eval hn]
      simp only [bind, Except.bind, h1]
      rfl
    · cases h with
      | clause hs ha he =>
        cases stands_unique hst hs
        exact absurd ha (h2 _)

/-! ## Phrases with GOI -/

theorem goi_at {P : Node → Prop} {anc : List Node} {i : Nat} {cs : List Node} (hp : Parse .termRelativeClause (.nt i .termRelativeClause cs)) :
    ∃ es, node anc (.nt i .termRelativeClause cs) = .ok es ∧ ∀ e, e ∈ es ↔ Told P anc (.nt i .termRelativeClause cs) e := by
  obtain ⟨_, its, _, e, hf, hk⟩ := on_use goi_rules hp
  cases e
  split at hf
  case h_2 => cases hf
  rename_i its
  obtain ⟨g, ds, rfl, hg, hk'⟩ := firstT hk
  obtain ⟨j, w, hw, _⟩ := word_clean (by decide) hg
  obtain ⟨t, ht, pt⟩ := kids_one hk' (by decide) (t := .term) (by simpa using hf)
  obtain ⟨k, its2, ts, rfl, hf2, hk2⟩ := on_use term_child pt
  split at hf2
  case h_2 => cases hf2
  rename_i u
  obtain ⟨c, rfl, hc⟩ := only hk2
  obtain ⟨n, us, _, rfl, _⟩ := parse_inv hc
  have pl : Plain .GOI := ⟨by decide, by decide⟩
  have e1 : look .GOI (g :: ds) = some (.cmavo j .GOI w) := by
    rw [look_cons, look_clean pl (kid_clean hp (List.mem_cons_self ..) hw)]; simp
  have e2 : kids (g :: ds) .term = kids ds .term := by
    have : g.isNT .term = false := word_isNT hg (by decide)
    simp [kids, this]
  have ev : node anc (.nt i .termRelativeClause (g :: ds)) = .ok (if u ∈ [NT.termTaggedSumti, .taggedTermset] then [.dontGloss j] else []) := by
    have a : findNth (.nt i .termRelativeClause (g :: ds)) 1 .term = .ok (some (.nt k .term [.nt n u us])) := by
      have : findNth (.nt i .termRelativeClause (g :: ds)) 1 .term = .ok (kids (g :: ds) .term)[0]? := rfl
      rw [this, e2, ht]; rfl
    have b : node anc (.nt i .termRelativeClause (g :: ds)) = goiClause (.nt i .termRelativeClause (g :: ds)) := rfl
    rw [b, goiClause, find_look, e1, a]
    simp only [bind, Except.bind, asserted, childRef, Node.children, ntOf, List.getElem?_cons_zero, pure, Except.pure, Node.id]
    split
    · rename_i e; cases e; rfl
    · rename_i e; cases e; rfl
    · rename_i h1 h2
      rw [if_neg]
      simp only [List.mem_cons, List.not_mem_nil, or_false, not_or]
      exact ⟨fun e => h1 (by rw [e]), fun e => h2 (by rw [e])⟩
  refine ⟨_, ev, fun e => ?_⟩
  constructor
  · intro h
    split at h
    · rename_i hu
      rw [List.mem_singleton.1 h]
      exact .goi hw ht hu
    · cases h
  · intro h
    cases h with
    | goi hw' ht' hu' =>
      rw [ht] at ht'
      cases ht'
      rw [if_pos hu']
      have := look_clean pl (kid_clean hp (List.mem_cons_self ..) hw')
      rw [look_clean pl (kid_clean hp (List.mem_cons_self ..) hw)] at this
      simp at this
      rw [this.1]
      exact List.mem_singleton.2 rfl

/-! ## `ke'a` -/

theorem chunks_top {top : Node} (hp : Parse .chunks top) {anc : List Node} {x : Node} (ho : Occ top anc x) :
    ∀ near i cs rest, anc = near ++ .nt i .chunks cs :: rest → ∀ y ∈ rest, ∃ j ds, y = .nt j .chunks ds := by
  intro near i cs rest e
  have ho' := (occ_anc ho near _ rest e).1
  clear e ho
  have key : ∀ (rest : List Node) (i : Nat) (cs : List Node), Occ top rest (.nt i .chunks cs) → ∀ y ∈ rest, ∃ j ds, y = .nt j .chunks ds := by
    intro rest
    induction rest with
    | nil => intro _ _ _ y hy; cases hy
    | cons z rest ih =>
      intro i cs ho y hy
      obtain ⟨_, ⟨h, _⟩ | ⟨j, v, ds, rest', e, _, _, hn, _⟩⟩ := occ_nt hp ho (by decide)
      · cases h
      · cases e
        have hc : rules.all (fun r => !(r.rhs.contains (.n .chunks)) || r.lhs == .chunks) = true := by decide +kernel
        obtain ⟨r, rfl, hi, hf⟩ := named_lhs hc hn
        have e : r.lhs = .chunks := by simpa [hi] using hf
        have ho2 := (occ_anc ho [] _ _ rfl).1
        rw [e] at ho2
        rcases List.mem_cons.1 hy with rfl | hy
        · exact ⟨j, ds, by rw [e]⟩
        · exact ih j ds ho2 y hy
  exact key rest i cs ho'

theorem keha_eval {x : Node} : ∀ {anc : List Node}, (∀ y ∈ anc, ∃ i t cs, y = Node.nt i t cs) →
    (∀ near i cs rest, anc = near ++ .nt i .chunks cs :: rest → ∀ y ∈ rest, ∃ j ds, y = .nt j .chunks ds) →
    (∃ i cs, .nt i .chunks cs ∈ anc) →
    ∃ es, keha x anc = .ok es ∧ ∀ e, e ∈ es ↔ ∃ r, Nearest anyClause anc r ∧ e ∈ [Ev.link x.id r.id, .contains r.id] := by
  intro anc
  induction anc with
  | nil => rintro _ _ ⟨_, _, h⟩; cases h
  | cons y anc ih =>
    intro hn hc hx
    obtain ⟨i, t, cs, rfl⟩ := hn _ (List.mem_cons_self ..)
    by_cases h1 : t = .relativeClause
    · subst h1
      refine ⟨_, by rw [keha, if_pos rfl], fun e => ⟨fun h => ⟨_, ⟨[], anc, rfl, ⟨i, cs, rfl⟩, nofun⟩, h⟩, ?_⟩⟩
      rintro ⟨r, ⟨near, rest, e1, _, h2⟩, he⟩
      cases near with
      | nil => cases e1; exact he
      | cons z near => cases e1; exact absurd ⟨i, cs, rfl⟩ (h2 _ (List.mem_cons_self ..))
    · by_cases h2 : t = .chunks
      · subst h2
        refine ⟨[], by rw [keha, if_neg (by decide), if_pos rfl], fun e => ⟨nofun, ?_⟩⟩
        rintro ⟨r, ⟨near, rest, e1, ⟨j, ds, hr⟩, _⟩, he⟩
        cases near with
        | nil => cases e1; cases hr
        | cons z near =>
          cases e1
          obtain ⟨_, _, e⟩ := hc [] i cs _ rfl r (by simp)
          rw [e] at hr; cases hr
      · obtain ⟨es, h3, h4⟩ := ih (fun y hy => hn y (List.mem_cons_of_mem _ hy))
          (fun near j ds rest e => hc (.nt i t cs :: near) j ds rest (by rw [e]; rfl)) (by
            obtain ⟨j, ds, h⟩ := hx
            rcases List.mem_cons.1 h with h | h
            · cases h; exact absurd rfl h2
            · exact ⟨j, ds, h⟩)
        refine ⟨es, by rw [keha, if_neg h1, if_neg h2]; exact h3, fun e => ?_⟩
        rw [h4]
        constructor
        · rintro ⟨r, ⟨near, rest, rfl, hr, h5⟩, he⟩
          refine ⟨r, ⟨.nt i t cs :: near, rest, rfl, hr, fun y hy => ?_⟩, he⟩
          rcases List.mem_cons.1 hy with rfl | hy
          · rintro ⟨_, _, e⟩; cases e; exact h1 rfl
          · exact h5 y hy
        · rintro ⟨r, ⟨near, rest, e1, hr, h5⟩, he⟩
          cases near with
          | nil => cases e1; obtain ⟨_, _, e⟩ := hr; cases e; exact absurd rfl h1
          | cons z near => cases e1; exact ⟨r, ⟨near, rest, rfl, hr, fun y hy => h5 y (List.mem_cons_of_mem _ hy)⟩, he⟩

/-- Every node but the words of BAhE and the indicators has the text around it. -/
theorem stand_chunks {top : Node} (hp : Parse .chunks top) {anc : List Node} {x : Node} (h : Stand top anc x) :
    (∀ t, Parse t x → x = top ∨ ∃ i cs, .nt i .chunks cs ∈ anc) ∧ (anc ≠ [] → ∃ i cs, .nt i .chunks cs ∈ anc) := by
  obtain ⟨i0, c0, _, etop, _⟩ := parse_inv hp
  have up : ∀ {anc : List Node} {i : Nat} {u : NT} {cs : List Node}, Parse u (.nt i u cs) →
      (∀ t, Parse t (.nt i u cs) → Node.nt i u cs = top ∨ ∃ i cs, .nt i .chunks cs ∈ anc) →
      ∃ j ds, Node.nt j .chunks ds ∈ .nt i u cs :: anc := by
    intro anc i u cs hu ih
    rcases ih u hu with e | ⟨j, ds, h⟩
    · rw [e, etop]; exact ⟨i0, c0, List.mem_cons_self ..⟩
    · exact ⟨j, ds, List.mem_cons_of_mem _ h⟩
  induction h with
  | top hq => exact ⟨fun _ _ => .inl rfl, fun h => absurd rfl h⟩
  | child pu _ _ _ _ ih => exact ⟨fun _ _ => .inr (up pu ih.1), fun _ => up pu ih.1⟩
  | word pu _ _ _ _ ih => exact ⟨fun _ _ => .inr (up pu ih.1), fun _ => up pu ih.1⟩
  | put pu _ _ _ _ ih => exact ⟨fun _ _ => .inr (up pu ih.1), fun _ => up pu ih.1⟩
  | inner pu _ _ _ _ _ _ ih => exact ⟨fun _ _ => .inr (up pu ih.1), fun _ => up pu ih.1⟩
  | bahe _ => exact ⟨fun t ht => by (obtain ⟨_, _, _, e, _⟩ := parse_inv ht; cases e), fun h => absurd rfl h⟩
  | indic hi =>
    refine ⟨fun t ht => ?_, fun h => absurd rfl h⟩
    obtain ⟨_, _, _, e, _⟩ := parse_inv ht
    exact absurd (indic_sub hi .refl e) (parse_not_aug ht)
  | indicWord _ _ => exact ⟨fun t ht => by (obtain ⟨_, _, _, e, _⟩ := parse_inv ht; cases e), fun h => absurd rfl h⟩

/-! ## The theorems -/

/-- **What the program does.**  On every tree of the grammar the pass ends, never with a message, and hangs exactly
this on nodes, where `ke'a` belongs to the nearest clause or phrase. -/
theorem relatives_any (top : Node) (hp : Parse .chunks top) :
    ∃ log, relativeClauseProcessing top = .ok log ∧ ∀ e, e ∈ log ↔ ∃ anc x, Occ top anc x ∧ Told anyClause anc x e := by
  refine pass_logs top fun anc x ho => ⟨occ_augOk hp ho, ?_⟩
  have none : ∀ {anc : List Node} {x : Node}, (∀ e, ¬ Told anyClause anc x e) → node anc x = .ok [] →
      ∃ es, node anc x = .ok es ∧ ∀ e, e ∈ es ↔ Told anyClause anc x e :=
    fun h1 h2 => ⟨[], h2, fun e => ⟨nofun, fun h => absurd h (h1 e)⟩⟩
  cases x with
  | nt i t cs =>
    by_cases h1 : t = .relativeClause
    · subst h1; exact clause_at hp ho
    · by_cases h2 : t = .termRelativeClause
      · subst h2; exact goi_at (occ_nt hp ho (by decide)).1
      · refine none (fun e h => ?_) ?_
        · cases h with
          | clause _ _ _ => exact h1 rfl
          | goi _ _ _ => exact h2 rfl
        · unfold node
          dsimp only
          split
          · exact absurd rfl h1
          · exact absurd rfl h2
          · rfl
  | cmavo i s w =>
    by_cases hw : w = "ke'a"
    · subst hw
      have hs : s = .KOhA := by
        by_cases hs : s = .KOhA
        · exact hs
        · exact absurd (occ_words hp ho) (keha_words s hs)
      subst hs
      obtain ⟨_, j, v, ds, rest, rfl, _⟩ := occ_cmavo hp ho (by decide) (by decide)
      obtain ⟨es, h1, h2⟩ := keha_eval (x := .cmavo i .KOhA "ke'a") (fun y hy => by
          obtain ⟨near, rest, e⟩ := List.append_of_mem hy
          obtain ⟨_, i, t, cs, e, _⟩ := occ_anc ho near y rest e
          exact ⟨i, t, cs, e⟩)
        (chunks_top hp ho) ((stand_chunks hp (occ_stand hp ho)).2 (by simp))
      refine ⟨es, by rw [node, if_pos rfl]; exact h1, fun e => ?_⟩
      rw [h2]
      constructor
      · rintro ⟨r, hr, he⟩; exact .keha hr he
      · intro h; cases h with
        | keha hr he => exact ⟨_, hr, he⟩
    · exact none (fun e h => by cases h; exact hw rfl) (by rw [node, if_neg hw])
  | _ => exact none (fun e h => by cases h) rfl

theorem noi_any {r : Node} (h : noiClause r) : anyClause r := by
  obtain ⟨i, j, cs, rfl⟩ := h
  exact ⟨_, _, rfl⟩

theorem any_noi_nearest {anc : List Node} : (∃ r, r ∈ anc ∧ noiClause r) →
    ∃ near r rest, anc = near ++ r :: rest ∧ anyClause r ∧ ∀ y ∈ near, ¬ anyClause y := by
  induction anc with
  | nil => rintro ⟨r, h, _⟩; cases h
  | cons y anc ih =>
    rintro ⟨r, hr, hn⟩
    by_cases hy : anyClause y
    · exact ⟨[], y, anc, rfl, hy, nofun⟩
    · rcases List.mem_cons.1 hr with rfl | hr
      · exact absurd (noi_any hn) hy
      · obtain ⟨near, r', rest, rfl, h1, h2⟩ := ih ⟨r, hr, hn⟩
        refine ⟨y :: near, r', rest, rfl, h1, fun z hz => ?_⟩
        rcases List.mem_cons.1 hz with rfl | hz
        · exact hy
        · exact h2 z hz

/-- **Relative clauses.**  On every tree of the grammar in which no `ke'a` stands right in a phrase with GOI, the
antecedent of every clause is known to it, `ke'a` belongs to the nearest clause with NOI, and `pe` before a tagged sumti is not
shown. -/
theorem relatives_partial (top : Node) (hp : Parse .chunks top) (hg : NoGoi top) :
    ∃ log, relativeClauseProcessing top = .ok log ∧ ∀ e, e ∈ log ↔ ∃ anc x, Occ top anc x ∧ Told noiClause anc x e := by
  obtain ⟨log, h1, h2⟩ := relatives_any top hp
  refine ⟨log, h1, fun e => ?_⟩
  rw [h2]
  constructor
  · rintro ⟨anc, x, ho, h⟩
    refine ⟨anc, x, ho, ?_⟩
    cases h with
    | clause a b c => exact .clause a b c
    | goi a b c => exact .goi a b c
    | keha hr he =>
      obtain ⟨near, rest, rfl, h3, h4⟩ := hr
      exact .keha ⟨near, rest, rfl, hg _ _ near _ rest ho rfl h3 h4, fun y hy hn => h4 y hy (noi_any hn)⟩ he
  · rintro ⟨anc, x, ho, h⟩
    refine ⟨anc, x, ho, ?_⟩
    cases h with
    | clause a b c => exact .clause a b c
    | goi a b c => exact .goi a b c
    | keha hr he =>
      obtain ⟨near, rest, rfl, h3, h4⟩ := hr
      obtain ⟨near', r', rest', e1, h5, h6⟩ := any_noi_nearest ⟨_, List.mem_append_right _ (List.mem_cons_self ..), h3⟩
      have h7 := hg _ _ near' r' rest' ho e1 h5 h6
      -- both are the nearest
      have : ∀ (n n' : List Node) (a b : Node) (s s' : List Node), n ++ a :: s = n' ++ b :: s' → noiClause a → noiClause b →
          (∀ y ∈ n, ¬ noiClause y) → (∀ y ∈ n', ¬ noiClause y) → n = n' ∧ a = b ∧ s = s' := by
        intro n
        induction n with
        | nil =>
          intro n' a b s s' e ha hb _ hn'
          cases n' with
          | nil => cases e; exact ⟨rfl, rfl, rfl⟩
          | cons c n' => cases e; exact absurd ha (hn' _ (List.mem_cons_self ..))
        | cons c n ih =>
          intro n' a b s s' e ha hb hn hn'
          cases n' with
          | nil => cases e; exact absurd hb (hn _ (List.mem_cons_self ..))
          | cons c' n' =>
            simp only [List.cons_append, List.cons.injEq] at e
            obtain ⟨rfl, rfl, rfl⟩ := ih n' a b s s' e.2 ha hb (fun y hy => hn y (List.mem_cons_of_mem _ hy)) (fun y hy => hn' y (List.mem_cons_of_mem _ hy))
            exact ⟨by rw [e.1], rfl, rfl⟩
      obtain ⟨rfl, rfl, rfl⟩ := this _ _ _ _ _ _ e1 h3 h7 h4 (fun y hy hn => h6 y hy (noi_any hn))
      exact .keha ⟨_, _, rfl, h5, h6⟩ he

/-! ## Examples -/

/-- A sumti of one word with a relative clause, as a term. -/
def withClause (i : Nat) (w : String) (rel : List Node) : Node :=
  .nt i .term (up [.termPlainSumti, .sumti, .sumti1, .sumti2, .sumti3, .sumti4] [.nt 0 .sumti5
    (.nt (i + 1) .sumti5a (up [.sumti6] [.cmavo (i + 2) .KOhA w]) :: up [.relativeClauses, .relativeClauseSeq] [.nt (i + 3) .relativeClause rel])])

/-- *mi nelci* and a term. -/
def liked (t : Node) : List Node :=
  up [.noCuSentence] (koha 10 "mi" ++ tailOf' [.brivla 21] (up [.tailTerms, .terms, .terms1, .terms2] [t]))

/-- *poi mi nelci* and a term. -/
def poiLiked (t : Node) : List Node := up [.fullRelativeClause] (.cmavo 70 .NOI "poi" :: up [.subsentence, .sentence] (liked t))

/-- *mi nelci da poi mi nelci ke'a* -/
def plainKeha : Node := textOf (liked (withClause 30 "da" (poiLiked (kohaTerm 50 "ke'a"))))

/-- *mi nelci da poi mi nelci de pe ke'a* -/
def goiKeha : Node := textOf (liked (withClause 30 "da" (poiLiked (withClause 40 "de"
  (up [.termRelativeClause] [.cmavo 71 .GOI "pe", kohaTerm 50 "ke'a"])))))

set_option maxRecDepth 10000 in
example : Parse .chunks plainKeha ∧ relativeClauseProcessing plainKeha = .ok [.antecedent 33 31, .brac 31, .link 51 33, .contains 33] :=
  ⟨parse_of (by decide +kernel), rfl⟩

/-- A check for nodes with their ancestors. -/
def kehas (anc : List Node) : Node → List (List Node)
  | .nt i t cs => all (.nt i t cs :: anc) cs
  | .cmavo _ _ w => if w = "ke'a" then [anc] else []
  | _ => []
where all (anc : List Node) : List Node → List (List Node)
  | [] => []
  | c :: cs => kehas anc c ++ all anc cs

mutual
/-- No nodes AUGMENTED. -/
def bare : Node → Bool
  | .nt _ t cs => t != .augmented && bares cs
  | _ => true
def bares : List Node → Bool
  | [] => true
  | c :: cs => bare c && bares cs
end

theorem bares_mem {cs : List Node} (h : bares cs = true) : ∀ c ∈ cs, bare c = true := by
  induction cs with
  | nil => simp
  | cons c cs ih =>
    rw [bares, Bool.and_eq_true] at h
    intro d hd
    rcases List.mem_cons.1 hd with rfl | hd
    · exact h.1
    · exact ih h.2 d hd

theorem kehas_all {anc : List Node} {cs : List Node} {c : Node} (h : c ∈ cs) {a : List Node} (ha : a ∈ kehas anc c) : a ∈ kehas.all anc cs := by
  induction cs with
  | nil => cases h
  | cons d cs ih =>
    rw [kehas.all, List.mem_append]
    rcases List.mem_cons.1 h with rfl | h
    · exact .inl ha
    · exact .inr (ih h)

theorem kehas_mem {top : Node} (hb : bare top = true) {anc : List Node} {x : Node} (ho : Occ top anc x) :
    bare x = true ∧ ∀ a ∈ kehas anc x, a ∈ kehas [] top := by
  induction ho with
  | top => exact ⟨hb, fun a h => h⟩
  | @child anc i t cs c _ ht hc ih =>
    have h1 := ih.1
    rw [bare, Bool.and_eq_true] at h1
    exact ⟨bares_mem h1.2 c hc, fun a h => ih.2 a (by rw [kehas]; exact kehas_all hc h)⟩
  | word _ _ _ ih => have h1 := ih.1; simp [bare] at h1
  | before _ _ _ ih => have h1 := ih.1; simp [bare] at h1
  | after _ _ _ _ ih => have h1 := ih.1; simp [bare] at h1

def firstClause : List Node → Option Node
  | [] => none
  | y :: anc => if y.isNT .relativeClause then some y else firstClause anc

def isNoi : Node → Bool
  | .nt _ .relativeClause [.nt _ .fullRelativeClause _] => true
  | _ => false

theorem any_isNT {y : Node} : anyClause y ↔ y.isNT .relativeClause = true :=
  ⟨fun ⟨_, _, e⟩ => by rw [e]; simp [Node.isNT], fun h => isNT_inv h⟩

theorem noGoi_of {top : Node} (hb : bare top = true) (h : (kehas [] top).all (fun a => match firstClause a with
    | some r => isNoi r
    | none => true) = true) : NoGoi top := by
  intro anc i near r rest ho e h1 h2
  have hm := (kehas_mem hb ho).2 anc (by simp [kehas])
  have h3 := List.all_eq_true.1 h anc hm
  have h4 : firstClause anc = some r := by
    subst e
    clear ho hm h3
    induction near with
    | nil => simp [firstClause, any_isNT.1 h1]
    | cons y near ih =>
      have : y.isNT .relativeClause = false := by
        have := h2 y (List.mem_cons_self ..)
        rw [any_isNT] at this
        simpa using this
      rw [List.cons_append, firstClause, this]
      exact ih (fun z hz => h2 z (List.mem_cons_of_mem _ hz))
  rw [h4] at h3
  simp only [isNoi] at h3
  split at h3
  · exact ⟨_, _, _, rfl⟩
  · cases h3

example : NoGoi plainKeha := noGoi_of (by decide +kernel) (by decide +kernel)

def goiPath : List Nat := [0, 0, 0, 0, 0, 0, 0, 0, 0, 0, 0, 1, 0, 0, 0, 1, 0, 0, 0, 0, 0, 0, 0, 0, 0, 0, 0, 1, 0, 0, 0, 1, 0, 0, 1, 0, 0, 0, 1, 0, 0, 0, 0, 0, 0, 0, 0, 0, 0, 0, 1, 0, 0, 0, 1, 0, 0, 0, 0, 0, 0, 0, 0, 0, 0]

/-- A check for the nearest clause with NOI. -/
def nearB : List Node → Nat → Bool
  | [], _ => false
  | y :: anc, n => if isNoi y then y.id == n else nearB anc n

theorem isNoi_use {y : Node} : isNoi y = true ↔ noiClause y := by
  constructor
  · intro h
    unfold isNoi at h
    split at h
    · exact ⟨_, _, _, rfl⟩
    · cases h
  · rintro ⟨_, _, _, rfl⟩; rfl

theorem nearB_use {n : Nat} : ∀ {anc : List Node}, nearB anc n = true → ∃ r, Nearest noiClause anc r ∧ r.id = n := by
  intro anc
  induction anc with
  | nil => intro h; simp [nearB] at h
  | cons y anc ih =>
    intro h
    rw [nearB] at h
    split at h
    · rename_i hy
      exact ⟨y, ⟨[], anc, rfl, isNoi_use.1 hy, nofun⟩, by simpa using h⟩
    · rename_i hy
      obtain ⟨r, ⟨near, rest, rfl, h1, h2⟩, h3⟩ := ih h
      refine ⟨r, ⟨y :: near, rest, rfl, h1, fun z hz => ?_⟩, h3⟩
      rcases List.mem_cons.1 hz with rfl | hz
      · exact fun hn => hy (isNoi_use.2 hn)
      · exact h2 z hz

def isKeha : Node → Nat → Bool
  | .cmavo i s w, n => i == n && s == .KOhA && w == "ke'a"
  | _, _ => false

theorem isKeha_use {x : Node} {n : Nat} (h : isKeha x n = true) : x = .cmavo n .KOhA "ke'a" := by
  cases x <;> simp [isKeha] at h
  obtain ⟨⟨rfl, rfl⟩, rfl⟩ := h
  rfl

set_option maxRecDepth 10000 in
/-- **A defect.**  In *mi nelci da poi mi nelci de pe ke'a* the word `ke'a` stands for *da*, but the program takes the phrase with
`pe` for a relative clause and shows *de*, the sumti to which it is attached. -/
theorem goi_takes_keha : Parse .chunks goiKeha ∧
    (∃ anc x, Occ goiKeha anc x ∧ Told noiClause anc x (.link 51 33)) ∧
    relativeClauseProcessing goiKeha = .ok [.antecedent 33 31, .brac 31, .antecedent 43 41, .brac 41, .link 51 43, .contains 43] := by
  refine ⟨parse_of (by decide +kernel), ?_, rfl⟩
  obtain ⟨⟨anc, x⟩, h⟩ := Option.isSome_iff_exists.1 (show (down [] goiKeha goiPath).isSome = true by decide +kernel)
  have ho := down_occ (top := goiKeha) goiPath .top h
  have h1 : (down [] goiKeha goiPath).any (fun p => isKeha p.2 51 && nearB p.1 33) = true := by decide +kernel
  rw [h] at h1
  simp only [Option.any_some, Bool.and_eq_true] at h1
  obtain ⟨h0, h2⟩ := h1
  cases isKeha_use h0
  obtain ⟨r, hr, e⟩ := nearB_use h2
  exact ⟨anc, _, ho, .keha hr (by rw [e]; exact List.mem_cons_self ..)⟩

end Jbo.Relative
