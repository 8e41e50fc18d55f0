import Verif.CategExact

/-!
# All marker passes together
-/

namespace Jbo.Categ
open Jbo Jbo.CategSpec

/-! ## What the tense pass leaves -/

theorem readsAll_word : ∀ {g : List Tok} {w : List Stag}, ReadsAll g w → ∀ t ∈ g, ∀ m, t ≠ .marker m
  | _, _, .nil, t, ht, _ => by simp at ht
  | _, _, .cons h1 h2, t, ht, m => by
    replace ht := List.mem_cons.1 ht
    rcases ht with rfl | ht
    · rcases h1 with ⟨sel, w, _, rfl⟩ | ⟨_, w, rfl⟩ <;> simp
    · exact readsAll_word h2 t ht m

/-- The two markers for tenses, where they belong. -/
def TenseP (L : List Stag → Prop) (m : Sel) (a b : List Tok) : Prop :=
  (m = .PRIVATE_START_TENSE ∨ m = .PRIVATE_END_TENSE) ∧ Place L m a b

theorem Ins.cons {P : Sel → List Tok → List Tok → Prop} (hP : ∀ m a b x, P m a b → P m (x :: a) b) {l l' : List Tok}
    (x : Tok) (h : Ins P l l') : Ins P (x :: l) (x :: l') := by
  induction h with
  | refl => exact .refl _
  | @step a b m _ hp ih => exact Ins.step (a := x :: a) ih (hP _ _ _ _ hp)

theorem Ins.append {P : Sel → List Tok → List Tok → Prop} (hP : ∀ m a b x, P m a b → P m (x :: a) b) {l l' : List Tok} :
    ∀ (g : List Tok), Ins P l l' → Ins P (g ++ l) (g ++ l')
  | [], h => h
  | x :: g, h => (Ins.append hP g h).cons hP x

theorem tenseP_cons {L : List Stag → Prop} : ∀ m a b x, TenseP L m a b → TenseP L m (x :: a) b := by
  rintro m a b x ⟨rfl | rfl, h⟩
  · exact ⟨Or.inl rfl, h⟩
  · obtain ⟨w, g, h1, h2⟩ := h
    exact ⟨Or.inr rfl, words [x] ++ w, g, by rw [words_cons, h1]; simp, h2⟩

theorem words_noMarker {g : List Tok} (h : ∀ t ∈ g, ∀ m, t ≠ .marker m) : words g = g := by
  unfold words
  rw [List.filter_eq_self]
  intro t ht
  cases t with
  | marker m => exact absurd rfl (h _ ht m)
  | _ => rfl

theorem marked_ins {L : List Stag → Prop} {ts out : List Tok} (h : Marked L ts out) : Ins (TenseP L) ts out := by
  induction h with
  | nil => exact .refl _
  | plain _ _ _ ih => exact ih.cons tenseP_cons _
  | @tense g r o hl _ ih =>
    obtain ⟨hne, hin, _⟩ := hl
    obtain ⟨w, hw, hL⟩ := id hin
    have hg := words_noMarker (readsAll_word hw)
    have h1 : Ins (TenseP L) (g ++ r) (g ++ .marker .PRIVATE_END_TENSE :: r) :=
      .one ⟨Or.inr rfl, [], g, by rw [hg]; rfl, hne, hin⟩
    have h2 : Ins (TenseP L) (g ++ .marker .PRIVATE_END_TENSE :: r)
        (.marker .PRIVATE_START_TENSE :: (g ++ .marker .PRIVATE_END_TENSE :: r)) :=
      Ins.one (P := TenseP L) (a := []) ⟨Or.inl rfl, g, words r, by
        show words (g ++ Tok.marker .PRIVATE_END_TENSE :: r) = _
        rw [words_append, hg, words_marker], hne, hin⟩
    have h3 := Ins.append (P := TenseP L) tenseP_cons (.marker .PRIVATE_START_TENSE :: (g ++ [.marker .PRIVATE_END_TENSE])) ih
    refine h1.trans (h2.trans ?_)
    simpa using h3

theorem marked_grp {L : List Stag → Prop} {ts out : List Tok} (hno : ∀ t ∈ ts, ∀ m, t ≠ .marker m)
    (h : Marked L ts out) : Grp .PRIVATE_START_TENSE .PRIVATE_END_TENSE (In L) out := by
  induction h with
  | nil => rfl
  | @plain x r o _ _ _ ih =>
    have hx : ∀ m, mkr m x = false := by
      intro m
      have := hno x (by simp) m
      simpa [mkr] using this
    unfold Grp GrpTo
    rw [hx, hx]
    exact ih (fun t ht => hno t (by simp [ht]))
  | @tense g r o hl _ ih =>
    obtain ⟨_, hin, _⟩ := hl
    obtain ⟨w, hw, _⟩ := id hin
    have hg : NoMk .PRIVATE_START_TENSE .PRIVATE_END_TENSE g := by
      intro t ht
      have := readsAll_word hw t ht
      simp [mkr, this]
    have := ih (fun t ht => hno t (by simp [ht]))
    unfold Grp at this ⊢
    rw [List.cons_append]
    unfold GrpTo
    rw [mkr_marker, decide_eq_true rfl, if_pos rfl, grpTo_append]
    refine ⟨rfl, some g, ?_, ?_⟩
    · rw [grpTo_noMk hg, words_noMarker (readsAll_word hw)]; rfl
    · unfold GrpTo
      rw [mkr_marker, mkr_marker, decide_eq_false (by decide), decide_eq_true rfl, if_neg (by simp), if_pos rfl]
      exact ⟨⟨g, rfl, hin⟩, this⟩

/-! ## Kinds of markers -/

/-- A marker that is there afterwards was there or was inserted. -/
theorem Ins.mem {P : Sel → List Tok → List Tok → Prop} {l l' : List Tok} (h : Ins P l l') {K : Sel → Prop}
    (hk : ∀ m a b, P m a b → K m) : ∀ t ∈ l', t ∈ l ∨ ∃ m, t = .marker m ∧ K m := by
  induction h with
  | refl => intro t ht; exact Or.inl ht
  | @step a b m _ hp ih =>
    intro t ht
    simp only [List.mem_append, List.mem_cons] at ht
    rcases ht with ht | rfl | ht
    · exact ih t (by simp [ht])
    · exact Or.inr ⟨m, rfl, hk _ _ _ hp⟩
    · exact ih t (by simp [ht])

/-- The markers in a list are among these. -/
def Mks (ms : List Sel) (l : List Tok) : Prop := ∀ m, .marker m ∈ l → m ∈ ms

theorem Ins.mks {P : Sel → List Tok → List Tok → Prop} {l l' : List Tok} (h : Ins P l l') {ms ms' : List Sel}
    (hk : ∀ m a b, P m a b → m ∈ ms') (hl : Mks ms l) : Mks (ms ++ ms') l' := by
  intro m hm
  rcases h.mem (K := (· ∈ ms')) hk _ hm with h1 | ⟨m', h1, h2⟩
  · exact List.mem_append_left _ (hl m h1)
  · cases h1; exact List.mem_append_right _ h2

theorem Mks.noMk {ms : List Sel} {l : List Tok} (h : Mks ms l) {s e : Sel} (h1 : s ∉ ms) (h2 : e ∉ ms) : NoMk s e l := by
  intro t ht
  constructor
  · cases hb : mkr s t with
    | false => rfl
    | true => rw [mkr_true.1 hb] at ht; exact absurd (h _ ht) h1
  · cases hb : mkr e t with
    | false => rfl
    | true => rw [mkr_true.1 hb] at ht; exact absurd (h _ ht) h2

theorem Ins.words {P : Sel → List Tok → List Tok → Prop} {l l' : List Tok} (h : Ins P l l') : words l' = words l :=
  h.filter _ (fun _ _ _ _ => rfl)

/-- The markers a rule puts. -/
theorem walkP_mks {rule : Tok → Option Rule} {ms : List Sel}
    (h : ∀ x c, rule x = some c → c.start ∈ ms ∧ ∀ ss e, c.after = some (ss, e) → e ∈ ms) :
    ∀ m a b, WalkP rule m a b → m ∈ ms := by
  rintro m a b (⟨x, c, p, w, h1, rfl, _⟩ | ⟨x, c, ss, q, p, h1, h2, _⟩)
  · exact (h x c h1).1
  · exact (h x c h1).2 _ _ h2

theorem jek_mks : ∀ m a b, WalkP jekRule m a b → m ∈ ([.PRIVATE_START_JEK, .PRIVATE_END_JEK] : List Sel) := by
  apply walkP_mks
  intro x c h
  unfold jekRule at h
  split at h
  · injection h with h; subst h
    refine ⟨by simp, ?_⟩
    intro ss e h; injection h with h; injection h with h1 h2; subst h2; simp
  · cases h

theorem gihek_mks : ∀ m a b, WalkP gihekRule m a b → m ∈ ([.PRIVATE_START_GIHEK] : List Sel) := by
  apply walkP_mks
  intro x c h
  unfold gihekRule at h
  split at h
  · injection h with h; subst h
    exact ⟨by simp, by intro ss e h; cases h⟩
  · cases h

theorem ek_mks : ∀ m a b, WalkP ekRule m a b → m ∈ ([.PRIVATE_START_EK] : List Sel) := by
  apply walkP_mks
  intro x c h
  unfold ekRule at h
  split at h
  · injection h with h; subst h
    exact ⟨by simp, by intro ss e h; cases h⟩
  · cases h

theorem guhek_mks : ∀ m a b, WalkP guhekRule m a b → m ∈ ([.PRIVATE_START_GUHEK] : List Sel) := by
  apply walkP_mks
  intro x c h
  unfold guhekRule at h
  split at h
  · injection h with h; subst h
    exact ⟨by simp, by intro ss e h; cases h⟩
  · cases h

theorem joik_mks : ∀ m a b, WalkP joikRule m a b → m ∈ ([.PRIVATE_START_JOIK, .PRIVATE_END_JOIK] : List Sel) := by
  apply walkP_mks
  intro x c h
  unfold joikRule at h
  split at h
  · injection h with h; subst h
    refine ⟨by simp, ?_⟩
    intro ss e h; injection h with h; injection h with h1 h2; subst h2; simp
  · split at h
    · injection h with h; subst h
      refine ⟨by simp, ?_⟩
      intro ss e h; injection h with h; injection h with h1 h2; subst h2; simp
    · cases h

/-! ## The later passes keep the words behind the markers of ek and gihek -/

/-- A rule whose word is none of NA, SE and `c`, nor are the words put around it. -/
theorem walkP_safe {rule : Tok → Option Rule} {c : Sel} (hc : c ≠ .SE ∧ c ≠ .NA)
    (h : ∀ x k, rule x = some k → (∀ s ∈ k.before, s ≠ c) ∧ (x.isSel c = false ∧ x.isSel .NA = false ∧ x.isSel .SE = false) ∧
      ∀ ss e, k.after = some (ss, e) → ∀ s ∈ ss, s ≠ .NA ∧ s ≠ .SE) (hm : RuleOk rule) :
    ∀ m a b, WalkP rule m a b → SafeAt c a b := by
  rintro m a b (⟨x, k, p, w, h1, _, h2, rfl, _⟩ | ⟨x, k, ss, q, p, h1, h2, h3, rfl, _⟩)
  · obtain ⟨h4, h5, _⟩ := h x k h1
    refine safe_head ?_ h5.1 h5.2.1 h5.2.2
    intro t ht
    obtain ⟨s, h6, h7⟩ := opts_allSel h2 t ht
    exact not_isSel h7 (h4 s (by simpa using h6))
  · obtain ⟨_, h5, h6⟩ := h x k h1
    right
    rcases List.eq_nil_or_concat p with rfl | ⟨p', y, rfl⟩
    · refine ⟨q, x, rfl, ?_, h5.2.1, h5.2.2⟩
      rintro m rfl
      rw [hm.mks] at h1; cases h1
    · rw [List.concat_eq_append] at h3 ⊢
      obtain ⟨s, h7, h8⟩ := opts_allSel h3 y (by simp)
      have := h6 ss m h2 s h7
      refine ⟨q ++ x :: p', y, by simp, ?_, not_isSel h8 this.1, not_isSel h8 this.2⟩
      rintro m rfl
      simp [Tok.isSel] at h8

theorem ek_safe_gihek : ∀ m a b, WalkP ekRule m a b → SafeAt .GIhA a b := by
  refine walkP_safe (by decide) ?_ ekRule_ok
  intro x k h
  unfold ekRule at h
  split at h
  · rename_i hx
    injection h with h; subst h
    exact ⟨by decide, ⟨not_isSel hx (by decide), not_isSel hx (by decide), not_isSel hx (by decide)⟩,
      by intro ss e h; cases h⟩
  · cases h

theorem guhek_safe {c : Sel} (h1 : c ≠ .SE) (h2 : c ≠ .NA) (h3 : c ≠ .GUhA) :
    ∀ m a b, WalkP guhekRule m a b → SafeAt c a b := by
  refine walkP_safe ⟨h1, h2⟩ ?_ guhekRule_ok
  intro x k h
  unfold guhekRule at h
  split at h
  · rename_i hx
    injection h with h; subst h
    exact ⟨by simp [Ne.symm h1], ⟨not_isSel hx (Ne.symm h3), not_isSel hx (by decide), not_isSel hx (by decide)⟩,
      by intro ss e h; cases h⟩
  · cases h

theorem joik_safe {c : Sel} (h1 : c ≠ .SE) (h2 : c ≠ .NA) (h3 : c ≠ .JOI) (h4 : c ≠ .BIhI) (h5 : c ≠ .GAhO) :
    ∀ m a b, WalkP joikRule m a b → SafeAt c a b := by
  refine walkP_safe ⟨h1, h2⟩ ?_ joikRule_ok
  intro x k h
  unfold joikRule at h
  split at h
  · rename_i hx
    injection h with h; subst h
    refine ⟨by simp [Ne.symm h1], ⟨not_isSel hx (Ne.symm h3), not_isSel hx (by decide), not_isSel hx (by decide)⟩, ?_⟩
    intro ss e h; injection h with h; injection h with h6 h7; subst h6; simp
  · split at h
    · rename_i hx
      injection h with h; subst h
      refine ⟨by simp [Ne.symm h1, Ne.symm h5], ⟨not_isSel hx (Ne.symm h4), not_isSel hx (by decide),
        not_isSel hx (by decide)⟩, ?_⟩
      intro ss e h; injection h with h; injection h with h6 h7; subst h6; simp
    · cases h

theorem gek_safe {T : List Stag → Prop} {c : Sel} (h1 : c ≠ .SE) (h2 : c ≠ .GA) :
    ∀ m a b, GekP T m a b → SafeAt c a b := by
  rintro m a b ⟨_, ⟨p, x, w, rfl, h3, h4⟩ | h | h, _⟩
  · refine safe_head ?_ (not_isSel h4 (Ne.symm h2)) (not_isSel h4 (by decide)) (not_isSel h4 (by decide))
    intro t ht
    obtain ⟨s, h5, h6⟩ := opts_allSel h3 t ht
    simp at h5
    exact not_isSel h6 (h5 ▸ Ne.symm h1)
  · exact safe_mkr h
  · exact safe_mkr h

theorem ibo_safe {T : List Stag → Prop} {c : Sel} (h1 : c ≠ .I) : ∀ m a b, IboP T m a b → SafeAt c a b := by
  rintro m a b ⟨_, h, _⟩
  obtain ⟨x, w, rfl, h⟩ := headSel_cons h
  exact safe_sel h (Ne.symm h1) (by decide) (by decide)

theorem kebo_safe {T : List Stag → Prop} {C : List Tok → Prop} {c s bo ke : Sel} :
    ∀ m a b, KeboP T C s bo ke m a b → SafeAt c a b :=
  fun _ _ _ h => safe_mkr h.2

theorem kebo_mks {T : List Stag → Prop} {C : List Tok → Prop} {s bo ke : Sel} :
    ∀ m a b, KeboP T C s bo ke m a b → m = bo ∨ m = ke := by
  rintro m a b ⟨⟨h, _⟩ | ⟨h, _⟩, _⟩
  · exact Or.inl h
  · exact Or.inr h

/-- As `markBefore_ins`, for the places of a given list. -/
theorem markBefore_ins' {P : Sel → List Tok → List Tok → Prop} (m : Sel) (p : List Tok → Tok → List Tok → Bool)
    (L : List Tok) (hP : ∀ a l x r, L = a ++ x :: r → p l x r = true → P m l.reverse (x :: r)) :
    ∀ (r a l : List Tok), L = a ++ r → Ins P (l.reverse ++ r) (markBefore m p l r)
  | [], a, l, _ => by simpa [markBefore] using Ins.refl _
  | x :: r, a, l, hL => by
    have hL' : L = (a ++ [x]) ++ r := by simp [hL]
    unfold markBefore
    split
    · rename_i h
      have h1 := Ins.one (hP a l x r hL h)
      have h2 := markBefore_ins' m p L hP r (a ++ [x]) (x :: .marker m :: l) hL'
      exact h1.trans (by simpa using h2)
    · have h2 := markBefore_ins' m p L hP r (a ++ [x]) (x :: l) hL'
      simpa using h2

/-- Where `categorize_ijekjoik` puts its marker. -/
def IjekP (T : List Stag → Prop) (m : Sel) (a b : List Tok) : Prop :=
  m = .PRIVATE_I_JEKJOIK ∧ headSel .I b = true ∧ Place T .PRIVATE_I_JEKJOIK a b

theorem ijekjoik_ins {T : List Stag → Prop} {ts : List Tok} (hC : Known T ts) : Ins (IjekP T) ts (ijekjoik ts) := by
  have := markBefore_ins' (P := IjekP T) .PRIVATE_I_JEKJOIK (fun l x r => x.isSel .I && !headMkr .PRIVATE_I_BO l &&
    (headMkr .PRIVATE_START_JEK r || headMkr .PRIVATE_START_JOIK r)) ts ?_ ts [] [] rfl
  · simpa [ijekjoik] using this
  · intro a l x r hL h
    simp only [Bool.and_eq_true, Bool.or_eq_true] at h
    have hL' : ts = (a ++ [x]) ++ r := by simp [hL]
    refine ⟨rfl, h.1.1, x, ?_⟩
    rcases h.2 with h2 | h2
    · rcases straddle_ok (by decide) hC.jek hL' with ⟨h3, _⟩ | ⟨_, k, _, _, _, h3⟩
      · rw [h2] at h3; cases h3
      · exact ⟨_, _, by rw [words_word h.1.1, words_take_drop r k], h.1.1, Or.inl h3⟩
    · rcases straddle_ok (by decide) hC.joik hL' with ⟨h3, _⟩ | ⟨_, k, _, _, _, h3⟩
      · rw [h2] at h3; cases h3
      · exact ⟨_, _, by rw [words_word h.1.1, words_take_drop r k], h.1.1, Or.inr h3⟩

theorem ijek_safe {T : List Stag → Prop} {c : Sel} (h1 : c ≠ .I) : ∀ m a b, IjekP T m a b → SafeAt c a b := by
  rintro m a b ⟨_, h, _⟩
  obtain ⟨x, w, rfl, h⟩ := headSel_cons h
  exact safe_sel h (Ne.symm h1) (by decide) (by decide)

/-! ## Where the markers are -/

/-- `Place` depends on the words around, and on the neighbours unless they are markers. -/
theorem place_congr {T : List Stag → Prop} {m : Sel} {a b a' b' : List Tok} (h : Place T m a b) (ha : words a' = words a)
    (hb : words b' = words b) (hl : ∀ t, a'.getLast? = some t → a.getLast? = some t ∨ t.kind = .marker)
    (hh : ∀ t, b'.head? = some t → b.head? = some t ∨ t.kind = .marker) : Place T m a' b' := by
  have nomk : ∀ {ss : List Sel} {p : List Tok} {t : Tok}, t.kind = .marker → t ∈ p → ¬ Opts ss p := by
    intro ss p t ht hm ho
    obtain ⟨s, _, hs⟩ := opts_allSel ho t hm
    cases t <;> simp_all [Tok.isSel, Tok.kind]
  have lead : ∀ {ss : List Sel} {c : Sel}, Leads ss c a b → Leads ss c a' b' := by
    rintro ss c ⟨p, x, w, h1, h2, h3, h4⟩
    refine ⟨p, x, w, hb.trans h1, h2, h3, ?_⟩
    intro t ht
    rcases hl t ht with h5 | h5
    · exact h4 t h5
    · exact nomk h5 (by simp)
  have trail : ∀ {ss : List Sel} {c : Sel}, Trails ss c a b → Trails ss c a' b' := by
    rintro ss c ⟨w, x, p, h1, h2, h3, h4⟩
    refine ⟨w, x, p, ha.trans h1, h2, h3, ?_⟩
    intro t ht
    rcases hh t ht with h5 | h5
    · exact h4 t h5
    · exact nomk h5 (by simp)
  cases m <;> simp only [Place] at h ⊢ <;> first
    | exact h.elim
    | (rw [hb]; exact h)
    | (rw [ha]; exact h)
    | exact lead h
    | exact trail h
    | exact h.imp lead lead
    | exact h.imp trail trail
    | (rw [hb]; exact h.imp lead id)

/-- All markers are where they belong. -/
def AllPlaced (T : List Stag → Prop) (l : List Tok) : Prop := ∀ a m b, l = a ++ .marker m :: b → Place T m a b

theorem split_any {s t : Tok} {a b p q : List Tok} (h : a ++ s :: b = p ++ t :: q) :
    (a = p ∧ s = t ∧ b = q) ∨ (∃ d, a = p ++ t :: d ∧ q = d ++ s :: b) ∨ (∃ d, p = a ++ s :: d ∧ b = d ++ t :: q) := by
  rcases List.append_eq_append_iff.1 h with ⟨x, h1, h2⟩ | ⟨x, h1, h2⟩
  · cases x with
    | nil => simp at h2 h1; exact Or.inl ⟨h1.symm, h2.1, h2.2⟩
    | cons u x =>
      simp only [List.cons_append, List.cons.injEq] at h2
      obtain ⟨rfl, h2⟩ := h2
      exact Or.inr (Or.inr ⟨x, h1, h2⟩)
  · cases x with
    | nil => simp at h2 h1; exact Or.inl ⟨h1, h2.1.symm, h2.2.symm⟩
    | cons u x =>
      simp only [List.cons_append, List.cons.injEq] at h2
      obtain ⟨rfl, h2⟩ := h2
      exact Or.inr (Or.inl ⟨x, h1, h2⟩)

theorem Ins.placed {T : List Stag → Prop} {P : Sel → List Tok → List Tok → Prop} {l l' : List Tok} (h : Ins P l l')
    (hP : ∀ m a b, P m a b → Place T m a b) (h0 : AllPlaced T l) : AllPlaced T l' := by
  induction h with
  | refl => exact h0
  | @step a b m _ hp ih =>
    intro a' m' b' e
    rcases split_any e with ⟨rfl, h1, rfl⟩ | ⟨d, rfl, rfl⟩ | ⟨d, rfl, rfl⟩
    · cases h1; exact hP _ _ _ hp
    · refine place_congr (ih a' m' (d ++ b) (by simp)) rfl (by rw [words_append, words_append, words_marker])
        (fun t ht => Or.inl ht) ?_
      intro t ht
      cases d with
      | nil => simp at ht; subst ht; exact Or.inr rfl
      | cons u d => exact Or.inl ht
    · refine place_congr (ih (a ++ d) m' b' (by simp)) (by rw [words_append, words_append, words_marker]) rfl ?_
        (fun t ht => Or.inl ht)
      intro t ht
      rcases List.eq_nil_or_concat d with rfl | ⟨d', u, rfl⟩
      · simp at ht; subst ht; exact Or.inr rfl
      · left
        rw [List.concat_eq_append] at ht ⊢
        have e1 : a ++ Tok.marker m :: (d' ++ [u]) = (a ++ Tok.marker m :: d') ++ [u] := by simp
        rw [e1, List.getLast?_concat] at ht
        rw [← List.append_assoc, List.getLast?_concat]
        exact ht

theorem walkP_leads {rule : Tok → Option Rule} {m : Sel} {a b : List Tok} (hr : RuleOk rule) (h : WalkP rule m a b) :
    ∃ x k, rule x = some k ∧ ((m = k.start ∧ ∀ c, x.isSel c = true → Leads k.before.reverse c a b) ∨
      ∃ ss, k.after = some (ss, m) ∧ ∀ c, x.isSel c = true → Trails ss c a b) := by
  rcases h with ⟨x, k, p, w, h1, h2, h3, rfl, h4⟩ | ⟨x, k, ss, q, p, h1, h2, h3, rfl, h4⟩
  · refine ⟨x, k, h1, Or.inl ⟨h2, fun c hc => ⟨p, x, words w, ?_, h3, hc, h4⟩⟩⟩
    rw [words_append, words_allSel (opts_allSel h3), words_word hc]
  · refine ⟨x, k, h1, Or.inr ⟨ss, h2, fun c hc => ⟨words q, x, p, ?_, h3, hc, h4⟩⟩⟩
    rw [words_append, words_word hc, words_allSel (opts_allSel h3)]

theorem jek_place {T : List Stag → Prop} : ∀ m a b, WalkP jekRule m a b → Place T m a b := by
  intro m a b h
  obtain ⟨x, k, h1, h2⟩ := walkP_leads jekRule_ok h
  unfold jekRule at h1
  split at h1
  · rename_i hx
    injection h1 with h1; subst h1
    rcases h2 with ⟨rfl, h2⟩ | ⟨ss, h2, h3⟩
    · exact h2 _ hx
    · cases h2; exact h3 _ hx
  · cases h1

theorem gihek_place {T : List Stag → Prop} : ∀ m a b, WalkP gihekRule m a b → Place T m a b := by
  intro m a b h
  obtain ⟨x, k, h1, h2⟩ := walkP_leads gihekRule_ok h
  unfold gihekRule at h1
  split at h1
  · rename_i hx
    injection h1 with h1; subst h1
    rcases h2 with ⟨rfl, h2⟩ | ⟨ss, h2, h3⟩
    · exact h2 _ hx
    · cases h2
  · cases h1

theorem ek_place {T : List Stag → Prop} : ∀ m a b, WalkP ekRule m a b → Place T m a b := by
  intro m a b h
  obtain ⟨x, k, h1, h2⟩ := walkP_leads ekRule_ok h
  unfold ekRule at h1
  split at h1
  · rename_i hx
    injection h1 with h1; subst h1
    rcases h2 with ⟨rfl, h2⟩ | ⟨ss, h2, h3⟩
    · exact h2 _ hx
    · cases h2
  · cases h1

theorem guhek_place {T : List Stag → Prop} : ∀ m a b, WalkP guhekRule m a b → Place T m a b := by
  intro m a b h
  obtain ⟨x, k, h1, h2⟩ := walkP_leads guhekRule_ok h
  unfold guhekRule at h1
  split at h1
  · rename_i hx
    injection h1 with h1; subst h1
    rcases h2 with ⟨rfl, h2⟩ | ⟨ss, h2, h3⟩
    · exact h2 _ hx
    · cases h2
  · cases h1

theorem joik_place {T : List Stag → Prop} : ∀ m a b, WalkP joikRule m a b → Place T m a b := by
  intro m a b h
  obtain ⟨x, k, h1, h2⟩ := walkP_leads joikRule_ok h
  unfold joikRule at h1
  split at h1
  · rename_i hx
    injection h1 with h1; subst h1
    rcases h2 with ⟨rfl, h2⟩ | ⟨ss, h2, h3⟩
    · exact Or.inl (h2 _ hx)
    · cases h2; exact Or.inl (h3 _ hx)
  · split at h1
    · rename_i hx
      injection h1 with h1; subst h1
      rcases h2 with ⟨rfl, h2⟩ | ⟨ss, h2, h3⟩
      · exact Or.inr (h2 _ hx)
      · cases h2; exact Or.inr (h3 _ hx)
    · cases h1

theorem isNum_word {t : Tok} (h : isNum t = true) : NumWord t := by
  cases t with
  | cmavo s w =>
    simp only [isNum, Bool.or_eq_true, beq_iff_eq] at h
    left
    rcases h with ((((h | h) | h) | h) | h) | h
    · exact ⟨.PA, by simp, by simp [Tok.isSel, h]⟩
    · exact ⟨.BU, by simp, by simp [Tok.isSel, h]⟩
    · exact ⟨.BY, by simp, by simp [Tok.isSel, h]⟩
    · exact ⟨.LAU, by simp, by simp [Tok.isSel, h]⟩
    · exact ⟨.TEI, by simp, by simp [Tok.isSel, h]⟩
    · exact ⟨.FOI, by simp, by simp [Tok.isSel, h]⟩
  | bu w => exact Or.inr ⟨w, rfl⟩
  | _ => simp [isNum] at h

theorem number_place (s m : Sel) (t : List Tok) :
    Ins (fun m' _ b => m' = m ∧ Numbered s (words b)) t (number s m [] t) := by
  have := number_ins (P := fun m' _ b => m' = m ∧ Numbered s (words b)) s m ?_ t []
  · simpa using this
  · intro p q x r h1 h2 h3
    refine ⟨rfl, p, x, words r, ?_, h2, fun t ht => isNum_word (h1 t ht), h3⟩
    rw [words_append, words_word h3, words_noMarker]
    rintro t ht m rfl
    exact absurd (h1 _ ht) (by simp [isNum])

theorem pair_place (m s1 s2 : Sel) (t : List Tok) :
    Ins (fun m' _ b => m' = m ∧ ∃ x y w, words b = x :: y :: w ∧ x.isSel s1 = true ∧ y.isSel s2 = true) t
      (markBefore m (fun _ x r => x.isSel s1 && headSel s2 r) [] t) := by
  have := markBefore_ins (P := fun m' _ b => m' = m ∧ ∃ x y w, words b = x :: y :: w ∧ x.isSel s1 = true ∧
    y.isSel s2 = true) m (fun _ x r => x.isSel s1 && headSel s2 r) ?_ t []
  · simpa using this
  · intro l x r h
    simp only [Bool.and_eq_true] at h
    obtain ⟨y, w, rfl, hy⟩ := headSel_cons h.2
    exact ⟨rfl, x, y, words w, by rw [words_word h.1, words_word hy], h.1, hy⟩

/-! ## No connective is left out -/

theorem count_marker_ins {P : Sel → List Tok → List Tok → Prop} {l l' : List Tok} (h : Ins P l l') (m : Sel)
    (hk : ∀ m' a b, P m' a b → m' ≠ m) : l'.count (.marker m) = l.count (.marker m) := by
  induction h with
  | refl => rfl
  | @step a b m' _ hp ih =>
    rw [← ih, List.count_append, List.count_append, List.count_cons_of_ne]
    intro hc
    injection hc with hc
    exact hk _ _ _ hp hc

theorem insOpt_count (m m' : Sel) (ss : List Sel) (r : List Tok) :
    (insOpt m ss r).count (.marker m') = r.count (.marker m') + if m = m' then 1 else 0 := by
  obtain ⟨p, q, h1, h2, _, _⟩ := insOpt_spec m ss r
  rw [h2, h1, List.count_append, List.count_append]
  split
  · rename_i h; subst h; rw [List.count_cons_self]; omega
  · rename_i h
    rw [List.count_cons_of_ne (by intro hc; injection hc with hc; exact h hc)]; omega

/-- How many markers `m` a rule puts for a word. -/
def gain (rule : Tok → Option Rule) (m : Sel) (x : Tok) : Nat :=
  match rule x with
  | none => 0
  | some ⟨_, s, none⟩ => if s = m then 1 else 0
  | some ⟨_, s, some (_, e)⟩ => (if s = m then 1 else 0) + if e = m then 1 else 0

theorem walk_count {rule : Tok → Option Rule} (hr : RuleOk rule) {m : Sel} {p : Tok → Bool}
    (hp : ∀ m', p (.marker m') = false) (hg : ∀ x, gain rule m x = if p x then 1 else 0) : ∀ (n : Nat) (l r out : List Tok),
    walk rule n l r = .ok out → out.count (.marker m) = (l.reverse ++ r).count (.marker m) + r.countP p
  | 0, _, _, _, h => by simp [walk] at h
  | n + 1, l, [], out, h => by simp [walk] at h; subst h; simp
  | n + 1, l, x :: r, out, h => by
    have hgx := hg x
    simp only [walk] at h
    rw [List.countP_cons, ← hgx]
    unfold gain
    cases hx : rule x with
    | none =>
      simp only [hx] at h
      rw [walk_count hr hp hg n _ _ _ h]
      simp
    | some c =>
      obtain ⟨b, s, af⟩ := c
      have hxm : x ≠ .marker m := by rintro rfl; rw [hr.mks] at hx; cases hx
      have hrev : ∀ l : List Tok, l.reverse.count (.marker m) = l.count (.marker m) := fun l => List.count_reverse
      cases af with
      | none =>
        simp only [hx] at h
        rw [walk_count hr hp hg n _ _ _ h]
        simp only [List.count_append, hrev, List.count_cons_of_ne hxm, insOpt_count]
        omega
      | some ae =>
        obtain ⟨a, e⟩ := ae
        simp only [hx] at h
        have hcp : (insOpt e a r).countP p = r.countP p := by
          obtain ⟨u, v, h1, h2, _, _⟩ := insOpt_spec e a r
          rw [h2, h1]; simp [List.countP_append, List.countP_cons, hp]
        rw [walk_count hr hp hg n _ _ _ h]
        simp only [List.count_append, hrev, List.count_cons_of_ne hxm, insOpt_count, hcp]
        omega

theorem pass_count {rule : Tok → Option Rule} (hr : RuleOk rule) {m : Sel} {p : Tok → Bool}
    (hp : ∀ m', p (.marker m') = false) (hg : ∀ x, gain rule m x = if p x then 1 else 0) {ts out : List Tok}
    (h0 : ts.count (.marker m) = 0) (h : pass rule ts = .ok out) : out.count (.marker m) = (words ts).countP p := by
  rw [walk_count hr hp hg _ [] ts out h]
  simp only [List.reverse_nil, List.nil_append, h0, Nat.zero_add]
  unfold words
  rw [List.countP_filter]
  apply List.countP_congr
  intro t _
  cases t <;> simp_all [Tok.kind]

theorem jek_gain {m : Sel} (hm : m ∈ ([.PRIVATE_START_JEK, .PRIVATE_END_JEK] : List Sel)) :
    ∀ x, gain jekRule m x = if [Sel.JA].any (x.isSel ·) then 1 else 0 := by
  intro x
  simp only [List.mem_cons, List.not_mem_nil, or_false] at hm
  unfold gain jekRule
  cases h : x.isSel .JA
  · simp [h]
  · rcases hm with rfl | rfl <;> simp [h]

theorem gihek_gain {m : Sel} (hm : m ∈ ([.PRIVATE_START_GIHEK] : List Sel)) :
    ∀ x, gain gihekRule m x = if [Sel.GIhA].any (x.isSel ·) then 1 else 0 := by
  intro x
  simp only [List.mem_cons, List.not_mem_nil, or_false] at hm
  unfold gain gihekRule
  cases h : x.isSel .GIhA
  · simp [h]
  · subst hm; simp [h]

theorem ek_gain {m : Sel} (hm : m ∈ ([.PRIVATE_START_EK] : List Sel)) :
    ∀ x, gain ekRule m x = if [Sel.A].any (x.isSel ·) then 1 else 0 := by
  intro x
  simp only [List.mem_cons, List.not_mem_nil, or_false] at hm
  unfold gain ekRule
  cases h : x.isSel .A
  · simp [h]
  · subst hm; simp [h]

theorem guhek_gain {m : Sel} (hm : m ∈ ([.PRIVATE_START_GUHEK] : List Sel)) :
    ∀ x, gain guhekRule m x = if [Sel.GUhA].any (x.isSel ·) then 1 else 0 := by
  intro x
  simp only [List.mem_cons, List.not_mem_nil, or_false] at hm
  unfold gain guhekRule
  cases h : x.isSel .GUhA
  · simp [h]
  · subst hm; simp [h]

theorem joik_gain {m : Sel} (hm : m ∈ ([.PRIVATE_START_JOIK, .PRIVATE_END_JOIK] : List Sel)) :
    ∀ x, gain joikRule m x = if [Sel.JOI, .BIhI].any (x.isSel ·) then 1 else 0 := by
  intro x
  simp only [List.mem_cons, List.not_mem_nil, or_false] at hm
  unfold gain joikRule
  cases h : x.isSel .JOI
  · cases h' : x.isSel .BIhI
    · simp [h, h']
    · rcases hm with rfl | rfl <;> simp [h, h']
  · rcases hm with rfl | rfl <;> simp [h]

theorem Mks.count {ms : List Sel} {l : List Tok} (h : Mks ms l) {m : Sel} (hm : m ∉ ms) : l.count (.marker m) = 0 := by
  rw [List.count_eq_zero]
  exact fun hc => hm (h m hc)

/-! ## The whole of `categorize_tokens` -/

/-- A text as the lexer delivers it: without markers. -/
def Plain (ts : List Tok) : Prop := ∀ t ∈ ts, t.kind ≠ .marker

theorem words_plain {ts : List Tok} (h : Plain ts) : words ts = ts := by
  unfold words
  rw [List.filter_eq_self]
  intro t ht
  simpa using h t ht

theorem Ins.weaken {P Q : Sel → List Tok → List Tok → Prop} {l l' : List Tok} (h : Ins P l l')
    (hPQ : ∀ m a b, P m a b → Q m a b) : Ins Q l l' := by
  induction h with
  | refl => exact .refl _
  | step _ hp ih => exact .step ih (hPQ _ _ _ hp)

/-- Markers of these kinds are inserted. -/
abbrev Adds (ms : List Sel) (l l' : List Tok) : Prop := Ins (fun m _ _ => m ∈ ms) l l'

theorem Ins.adds {P : Sel → List Tok → List Tok → Prop} {l l' l'' : List Tok} {ms ms' : List Sel} (h : Ins P l l')
    (hP : ∀ m a b, P m a b → m ∈ ms) (h' : Adds ms' l' l'') (hs : ∀ m ∈ ms', m ∈ ms) : Adds ms l l'' :=
  (h.weaken hP).trans (h'.weaken fun m _ _ hm => hs m hm)

theorem Ins.count_adds {ms : List Sel} {l l' : List Tok} (h : Adds ms l l') {m : Sel} (hm : m ∉ ms) :
    l'.count (.marker m) = l.count (.marker m) :=
  count_marker_ins h m (fun _ _ _ h1 h2 => hm (h2 ▸ h1))

/-- What the passes after those for the connectives insert. -/
abbrev lateMs : List Sel := [.PRIVATE_START_GEK, .PRIVATE_I_BO, .PRIVATE_I_JEKJOIK, .PRIVATE_JEK_BO, .PRIVATE_JEK_KE,
  .PRIVATE_EK_BO, .PRIVATE_EK_KE, .PRIVATE_JOIK_BO, .PRIVATE_JOIK_KE, .PRIVATE_GIHEK_BO, .PRIVATE_GIHEK_KE,
  .PRIVATE_NUMBER_MAI, .PRIVATE_NUMBER_ROI, .PRIVATE_NUMBER_MOI, .PRIVATE_NAhE_BO, .PRIVATE_NA_KU]

theorem known_of {P : Sel → List Tok → List Tok → Prop} {l l' : List Tok} {T : List Stag → Prop} (h : Ins P l l')
    (hP : ∀ m a b, P m a b → m ∈ lateMs) (hk : Known T l) : Known T l' :=
  h.known (fun m a b hp => by
    have := hP m a b hp
    intro hc
    revert this
    simp only [List.mem_cons, List.not_mem_nil, or_false] at hc
    rcases hc with rfl | rfl | rfl | rfl | rfl | rfl <;> decide) hk

/-- All there is to say about the passes together. -/
theorem gihek_safeO : ∀ m a b, WalkP gihekRule m a b → SafeO [.NA, .SE] [.JA] a b := by
  intro m a b h
  refine walkP_safeO gihekRule_ok ?_ h
  intro x k hk
  unfold gihekRule at hk
  split at hk
  · rename_i hx
    cases hk
    exact ⟨by decide, fun s hs => not_isSel hx (by rintro rfl; simp at hs), by simp⟩
  · cases hk

theorem ek_safeO : ∀ m a b, WalkP ekRule m a b → SafeO [.NA, .SE] [.JA] a b := by
  intro m a b h
  refine walkP_safeO ekRule_ok ?_ h
  intro x k hk
  unfold ekRule at hk
  split at hk
  · rename_i hx
    cases hk
    exact ⟨by decide, fun s hs => not_isSel hx (by rintro rfl; simp at hs), by simp⟩
  · cases hk

theorem guhek_safeO : ∀ m a b, WalkP guhekRule m a b → SafeO [.NA, .SE] [.JA] a b := by
  intro m a b h
  refine walkP_safeO guhekRule_ok ?_ h
  intro x k hk
  unfold guhekRule at hk
  split at hk
  · rename_i hx
    cases hk
    exact ⟨by decide, fun s hs => not_isSel hx (by rintro rfl; simp at hs), by simp⟩
  · cases hk

theorem joik_safeO : ∀ m a b, WalkP joikRule m a b → SafeO [.NA, .SE] [.JA] a b := by
  intro m a b h
  refine walkP_safeO joikRule_ok ?_ h
  intro x k hk
  unfold joikRule at hk
  split at hk
  · rename_i hx
    cases hk
    refine ⟨by decide, fun s hs => not_isSel hx (by rintro rfl; simp at hs), ?_⟩
    intro ss' m h
    cases h
    decide
  · split at hk
    · rename_i hx
      cases hk
      refine ⟨by decide, fun s hs => not_isSel hx (by rintro rfl; simp at hs), ?_⟩
      intro ss' m h
      cases h
      decide
    · cases hk

theorem categorize_spec {A : Dfa} {L : List Stag → Prop} (hA : Recognises A L) {ts : List Tok} (hp : Plain ts) :
    (∃ out, categorize A ts = .ok out ∧ words out = ts ∧ ¬ Stuck L ts ∧ AllPlaced L out ∧ Complete ts out ∧ Exact ts out) ∨
    (categorize A ts = .error .nullDeref ∧ Stuck L ts) := by
  have hno : ∀ t ∈ ts, ∀ m, t ≠ .marker m := by
    rintro t ht m rfl; exact hp _ ht rfl
  rcases tenses_spec hA ts with ⟨t1, e1, hm⟩ | ⟨e1, hs⟩
  · have i1 := marked_ins hm
    have m0 : Mks [] ts := fun m hm => absurd rfl (hno _ hm m)
    have m1 := i1.mks (ms' := [.PRIVATE_START_TENSE, .PRIVATE_END_TENSE])
      (by rintro m a b ⟨rfl | rfl, _⟩ <;> simp) m0
    have b1 := marked_grp hno hm
    -- jek
    obtain ⟨t2, e2, i2⟩ := pass_ok jekRule_ok t1
    have m2 := i2.mks jek_mks m1
    have bt2 := (i2.grp (s := .PRIVATE_START_TENSE) (e := .PRIVATE_END_TENSE) (K := In L) (fun m a b h => by
      have := jek_mks m a b h; simp at this; rcases this with rfl | rfl <;> decide)).2 b1
    have bj2 := jek_grp (m1.noMk (by decide) (by decide)) e2
    -- gihek
    obtain ⟨t3, e3, i3⟩ := pass_ok gihekRule_ok t2
    have m3 := i3.mks gihek_mks m2
    have bt3 := (i3.grp (s := .PRIVATE_START_TENSE) (e := .PRIVATE_END_TENSE) (K := In L) (fun m a b h => by
      have := gihek_mks m a b h; simp at this; subst this; decide)).2 bt2
    have bj3 := (i3.grp (s := .PRIVATE_START_JEK) (e := .PRIVATE_END_JEK) (K := EkWords .JA) (fun m a b h => by
      have := gihek_mks m a b h; simp at this; subst this; decide)).2 bj2
    have g3 : CoOk .PRIVATE_START_GIHEK .GIhA t3 := pass_coOk (by decide) (by decide) (fun x => rfl)
      (fun t ht => (m2.noMk (s := .PRIVATE_START_GIHEK) (e := .PRIVATE_START_GIHEK) (by decide) (by decide) t ht).1) e3
    -- ek
    obtain ⟨t4, e4, i4⟩ := pass_ok ekRule_ok t3
    have m4 := i4.mks ek_mks m3
    have bt4 := (i4.grp (s := .PRIVATE_START_TENSE) (e := .PRIVATE_END_TENSE) (K := In L) (fun m a b h => by
      have := ek_mks m a b h; simp at this; subst this; decide)).2 bt3
    have bj4 := (i4.grp (s := .PRIVATE_START_JEK) (e := .PRIVATE_END_JEK) (K := EkWords .JA) (fun m a b h => by
      have := ek_mks m a b h; simp at this; subst this; decide)).2 bj3
    have g4 := i4.coOk (fun m a b h => ⟨by have := ek_mks m a b h; simp at this; subst this; decide,
      ek_safe_gihek m a b h⟩) g3
    have k4 : CoOk .PRIVATE_START_EK .A t4 := pass_coOk (by decide) (by decide) (fun x => rfl)
      (fun t ht => (m3.noMk (s := .PRIVATE_START_EK) (e := .PRIVATE_START_EK) (by decide) (by decide) t ht).1) e4
    -- guhek
    obtain ⟨t5, e5, i5⟩ := pass_ok guhekRule_ok t4
    have m5 := i5.mks guhek_mks m4
    have bt5 := (i5.grp (s := .PRIVATE_START_TENSE) (e := .PRIVATE_END_TENSE) (K := In L) (fun m a b h => by
      have := guhek_mks m a b h; simp at this; subst this; decide)).2 bt4
    have bj5 := (i5.grp (s := .PRIVATE_START_JEK) (e := .PRIVATE_END_JEK) (K := EkWords .JA) (fun m a b h => by
      have := guhek_mks m a b h; simp at this; subst this; decide)).2 bj4
    have g5 := i5.coOk (fun m a b h => ⟨by have := guhek_mks m a b h; simp at this; subst this; decide,
      guhek_safe (by decide) (by decide) (by decide) m a b h⟩) g4
    have k5 := i5.coOk (fun m a b h => ⟨by have := guhek_mks m a b h; simp at this; subst this; decide,
      guhek_safe (by decide) (by decide) (by decide) m a b h⟩) k4
    -- joik
    obtain ⟨t6, e6, i6⟩ := pass_ok joikRule_ok t5
    have bt6 := (i6.grp (s := .PRIVATE_START_TENSE) (e := .PRIVATE_END_TENSE) (K := In L) (fun m a b h => by
      have := joik_mks m a b h; simp at this; rcases this with rfl | rfl <;> decide)).2 bt5
    have bj6 := (i6.grp (s := .PRIVATE_START_JEK) (e := .PRIVATE_END_JEK) (K := EkWords .JA) (fun m a b h => by
      have := joik_mks m a b h; simp at this; rcases this with rfl | rfl <;> decide)).2 bj5
    have bo6 := joik_grp (m5.noMk (by decide) (by decide)) e6
    have g6 := i6.coOk (fun m a b h => ⟨by have := joik_mks m a b h; simp at this; rcases this with rfl | rfl <;> decide,
      joik_safe (by decide) (by decide) (by decide) (by decide) (by decide) m a b h⟩) g5
    have k6 := i6.coOk (fun m a b h => ⟨by have := joik_mks m a b h; simp at this; rcases this with rfl | rfl <;> decide,
      joik_safe (by decide) (by decide) (by decide) (by decide) (by decide) m a b h⟩) k5
    have c6 : Known L t6 := ⟨bt6, bj6, bo6⟩
    -- gek
    obtain ⟨t7, e7, i7⟩ := gekLoop_ok t6 [] (by simpa using c6)
    simp only [List.reverse_nil, List.nil_append] at i7
    have s7 : ∀ m a b, GekP L m a b → m ∈ lateMs := fun m a b h => by rw [h.1]; decide
    have c7 := known_of i7 s7 c6
    have g7 := i7.coOk (fun m a b h => ⟨by rw [h.1]; decide, gek_safe (by decide) (by decide) m a b h⟩) g6
    have k7 := i7.coOk (fun m a b h => ⟨by rw [h.1]; decide, gek_safe (by decide) (by decide) m a b h⟩) k6
    -- ibo
    obtain ⟨t8, e8, i8⟩ := iboLoop_ok c7 (t7.length + 1) [] [] t7 rfl (Nat.lt_succ_self _)
    simp only [List.reverse_nil, List.nil_append] at i8
    have s8 : ∀ m a b, IboP L m a b → m ∈ lateMs := fun m a b h => by rw [h.1]; decide
    have c8 := known_of i8 s8 c7
    have g8 := i8.coOk (fun m a b h => ⟨by rw [h.1]; decide, ibo_safe (by decide) m a b h⟩) g7
    have k8 := i8.coOk (fun m a b h => ⟨by rw [h.1]; decide, ibo_safe (by decide) m a b h⟩) k7
    -- ijekjoik
    have i9 := ijekjoik_ins c8
    have s9 : ∀ m a b, IjekP L m a b → m ∈ lateMs := fun m a b h => by rw [h.1]; decide
    have c9 := known_of i9 s9 c8
    have g9 := i9.coOk (fun m a b h => ⟨by rw [h.1]; decide, ijek_safe (by decide) m a b h⟩) g8
    have k9 := i9.coOk (fun m a b h => ⟨by rw [h.1]; decide, ijek_safe (by decide) m a b h⟩) k8
    -- jek with ke and bo
    have key : ∀ (C : List Tok → Prop) (s bo ke : Sel) (strad : List Tok → Except Crash (Option Nat)) (guard : Bool)
        (t : List Tok), Known L t → (∀ a r, t = a ++ r → headMkr s r = true →
          ∃ k, strad r = .ok (some k) ∧ k ≤ r.length ∧ 1 ≤ k ∧ C (words (r.take k))) →
        ∃ out, kebo s bo ke strad guard t = .ok out ∧ Ins (KeboP L C s bo ke) t out := by
      intro C s bo ke strad guard t hc hst
      obtain ⟨out, h1, h2⟩ := keboLoop_ok hc (bo := bo) (ke := ke) (guard := guard) hst (t.length + 1) [] [] t rfl
        (Nat.lt_succ_self _)
      exact ⟨out, h1, by simpa using h2⟩
    have strad_of : ∀ (K : List Tok → Prop) (s e : Sel) (t : List Tok), s ≠ e → Grp s e K t → ∀ a r, t = a ++ r →
        headMkr s r = true → ∃ k, straddle s e r = .ok (some k) ∧ k ≤ r.length ∧ 1 ≤ k ∧ K (words (r.take k)) := by
      intro K s e t hne hb a r ht hh
      rcases straddle_ok hne hb ht with ⟨h1, _⟩ | ⟨_, h1⟩
      · rw [hh] at h1; cases h1
      · exact h1
    obtain ⟨t10, e10, i10⟩ := key (EkWords .JA) .PRIVATE_START_JEK .PRIVATE_JEK_BO .PRIVATE_JEK_KE
      (straddle .PRIVATE_START_JEK .PRIVATE_END_JEK) true _ c9 (strad_of _ _ _ _ (by decide) c9.jek)
    have s10 : ∀ m a b, KeboP L (EkWords .JA) .PRIVATE_START_JEK .PRIVATE_JEK_BO .PRIVATE_JEK_KE m a b → m ∈ lateMs :=
      fun m a b h => by rcases kebo_mks m a b h with h | h <;> rw [h] <;> decide
    have c10 := known_of i10 s10 c9
    have g10 := i10.coOk (fun m a b h => ⟨by rcases kebo_mks m a b h with h | h <;> rw [h] <;> decide, kebo_safe m a b h⟩) g9
    have k10 := i10.coOk (fun m a b h => ⟨by rcases kebo_mks m a b h with h | h <;> rw [h] <;> decide, kebo_safe m a b h⟩) k9
    -- ek with ke and bo
    obtain ⟨t11, e11, i11⟩ := key (EkWords .A) .PRIVATE_START_EK .PRIVATE_EK_BO .PRIVATE_EK_KE
      (straddleCo .PRIVATE_START_EK .A) false _ c10 (straddleCo_ok k10)
    have s11 : ∀ m a b, KeboP L (EkWords .A) .PRIVATE_START_EK .PRIVATE_EK_BO .PRIVATE_EK_KE m a b → m ∈ lateMs :=
      fun m a b h => by rcases kebo_mks m a b h with h | h <;> rw [h] <;> decide
    have c11 := known_of i11 s11 c10
    have g11 := i11.coOk (fun m a b h => ⟨by rcases kebo_mks m a b h with h | h <;> rw [h] <;> decide, kebo_safe m a b h⟩) g10
    -- joik with ke and bo
    obtain ⟨t12, e12, i12⟩ := key JoikWords .PRIVATE_START_JOIK .PRIVATE_JOIK_BO .PRIVATE_JOIK_KE
      (straddle .PRIVATE_START_JOIK .PRIVATE_END_JOIK) true _ c11 (strad_of _ _ _ _ (by decide) c11.joik)
    have s12 : ∀ m a b, KeboP L JoikWords .PRIVATE_START_JOIK .PRIVATE_JOIK_BO .PRIVATE_JOIK_KE m a b → m ∈ lateMs :=
      fun m a b h => by rcases kebo_mks m a b h with h | h <;> rw [h] <;> decide
    have c12 := known_of i12 s12 c11
    have g12 := i12.coOk (fun m a b h => ⟨by rcases kebo_mks m a b h with h | h <;> rw [h] <;> decide, kebo_safe m a b h⟩) g11
    -- gihek with ke and bo
    obtain ⟨t13, e13, i13⟩ := key (EkWords .GIhA) .PRIVATE_START_GIHEK .PRIVATE_GIHEK_BO .PRIVATE_GIHEK_KE
      (straddleCo .PRIVATE_START_GIHEK .GIhA) false _ c12 (straddleCo_ok g12)
    have s13 : ∀ m a b, KeboP L (EkWords .GIhA) .PRIVATE_START_GIHEK .PRIVATE_GIHEK_BO .PRIVATE_GIHEK_KE m a b →
        m ∈ lateMs := fun m a b h => by rcases kebo_mks m a b h with h | h <;> rw [h] <;> decide
    -- the rest
    have i14 := number_place .MAI .PRIVATE_NUMBER_MAI t13
    have i15 := number_place .ROI .PRIVATE_NUMBER_ROI (number .MAI .PRIVATE_NUMBER_MAI [] t13)
    have i16 := number_place .MOI .PRIVATE_NUMBER_MOI
      (number .ROI .PRIVATE_NUMBER_ROI [] (number .MAI .PRIVATE_NUMBER_MAI [] t13))
    have i17 := pair_place .PRIVATE_NAhE_BO .NAhE .BO (number .MOI .PRIVATE_NUMBER_MOI []
      (number .ROI .PRIVATE_NUMBER_ROI [] (number .MAI .PRIVATE_NUMBER_MAI [] t13)))
    have i18 := pair_place .PRIVATE_NA_KU .NA .KU (nahe (number .MOI .PRIVATE_NUMBER_MOI []
      (number .ROI .PRIVATE_NUMBER_ROI [] (number .MAI .PRIVATE_NUMBER_MAI [] t13))))
    have i17' := i17.trans (.refl (nahe (number .MOI .PRIVATE_NUMBER_MOI []
      (number .ROI .PRIVATE_NUMBER_ROI [] (number .MAI .PRIVATE_NUMBER_MAI [] t13)))))
    have i18' := i18.trans (.refl (naku (nahe (number .MOI .PRIVATE_NUMBER_MOI []
      (number .ROI .PRIVATE_NUMBER_ROI [] (number .MAI .PRIVATE_NUMBER_MAI [] t13))))))
    left
    refine ⟨naku (nahe (number .MOI .PRIVATE_NUMBER_MOI [] (number .ROI .PRIVATE_NUMBER_ROI []
      (number .MAI .PRIVATE_NUMBER_MAI [] t13)))), ?_, ?_, (marked_unique hm).2, ?_, ?_, ?_⟩
    · unfold categorize
      have e7' : gek t6 = .ok t7 := e7
      have e8' : ibo t7 = .ok t8 := e8
      have e10' : jekKebo (ijekjoik t8) = .ok t10 := e10
      have e11' : ekKebo t10 = .ok t11 := e11
      have e12' : joikKebo t11 = .ok t12 := e12
      have e13' : gihekKebo t12 = .ok t13 := e13
      simp only [e1, e2, e3, e4, e5, e6, e7', e8', e10', e11', e12', e13']
    · rw [i18'.words, i17'.words, i16.words, i15.words, i14.words, i13.words, i12.words, i11.words, i10.words, i9.words,
        i8.words, i7.words, i6.words, i5.words, i4.words, i3.words, i2.words, i1.words, words_plain hp]
    · have p0 : AllPlaced L ts := fun a m b h => absurd rfl (hno (.marker m) (h ▸ by simp) m)
      have p1 := i1.placed (fun m a b h => h.2) p0
      have p6 := i6.placed joik_place (i5.placed guhek_place (i4.placed ek_place (i3.placed gihek_place
        (i2.placed jek_place p1))))
      have p7 := i7.placed (T := L) (fun m a b h => by rw [h.1]; exact h.2.2) p6
      have p8 := i8.placed (T := L) (fun m a b h => by rw [h.1]; exact h.2.2) p7
      have p9 := i9.placed (T := L) (fun m a b h => by rw [h.1]; exact h.2.2) p8
      have p10 := i10.placed (T := L) (fun m a b h => by rcases h.1 with ⟨rfl, h'⟩ | ⟨rfl, h'⟩ <;> exact h') p9
      have p11 := i11.placed (T := L) (fun m a b h => by rcases h.1 with ⟨rfl, h'⟩ | ⟨rfl, h'⟩ <;> exact h') p10
      have p12 := i12.placed (T := L) (fun m a b h => by rcases h.1 with ⟨rfl, h'⟩ | ⟨rfl, h'⟩ <;> exact h') p11
      have p13 := i13.placed (T := L) (fun m a b h => by rcases h.1 with ⟨rfl, h'⟩ | ⟨rfl, h'⟩ <;> exact h') p12
      have p14 := i14.placed (T := L) (fun m a b h => by rw [h.1]; exact h.2) p13
      have p15 := i15.placed (T := L) (fun m a b h => by rw [h.1]; exact h.2) p14
      have p16 := i16.placed (T := L) (fun m a b h => by rw [h.1]; exact h.2) p15
      have p17 := i17'.placed (T := L) (fun m a b h => by rw [h.1]; exact h.2) p16
      exact i18'.placed (T := L) (fun m a b h => by rw [h.1]; exact h.2) p17
    · have a18 := i18'.adds (ms := lateMs) (fun m a b h => by rw [h.1]; decide) (.refl _) (fun _ h => h)
      have a17 := i17'.adds (ms := lateMs) (fun m a b h => by rw [h.1]; decide) a18 (fun _ h => h)
      have a16 := i16.adds (ms := lateMs) (fun m a b h => by rw [h.1]; decide) a17 (fun _ h => h)
      have a15 := i15.adds (ms := lateMs) (fun m a b h => by rw [h.1]; decide) a16 (fun _ h => h)
      have a14 := i14.adds (ms := lateMs) (fun m a b h => by rw [h.1]; decide) a15 (fun _ h => h)
      have a13 := i13.adds s13 a14 (fun _ h => h)
      have a12 := i12.adds s12 a13 (fun _ h => h)
      have a11 := i11.adds s11 a12 (fun _ h => h)
      have a10 := i10.adds s10 a11 (fun _ h => h)
      have a9 := i9.adds s9 a10 (fun _ h => h)
      have a8 := i8.adds s8 a9 (fun _ h => h)
      have a7 := i7.adds s7 a8 (fun _ h => h)
      have a6 := i6.adds (ms := [.PRIVATE_START_JOIK, .PRIVATE_END_JOIK] ++ lateMs)
        (fun m a b h => List.mem_append_left _ (joik_mks m a b h)) a7 (fun _ h => List.mem_append_right _ h)
      have a5 := i5.adds (ms := [.PRIVATE_START_GUHEK] ++ ([.PRIVATE_START_JOIK, .PRIVATE_END_JOIK] ++ lateMs))
        (fun m a b h => List.mem_append_left _ (guhek_mks m a b h)) a6 (fun _ h => List.mem_append_right _ h)
      have a4 := i4.adds (ms := [.PRIVATE_START_EK] ++ ([.PRIVATE_START_GUHEK] ++
        ([.PRIVATE_START_JOIK, .PRIVATE_END_JOIK] ++ lateMs)))
        (fun m a b h => List.mem_append_left _ (ek_mks m a b h)) a5 (fun _ h => List.mem_append_right _ h)
      have a3 := i3.adds (ms := [.PRIVATE_START_GIHEK] ++ ([.PRIVATE_START_EK] ++ ([.PRIVATE_START_GUHEK] ++
        ([.PRIVATE_START_JOIK, .PRIVATE_END_JOIK] ++ lateMs))))
        (fun m a b h => List.mem_append_left _ (gihek_mks m a b h)) a4 (fun _ h => List.mem_append_right _ h)
      have w1 : words t1 = ts := by rw [i1.words, words_plain hp]
      have w2 : words t2 = ts := by rw [i2.words, w1]
      have w3 : words t3 = ts := by rw [i3.words, w2]
      have w4 : words t4 = ts := by rw [i4.words, w3]
      have w5 : words t5 = ts := by rw [i5.words, w4]
      intro m ss hms
      simp only [List.mem_cons, Prod.mk.injEq, List.not_mem_nil, or_false] at hms
      rcases hms with ⟨rfl, rfl⟩ | ⟨rfl, rfl⟩ | ⟨rfl, rfl⟩ | ⟨rfl, rfl⟩ | ⟨rfl, rfl⟩ | ⟨rfl, rfl⟩ | ⟨rfl, rfl⟩
      · rw [a3.count_adds (by decide), ← w1]
        exact pass_count jekRule_ok (by simp [Tok.isSel]) (jek_gain (by decide))
          (m1.count (by decide)) e2
      · rw [a3.count_adds (by decide), ← w1]
        exact pass_count jekRule_ok (by simp [Tok.isSel]) (jek_gain (by decide))
          (m1.count (by decide)) e2
      · rw [a4.count_adds (by decide), ← w2]
        exact pass_count gihekRule_ok (by simp [Tok.isSel]) (gihek_gain (by decide))
          (m2.count (by decide)) e3
      · rw [a5.count_adds (by decide), ← w3]
        exact pass_count ekRule_ok (by simp [Tok.isSel]) (ek_gain (by decide))
          (m3.count (by decide)) e4
      · rw [a6.count_adds (by decide), ← w4]
        exact pass_count guhekRule_ok (by simp [Tok.isSel]) (guhek_gain (by decide))
          (m4.count (by decide)) e5
      · rw [a7.count_adds (by decide), ← w5]
        exact pass_count joikRule_ok (by simp [Tok.isSel]) (joik_gain (by decide))
          (m5.count (by decide)) e6
      · rw [a7.count_adds (by decide), ← w5]
        exact pass_count joikRule_ok (by simp [Tok.isSel]) (joik_gain (by decide))
          (m5.count (by decide)) e6
    · have m6 : Mks earlyMs t6 := i6.mks joik_mks m5
      -- the opening markers of jeks
      have j2 := jek_opens (fun t ht => (m1.noMk (s := .PRIVATE_START_JEK) (e := .PRIVATE_START_JEK) (by decide)
        (by decide) t ht).1) e2
      have j3 := i3.opens (fun m a b h => ⟨by have := gihek_mks m a b h; simp at this; subst this; decide,
        gihek_safeO m a b h⟩) j2
      have j4 := i4.opens (fun m a b h => ⟨by have := ek_mks m a b h; simp at this; subst this; decide,
        ek_safeO m a b h⟩) j3
      have j5 := i5.opens (fun m a b h => ⟨by have := guhek_mks m a b h; simp at this; subst this; decide,
        guhek_safeO m a b h⟩) j4
      have j6 := i6.opens (fun m a b h => ⟨by have := joik_mks m a b h; simp at this; rcases this with rfl | rfl <;> decide,
        joik_safeO m a b h⟩) j5
      have j7 := i7.opens (fun m a b h => ⟨by rw [h.1]; decide, gek_safeO (by decide) (by decide) h⟩) j6
      have j8 := i8.opens (fun m a b h => ⟨by rw [h.1]; decide, i_safeO (by decide) h.2.1⟩) j7
      have j9 := i9.opens (fun m a b h => ⟨by rw [h.1]; decide, i_safeO (by decide) h.2.1⟩) j8
      -- and of joiks
      have o6 := joik_opens (fun t ht => (m5.noMk (s := .PRIVATE_START_JOIK) (e := .PRIVATE_START_JOIK) (by decide)
        (by decide) t ht).1) e6
      have o7 := i7.opens (fun m a b h => ⟨by rw [h.1]; decide, gek_safeO (by decide) (by decide) h⟩) o6
      have o8 := i8.opens (fun m a b h => ⟨by rw [h.1]; decide, i_safeO (by decide) h.2.1⟩) o7
      have o9 := i9.opens (fun m a b h => ⟨by rw [h.1]; decide, i_safeO (by decide) h.2.1⟩) o8
      have o10 := i10.opens (fun m a b h => ⟨by rcases kebo_mks m a b h with h | h <;> rw [h] <;> decide, safeO_mkr h.2⟩) o9
      have o11 := i11.opens (fun m a b h => ⟨by rcases kebo_mks m a b h with h | h <;> rw [h] <;> decide, safeO_mkr h.2⟩) o10
      refine ⟨t6, t7, ?_, m6, ?_, gek_complete c6 (fun h => absurd (m6 _ h) (by decide)) e7, t8, ijekjoik t8, t10, t11, t12,
        t13, _, _, _, _, ibo_put c7 e8, ijekjoik_put t8, jek_kebo_put c9 j9 e10, ?_, joik_kebo_put c11 o11 e12, ?_,
        number_put' (by decide) t13, number_put' (by decide) _, number_put' (by decide) _, pair_put _ _ _ _, pair_put _ _ _ _⟩
      · rw [i6.words, i5.words, i4.words, i3.words, i2.words, i1.words, words_plain hp]
      · exact i7.unmark (fun m a b h => h.1) (fun h => absurd (m6 _ h) (by decide))
      · exact co_kebo_put c10 (by decide) (by decide) rfl (by decide) k10 e11
      · exact co_kebo_put c12 (by decide) (by decide) rfl (by decide) g12 e13
  · right
    refine ⟨?_, hs⟩
    unfold categorize
    rw [e1]

/-- C32: the passes only insert markers.  For every text they end normally with the same words, unless the
tense pass dereferences a null pointer, which happens exactly for the stuck texts; no assertion fails and no
search runs round the list. -/
theorem categorize_words {A : Dfa} {L : List Stag → Prop} (hA : Recognises A L) {ts : List Tok} (hp : Plain ts) :
    (∃ out, categorize A ts = .ok out ∧ words out = ts ∧ ¬ Stuck L ts) ∨
    (categorize A ts = .error .nullDeref ∧ Stuck L ts) := by
  rcases categorize_spec hA hp with ⟨out, h1, h2, h3, _⟩ | h
  · exact Or.inl ⟨out, h1, h2, h3⟩
  · exact Or.inr h

theorem categorize_ok {A : Dfa} {L : List Stag → Prop} (hA : Recognises A L) {ts out : List Tok} (hp : Plain ts)
    (h : categorize A ts = .ok out) : words out = ts ∧ AllPlaced L out ∧ Complete ts out ∧ Exact ts out := by
  rcases categorize_spec hA hp with ⟨out', h1, h2, _, h4⟩ | ⟨h1, _⟩
  · rw [h] at h1; cases h1; exact ⟨h2, h4⟩
  · rw [h] at h1; cases h1

/-- C32: every marker stands where it belongs: before (or behind) just the construct it is the name of. -/
theorem categorize_places {A : Dfa} {L : List Stag → Prop} (hA : Recognises A L) {ts out a b : List Tok} {m : Sel}
    (hp : Plain ts) (h : categorize A ts = .ok out) (hm : out = a ++ .marker m :: b) :
    words a ++ words b = ts ∧ Place L m a b := by
  obtain ⟨h1, h2, _⟩ := categorize_ok hA hp h
  refine ⟨?_, h2 a m b hm⟩
  rw [← h1, hm, words_append, words_marker]

/-- C32: every logical and non-logical connective has its markers. -/
theorem categorize_complete {A : Dfa} {L : List Stag → Prop} (hA : Recognises A L) {ts out : List Tok} (hp : Plain ts)
    (h : categorize A ts = .ok out) : Complete ts out :=
  (categorize_ok hA hp h).2.2.1

/-- C51: the markers for geks, sentence links, connectives before bo and ke, numbers, nahe bo and na ku stand everywhere
they are called for, and nowhere else. -/
theorem categorize_exact {A : Dfa} {L : List Stag → Prop} (hA : Recognises A L) {ts out : List Tok} (hp : Plain ts)
    (h : categorize A ts = .ok out) : Exact ts out :=
  (categorize_ok hA hp h).2.2.2

/-- The words that can cause a marker. -/
abbrev causes : List Sel := [.JA, .GIhA, .A, .GUhA, .JOI, .BIhI, .GA, .GI, .I, .NA, .MAI, .ROI, .MOI]

theorem numWord_or {s : Sel} {b : List Tok} (h : Numbered s b) : ∃ x ∈ b, x.isSel s = true := by
  obtain ⟨p, x, w, rfl, _, _, h⟩ := h
  exact ⟨x, by simp, h⟩

/-- C32: a text with no tense word, connective, forethought word, sentence link, `na` or number suffix is left as it
is. -/
theorem categorize_unmarked {A : Dfa} {L : List Stag → Prop} (hA : Recognises A L) {ts : List Tok} (hp : Plain ts)
    (h : ∀ t ∈ ts, stagTok t = none ∧ ∀ s ∈ causes, t.isSel s = false) : categorize A ts = .ok ts := by
  have hin : ∀ (M : List Stag → Prop) g, g ≠ [] → (∀ t ∈ g, t ∈ ts) → ¬ In M g := by
    rintro M g hg hs ⟨w, hw, _⟩
    cases hw with
    | nil => exact hg rfl
    | @cons t s _ _ h1 _ =>
      have := (stagTok_iff t s).2 h1
      rw [(h t (hs t (by simp))).1] at this
      cases this
  rcases categorize_spec hA hp with ⟨out, h1, h2, _, h4, _⟩ | ⟨_, h1⟩
  · rw [h1]
    have : ∀ t ∈ out, t.kind ≠ .marker := by
      intro t ht hk
      cases t with
      | marker m =>
        obtain ⟨a, b, rfl⟩ := List.append_of_mem ht
        have hP := h4 a m b rfl
        rw [words_append, words_marker] at h2
        have ha : ∀ t ∈ words a, t ∈ ts := fun t ht => by rw [← h2]; simp [ht]
        have hb : ∀ t ∈ words b, t ∈ ts := fun t ht => by rw [← h2]; simp [ht]
        have no : ∀ {x : Tok} {s : Sel}, x ∈ ts → s ∈ causes → x.isSel s = true → False := fun hx hs ht => by
          rw [(h _ hx).2 _ hs] at ht; cases ht
        have lead : ∀ {ss : List Sel} {c : Sel}, c ∈ causes → ¬ Leads ss c a b := by
          rintro ss c hc ⟨p, x, w, e, _, hx, _⟩
          exact no (hb x (by rw [e]; simp)) hc hx
        have trail : ∀ {ss : List Sel} {c : Sel}, c ∈ causes → ¬ Trails ss c a b := by
          rintro ss c hc ⟨p, x, w, e, _, hx, _⟩
          exact no (ha x (by rw [e]; simp)) hc hx
        have ek : ∀ {c s : Sel}, c ∈ causes → ¬ Joined L (EkWords c) s (words b) := by
          rintro c s hc ⟨_, r, e, ⟨p, x, q, rfl, _, hx, _⟩, _⟩
          exact no (hb x (by rw [e]; simp)) hc hx
        have jo : ∀ {s : Sel}, ¬ Joined L JoikWords s (words b) := by
          rintro s ⟨_, r, e, ⟨p, x, q, rfl, ⟨_, hx, _⟩ | ⟨_, hx, _⟩⟩, _⟩
          · exact no (hb x (by rw [e]; simp)) (by decide) hx
          · exact no (hb x (by rw [e]; simp)) (by decide) hx
        have nu : ∀ {s : Sel}, s ∈ causes → ¬ Numbered s (words b) := fun hs hn => by
          obtain ⟨x, h1, h2⟩ := numWord_or hn
          exact no (hb x h1) hs h2
        cases m <;> simp only [Place] at hP
        case PRIVATE_START_TENSE =>
          obtain ⟨g, w, e, hg, hi⟩ := hP
          exact hin L g hg (fun t ht => hb t (by rw [e]; simp [ht])) hi
        case PRIVATE_END_TENSE =>
          obtain ⟨w, g, e, hg, hi⟩ := hP
          exact hin L g hg (fun t ht => ha t (by rw [e]; simp [ht])) hi
        case PRIVATE_START_GEK =>
          rcases hP with hP | ⟨g, x, w, e, _, hx⟩
          · exact lead (by decide) hP
          · exact no (hb x (by rw [e]; simp)) (by decide) hx
        case PRIVATE_I_BO =>
          obtain ⟨x, r, e, hx, _⟩ := hP
          exact no (hb x (by rw [e]; simp)) (by decide) hx
        case PRIVATE_I_JEKJOIK =>
          obtain ⟨x, r, _, e, hx, _⟩ := hP
          exact no (hb x (by rw [e]; simp)) (by decide) hx
        case PRIVATE_NAhE_BO =>
          obtain ⟨x, y, r, e, hx, _⟩ := hP
          have := (h x (hb x (by rw [e]; simp))).1
          cases x with
          | cmavo s w =>
            simp only [Tok.isSel, beq_iff_eq] at hx
            subst hx
            cases this
          | _ => cases hx
        case PRIVATE_NA_KU =>
          obtain ⟨x, y, r, e, hx, _⟩ := hP
          exact no (hb x (by rw [e]; simp)) (by decide) hx
        all_goals first
          | exact lead (by decide) hP
          | exact trail (by decide) hP
          | exact hP.elim (lead (by decide)) (lead (by decide))
          | exact hP.elim (trail (by decide)) (trail (by decide))
          | exact ek (by decide) hP
          | exact jo hP
          | exact nu (by decide) hP
      | _ => cases hk
    rw [words_plain this] at h2
    rw [h2]
  · exfalso
    have h0 : ∀ t ∈ ts, stagTok t = none := fun t ht => (h t ht).1
    rename_i hcr
    clear h hp hin hcr
    induction h1 with
    | @here x r _ h2 =>
      obtain ⟨w, hw, _⟩ := h2
      cases hw with
      | @cons t s _ _ h3 _ =>
        have := (stagTok_iff x s).2 h3
        rw [h0 x (by simp)] at this
        cases this
    | plain _ _ ih => exact ih (fun t ht => h0 t (by simp [ht]))
    | tense _ _ ih => exact ih (fun t ht => h0 t (by simp [ht]))

/-! ## The flag for free modifiers -/

/-- The flag `followed_by_free` of a cmavo is set exactly if the next node is a cmavo that begins a free modifier. -/
theorem markFree_iff (a b : List Tok) (s : Sel) (w : List Char) :
    (markFree (a ++ .cmavo s w :: b))[a.length]? = some (some true) ↔
      ∃ s' w' b', b = .cmavo s' w' :: b' ∧ s' ∈ ([.SEI, .SOI, .COI, .DOI, .TO, .XI, .PRIVATE_NUMBER_MAI] : List Sel) := by
  induction a with
  | nil =>
    simp only [List.nil_append, markFree, List.length_nil, List.getElem?_cons_zero, Option.some.injEq]
    cases b with
    | nil => simp
    | cons t b =>
      cases t with
      | cmavo s' w' => cases s' <;> simp [freeSel]
      | _ => simp
  | cons t a ih =>
    cases t <;> simpa [markFree] using ih

/-- The lexer makes no cmavo of the private selma'o. -/
def NoPrivate (ts : List Tok) : Prop := ∀ w, Tok.cmavo .PRIVATE_NUMBER_MAI w ∉ ts

/-- C50: the case for a number with MAI in `mark_cmavo_before_free` is never taken, for the marker it asks for is no
cmavo: a cmavo just before such a free modifier is not flagged. -/
theorem number_mai_not_flagged {A : Dfa} {L : List Stag → Prop} (hA : Recognises A L) {ts out a b : List Tok} {s : Sel}
    {w : List Char} (hp : Plain ts) (hn : NoPrivate ts) (h : categorize A ts = .ok out) (ho : out = a ++ .cmavo s w :: b)
    (hm : (markFree out)[a.length]? = some (some true)) :
    ∃ s' w' b', b = .cmavo s' w' :: b' ∧ s' ∈ ([.SEI, .SOI, .COI, .DOI, .TO, .XI] : List Sel) := by
  rw [ho] at hm
  obtain ⟨s', w', b', rfl, h1⟩ := (markFree_iff a b s w).1 hm
  refine ⟨s', w', b', rfl, ?_⟩
  have hne : s' ≠ .PRIVATE_NUMBER_MAI := by
    rintro rfl
    apply hn w'
    rw [← (categorize_ok hA hp h).1, ho]
    unfold words
    rw [List.mem_filter]
    exact ⟨by simp, by simp [Tok.kind]⟩
  simp only [List.mem_cons, List.not_mem_nil, or_false] at h1 ⊢
  rcases h1 with h | h | h | h | h | h | h
  all_goals simp_all

/-! ## Examples -/

/-- `pa mai` after `vau`. -/
example : categorize stagDfa [.cmavo .VAU "vau".toList, .cmavo .PA "pa".toList, .cmavo .MAI "mai".toList] =
    .ok [.cmavo .VAU "vau".toList, .marker .PRIVATE_NUMBER_MAI, .cmavo .PA "pa".toList, .cmavo .MAI "mai".toList] := by
  decide +kernel

example : markFree [.cmavo .VAU "vau".toList, .marker .PRIVATE_NUMBER_MAI, .cmavo .PA "pa".toList,
    .cmavo .MAI "mai".toList] = [some false, none, some false, some false] := by decide

example : markFree [.cmavo .VAU "vau".toList, .cmavo .SEI "sei".toList] = [some true, some false] := by decide

/-- `.i na ja pu bo`, a sentence link with a connective, a tense and `bo`. -/
example : categorize stagDfa [.cmavo .I "i".toList, .cmavo .NA "na".toList, .cmavo .JA "ja".toList,
      .cmavo .PU "pu".toList, .cmavo .BO "bo".toList, .cmavo .KOhA "mi".toList] =
    .ok [.marker .PRIVATE_I_BO, .cmavo .I "i".toList, .marker .PRIVATE_START_JEK, .cmavo .NA "na".toList,
      .cmavo .JA "ja".toList, .marker .PRIVATE_END_JEK, .marker .PRIVATE_START_TENSE, .cmavo .PU "pu".toList,
      .marker .PRIVATE_END_TENSE, .cmavo .BO "bo".toList, .cmavo .KOhA "mi".toList] := by
  decide +kernel

/-- For that text, the markers are exact. -/
example : Exact [.cmavo .I "i".toList, .cmavo .NA "na".toList, .cmavo .JA "ja".toList,
      .cmavo .PU "pu".toList, .cmavo .BO "bo".toList, .cmavo .KOhA "mi".toList]
    [.marker .PRIVATE_I_BO, .cmavo .I "i".toList, .marker .PRIVATE_START_JEK, .cmavo .NA "na".toList,
      .cmavo .JA "ja".toList, .marker .PRIVATE_END_JEK, .marker .PRIVATE_START_TENSE, .cmavo .PU "pu".toList,
      .marker .PRIVATE_END_TENSE, .cmavo .BO "bo".toList, .cmavo .KOhA "mi".toList] :=
  categorize_exact stagDfa_recognises (by
    intro t ht; simp at ht; rcases ht with rfl | rfl | rfl | rfl | rfl | rfl <;> decide) (by decide +kernel)

/-- Two tenses joined by a jek, before bo: the jek behind the tense is not marked, the ek is. -/
example : categorize stagDfa [.cmavo .A "a".toList, .cmavo .PU "pu".toList, .cmavo .JA "ja".toList, .cmavo .PU "ba".toList,
      .cmavo .BO "bo".toList] =
    .ok [.marker .PRIVATE_EK_BO, .marker .PRIVATE_START_EK, .cmavo .A "a".toList, .marker .PRIVATE_START_TENSE,
      .cmavo .PU "pu".toList, .marker .PRIVATE_END_TENSE, .marker .PRIVATE_START_JEK, .cmavo .JA "ja".toList,
      .marker .PRIVATE_END_JEK, .marker .PRIVATE_START_TENSE, .cmavo .PU "ba".toList, .marker .PRIVATE_END_TENSE,
      .cmavo .BO "bo".toList] := by
  decide +kernel

/-- Nothing to mark. -/
example : categorize stagDfa [.cmavo .LE "le".toList, .brivla "gerku".toList, .cmavo .CU "cu".toList] =
    .ok [.cmavo .LE "le".toList, .brivla "gerku".toList, .cmavo .CU "cu".toList] :=
  categorize_unmarked stagDfa_recognises (by intro t ht; simp at ht; rcases ht with rfl | rfl | rfl <;> decide)
    (by intro t ht; simp at ht; rcases ht with rfl | rfl | rfl <;> decide)

/-- A crash: the text ends in a number. -/
example : categorize stagDfa [.brivla "gerku".toList, .cmavo .PA "pa".toList] = .error .nullDeref := by decide +kernel

end Jbo.Categ
