import Verif.Lex2
import Verif.Lex2Spec
import Verif.Lex2Thm

/-! # Theorems about emphasis, letters and indicators (C12, C13) -/

namespace Jbo.Lex2
open Jbo Lex2Spec

/-! ## Emphasis -/

/-- ba'e folding by itself loses nothing, for every text. -/
theorem bahe_conserves (pend ts : List Tok) (h : ts = [] → pend = []) :
    (handleBahe pend ts).flatMap readLeaf = pend ++ ts := by
  induction pend, ts using handleBahe.induct with
  | case1 => simp [handleBahe, h rfl]
  | case2 pend' x => simp [handleBahe, readLeaf]
  | case3 pend' x y rest hx hy ih =>
    rw [handleBahe, if_pos hx, if_pos hy, List.flatMap_cons, ih (by simp)]; simp [readLeaf]
  | case4 pend' x y rest hx hy ih =>
    rw [handleBahe, if_pos hx, if_neg hy, ih (by simp)]; simp
  | case5 pend' x y rest hx ih =>
    rw [handleBahe, if_neg hx, List.flatMap_cons, ih (by simp)]; simp [readLeaf]

/-- No leaf is negated or scaled yet. -/
theorem bahe_plain (pend ts : List Tok) :
    ∀ l ∈ handleBahe pend ts, l.neg = false ∧ l.cai = none := by
  induction pend, ts using handleBahe.induct with
  | case1 => simp [handleBahe]
  | case2 pend' x => simp [handleBahe]
  | case3 pend' x y rest hx hy ih =>
    rw [handleBahe, if_pos hx, if_pos hy]; simpa using ih
  | case4 pend' x y rest hx hy ih =>
    rw [handleBahe, if_pos hx, if_neg hy]; exact ih
  | case5 pend' x y rest hx ih =>
    rw [handleBahe, if_neg hx]; simpa using ih

/-- After the pass ba'e is a token of its own only at the end of the text or before fa'o. -/
theorem bahe_none_left (pend ts : List Tok) (pre post : List Leaf) (l m : Leaf)
    (h : handleBahe pend ts = pre ++ l :: m :: post) (hl : l.tok.isSel .BAhE = true) :
    m.tok.isSel .FAhO = true := by
  have hd : ∀ (pend ts : List Tok) (m : Leaf) (post : List Leaf),
      handleBahe pend ts = m :: post → ∀ y rest, ts = y :: rest → y.isSel .BAhE = false →
        m.tok = y := by
    intro pend ts m post h y rest e hy
    subst e
    cases rest with
    | nil => simp [handleBahe] at h; rw [← h.1]
    | cons z r => simp [handleBahe, hy] at h; rw [← h.1]
  have fb : ∀ t : Tok, t.isSel .FAhO = true → t.isSel .BAhE = false := by
    intro t; cases t <;> simp [Tok.isSel]; rintro rfl; decide
  induction pend, ts using handleBahe.induct generalizing pre with
  | case1 => simp [handleBahe] at h
  | case2 pend' x => simp [handleBahe] at h; have := congrArg List.length h; simp at this; omega
  | case3 pend' x y rest hx hy ih =>
    rw [handleBahe, if_pos hx, if_pos hy] at h
    cases pre with
    | nil =>
      simp at h
      rw [hd _ _ _ _ h.2 y rest rfl (fb y hy)]; exact hy
    | cons p pre => simp at h; exact ih pre h.2
  | case4 pend' x y rest hx hy ih =>
    rw [handleBahe, if_pos hx, if_neg hy] at h; exact ih pre h
  | case5 pend' x y rest hx ih =>
    rw [handleBahe, if_neg hx] at h
    cases pre with
    | nil => simp at h; rw [← h.1] at hl; exact absurd hl hx
    | cons p pre => simp at h; exact ih pre h.2

/-! ## Letters -/

theorem buText_eq (t : Tok) : buText t = letterName t := by
  cases t <;> simp [buText, letterName, joinWith_eq]

/-- Safe leaf lists: an emphasised leaf is not bu, nai or a CAI, and is not followed by bu;
cu'i is not followed by nai. -/
def LKeeps : List Leaf → Prop
  | [] => True
  | a :: rest =>
    (a.bahe ≠ [] → a.tok.isSel .NAI = false ∧ a.tok.isSel .CAI = false ∧ a.tok.isSel .BU = false ∧
      ∀ c, rest.head? = some c → c.tok.isSel .BU = false) ∧
    (a.tok = caiTok "cu'i" → ∀ c, rest.head? = some c → c.tok.isSel .NAI = false) ∧ LKeeps rest

theorem sel_ne {t : Tok} {a b : Sel} (hab : a ≠ b) (h : t.isSel a = true) : t.isSel b = false := by
  cases t <;> simp_all [Tok.isSel]

/-- The first leaf produced: the current token, or a later one emphasised by it. -/
theorem handleBahe_head (pend : List Tok) (ts : List Tok) (m : Leaf)
    (h : (handleBahe pend ts).head? = some m) :
    ∃ y rest, ts = y :: rest ∧
      ((m.tok = y ∧ m.bahe = pend) ∨ (y.isSel .BAhE = true ∧ m.bahe ≠ [])) := by
  induction pend, ts using handleBahe.induct with
  | case1 => simp [handleBahe] at h
  | case2 pend' x => simp [handleBahe] at h; subst h; exact ⟨x, [], rfl, .inl ⟨rfl, rfl⟩⟩
  | case3 pend' x y rest hx hy ih =>
    rw [handleBahe, if_pos hx, if_pos hy] at h
    simp at h; subst h; exact ⟨x, _, rfl, .inl ⟨rfl, rfl⟩⟩
  | case4 pend' x y rest hx hy ih =>
    rw [handleBahe, if_pos hx, if_neg hy] at h
    obtain ⟨y', r', e, h'⟩ := ih h
    refine ⟨x, _, rfl, .inr ⟨hx, ?_⟩⟩
    rcases h' with h' | h'
    · rw [h'.2]; simp
    · exact h'.2
  | case5 pend' x y rest hx ih =>
    rw [handleBahe, if_neg hx] at h
    simp at h; subst h; exact ⟨x, _, rfl, .inl ⟨rfl, rfl⟩⟩

theorem handleBahe_keeps (pend ts : List Tok) (hk : Keeps ts)
    (hp : pend ≠ [] → ∀ x rest, ts = x :: rest → x.isSel .NAI = false ∧ x.isSel .CAI = false ∧
      x.isSel .BU = false ∧ ∀ c, rest.head? = some c → c.isSel .BU = false) :
    LKeeps (handleBahe pend ts) := by
  -- the head of the rest of the output is bu / nai only if the next input word is
  have hnext : ∀ (s : Sel), (s = .BU ∨ s = .NAI) → ∀ (ts : List Tok) (m : Leaf),
      LKeeps (handleBahe [] ts) → (handleBahe [] ts).head? = some m → m.tok.isSel s = true →
      ∃ y rest, ts = y :: rest ∧ y.isSel s = true := by
    intro s hs ts m hlk hm hms
    obtain ⟨y, rest, e, h'⟩ := handleBahe_head [] ts m hm
    refine ⟨y, rest, e, ?_⟩
    rcases h' with h' | h'
    · rw [← h'.1]; exact hms
    · exfalso
      cases hh : handleBahe [] ts with
      | nil => simp [hh] at hm
      | cons m' r =>
        rw [hh] at hm hlk
        simp at hm; subst hm
        have := hlk.1 h'.2
        rcases hs with rfl | rfl
        · simp [this.2.2.1] at hms
        · simp [this.1] at hms
  induction pend, ts using handleBahe.induct with
  | case1 => simp [handleBahe, LKeeps]
  | case2 pend' x =>
    simp only [handleBahe, LKeeps]
    refine ⟨fun h => ?_, fun _ c hc => by simp at hc, trivial⟩
    have := hp h x [] rfl
    exact ⟨this.1, this.2.1, this.2.2.1, fun c hc => by simp at hc⟩
  | case3 pend' x y rest hx hy ih =>
    rw [handleBahe, if_pos hx, if_pos hy]
    have hk' := hk.2.2
    have h1 := ih hk' (by simp)
    refine ⟨fun h => ?_, ?_, h1⟩
    · have hp' := hp h x _ rfl
      refine ⟨hp'.1, hp'.2.1, hp'.2.2.1, fun c hc => ?_⟩
      refine Bool.eq_false_iff.2 (fun hb => ?_)
      obtain ⟨y', r', e, hb'⟩ := hnext .BU (.inl rfl) _ c h1 hc hb
      injection e with e1 e2; subst e1
      have := hp'.2.2.2 y rfl
      simp [this] at hb'
    · intro e; simp only at e; subst e; simp [caiTok, Tok.isSel] at hx
  | case4 pend' x y rest hx hy ih =>
    rw [handleBahe, if_pos hx, if_neg hy]
    refine ih hk.2.2 ?_
    intro _ x' rest' e
    injection e with e1 e2; subst e1 e2
    exact hk.1 hx
  | case5 pend' x y rest hx ih =>
    rw [handleBahe, if_neg hx]
    have hk' := hk.2.2
    have h1 := ih hk' (by simp)
    refine ⟨fun h => ?_, ?_, h1⟩
    · have hp' := hp h x _ rfl
      refine ⟨hp'.1, hp'.2.1, hp'.2.2.1, fun c hc => ?_⟩
      refine Bool.eq_false_iff.2 (fun hb => ?_)
      obtain ⟨y', r', e, hb'⟩ := hnext .BU (.inl rfl) _ c h1 hc hb
      injection e with e1 e2; subst e1
      have := hp'.2.2.2 y rfl
      simp [this] at hb'
    · intro e c hc
      simp only at e
      refine Bool.eq_false_iff.2 (fun hb => ?_)
      obtain ⟨y', r', e', hb'⟩ := hnext .NAI (.inr rfl) _ c h1 hc hb
      injection e' with e1 e2; subst e1
      have := hk.2.1 e
      simp [this] at hb'

theorem handleBahe_bahe (pend ts : List Tok) (hp : ∀ t ∈ pend, t.isSel .BU = false) :
    ∀ l ∈ handleBahe pend ts, ∀ t ∈ l.bahe, t.isSel .BU = false := by
  induction pend, ts using handleBahe.induct with
  | case1 => simp [handleBahe]
  | case2 pend' x => simpa [handleBahe] using hp
  | case3 pend' x y rest hx hy ih =>
    rw [handleBahe, if_pos hx, if_pos hy]
    intro l hl; rcases List.mem_cons.1 hl with rfl | hl
    · exact hp
    · exact ih (by simp) l hl
  | case4 pend' x y rest hx hy ih =>
    rw [handleBahe, if_pos hx, if_neg hy]
    refine ih ?_
    intro t ht; rcases List.mem_append.1 ht with h | h
    · exact hp t h
    · simp at h; subst h; exact sel_ne (by decide) hx
  | case5 pend' x y rest hx ih =>
    rw [handleBahe, if_neg hx]
    intro l hl; rcases List.mem_cons.1 hl with rfl | hl
    · exact hp
    · exact ih (by simp) l hl

/-- The words of the leaves are words of the text. -/
theorem handleBahe_tok (pend ts : List Tok) : ∀ l ∈ handleBahe pend ts, l.tok ∈ ts := by
  induction pend, ts using handleBahe.induct with
  | case1 => simp [handleBahe]
  | case2 pend' x => simp [handleBahe]
  | case3 pend' x y rest hx hy ih =>
    rw [handleBahe, if_pos hx, if_pos hy]
    intro l hl; rcases List.mem_cons.1 hl with rfl | hl
    · simp
    · exact List.mem_cons_of_mem _ (ih l hl)
  | case4 pend' x y rest hx hy ih =>
    rw [handleBahe, if_pos hx, if_neg hy]
    exact fun l hl => List.mem_cons_of_mem _ (ih l hl)
  | case5 pend' x y rest hx ih =>
    rw [handleBahe, if_neg hx]
    intro l hl; rcases List.mem_cons.1 hl with rfl | hl
    · simp
    · exact List.mem_cons_of_mem _ (ih l hl)

theorem letters_skip (said pre ts : List Tok) (h : ∀ t ∈ pre, t.isSel .BU = false) :
    letters said (pre ++ ts) = letters (pre.reverse ++ said) ts := by
  induction pre generalizing said with
  | nil => rfl
  | cons t pre ih =>
    rw [List.cons_append, letters, sayLetter.eq_def, if_neg (by simp [h t (by simp)]), Option.bind_some,
      ih _ (fun t ht => h t (by simp [ht]))]
    simp

/-- Leaf lists on which pairing is lossless. -/
def PKeeps : List Leaf → Prop
  | [] => True
  | a :: rest =>
    (a.bahe ≠ [] → a.tok.isSel .NAI = false ∧ a.tok.isSel .CAI = false) ∧
    (a.tok = caiTok "cu'i" → ∀ c, rest.head? = some c → c.tok.isSel .NAI = false) ∧ PKeeps rest

theorem PKeeps_swap (pre s s' : List Leaf) (h : PKeeps (pre ++ s)) (h' : PKeeps s')
    (hh : ∀ c, s'.head? = some c → c.tok.isSel .NAI = false) : PKeeps (pre ++ s') := by
  induction pre with
  | nil => exact h'
  | cons a pre ih =>
    refine ⟨h.1, fun e c hc => ?_, ih h.2.2⟩
    cases pre with
    | nil => exact hh c hc
    | cons b pre => exact h.2.1 e c hc

theorem PKeeps_right (pre s : List Leaf) (h : PKeeps (pre ++ s)) : PKeeps s := by
  induction pre with
  | nil => exact h
  | cons a pre ih => exact ih h.2.2

theorem LKeeps_PKeeps (l : List Leaf) (h : LKeeps l) : PKeeps l := by
  induction l with
  | nil => trivial
  | cons a l ih => exact ⟨fun hb => ⟨(h.1 hb).1, (h.1 hb).2.1⟩, h.2.1, ih h.2.2⟩

def Plain (l : Leaf) : Prop := l.neg = false ∧ l.cai = none

theorem readLeaf_plain {l : Leaf} (h : Plain l) : readLeaf l = l.bahe ++ [l.tok] := by
  simp [readLeaf, h.1, h.2]

theorem buLoop_read (ls : List Leaf) : ∀ (left : List Leaf), LKeeps ls →
    (∀ l ∈ ls, Plain l ∧ ∀ t ∈ l.bahe, t.isSel .BU = false) → (∀ l ∈ left, Plain l) →
    (∀ y, left.head? = some y → y.bahe ≠ [] → ∀ x, ls.head? = some x → x.tok.isSel .BU = false) →
    PKeeps (left.reverse ++ ls) →
    match letters (left.reverse.flatMap readLeaf).reverse (ls.flatMap readLeaf) with
    | none => buLoop left ls = .error .assertFail
    | some said => ∃ out, buLoop left ls = .ok out ∧ out.flatMap readLeaf = said.reverse ∧
        PKeeps out ∧ (∀ l ∈ out, Plain l) ∧
        ∀ l ∈ out, (∃ w, l.tok = .bu w) ∨ l ∈ left ∨ l ∈ ls := by
  induction ls with
  | nil =>
    intro left _ _ hpl _ hpk
    simp only [List.flatMap_nil, letters]
    refine ⟨left.reverse, rfl, by simp, by simpa using hpk, by simpa using hpl,
      fun l hl => .inr (.inl (by simpa using hl))⟩
  | cons x rest ih =>
    intro left hk hp hpl hbd hpk
    have hx := hp x (by simp)
    rw [List.flatMap_cons, readLeaf_plain hx.1]
    by_cases hb : x.tok.isSel .BU = true
    · have hxb : x.bahe = [] := by
        cases hxb : x.bahe with
        | nil => rfl
        | cons a b => have := (hk.1 (by simp [hxb])).2.2.1; simp [hb] at this
      rw [hxb, List.nil_append, List.singleton_append, letters, sayLetter.eq_def, if_pos hb, buLoop.eq_def]
      simp only [hb, if_true]
      cases left with
      | nil => simp
      | cons y l =>
        have hy := hpl y (by simp)
        have hyb : y.bahe = [] := by
          cases hyb : y.bahe with
          | nil => rfl
          | cons a b => have := hbd y rfl (by simp [hyb]) x rfl; simp [hb] at this
        have hread : ((y :: l).reverse.flatMap readLeaf).reverse =
            y.tok :: (l.reverse.flatMap readLeaf).reverse := by
          simp [List.flatMap_append, readLeaf_plain hy, hyb]
        rw [hread]
        simp only
        rw [buText_eq]
        cases hn : letterName y.tok with
        | none => simp
        | some w =>
          simp only [Option.map_some, Option.bind_some]
          have hx' : Plain { x with tok := .bu w } := hx.1
          have key := ih ({ x with tok := .bu w } :: l) hk.2.2 (fun l hl => hp l (by simp [hl]))
            (by
              intro l' hl'; rcases List.mem_cons.1 hl' with rfl | h
              · exact hx'
              · exact hpl l' (by simp [h]))
            (by intro y' e hne; simp at e; subst e; exact absurd hxb hne)
            (by
              rw [List.reverse_cons, List.append_assoc]
              rw [List.reverse_cons, List.append_assoc] at hpk
              have hr : PKeeps rest := LKeeps_PKeeps _ hk.2.2
              refine PKeeps_swap _ _ _ hpk ?_ ?_
              · exact ⟨fun h => absurd hxb h, fun h => by simp [caiTok] at h, hr⟩
              · intro c hc; simp at hc; subst hc; rfl)
          have hread2 : (({ x with tok := .bu w } :: l).reverse.flatMap readLeaf).reverse =
              .bu w :: (l.reverse.flatMap readLeaf).reverse := by
            rw [List.reverse_cons, List.flatMap_append, List.flatMap_singleton, readLeaf_plain hx']
            simp [hxb]
          rw [hread2] at key
          split at key
          · exact key
          · rename_i said h1
            obtain ⟨out, h2, h3, h4, h5, h6⟩ := key
            refine ⟨out, h2, h3, h4, h5, fun l' hl' => ?_⟩
            rcases h6 l' hl' with h | h | h
            · exact .inl h
            · rcases List.mem_cons.1 h with rfl | h
              · exact .inl ⟨w, rfl⟩
              · exact .inr (.inl (by simp [h]))
            · exact .inr (.inr (by simp [h]))
    · rw [Bool.not_eq_true] at hb
      rw [letters_skip _ (x.bahe ++ [x.tok]) _ (by
        intro t ht; rcases List.mem_append.1 ht with h | h
        · exact hx.2 t h
        · simp at h; subst h; exact hb)]
      rw [buLoop.eq_def]
      simp only [hb, Bool.false_eq_true, if_false]
      have key := ih (x :: left) hk.2.2 (fun l hl => hp l (by simp [hl]))
        (by
          intro l' hl'; rcases List.mem_cons.1 hl' with rfl | h
          · exact hx.1
          · exact hpl l' h)
        (by
          intro y' e hne c hc
          simp at e; subst e
          exact (hk.1 hne).2.2.2 c hc)
        (by simpa using hpk)
      have hread2 : ((x :: left).reverse.flatMap readLeaf).reverse =
          (x.bahe ++ [x.tok]).reverse ++ (left.reverse.flatMap readLeaf).reverse := by
        simp [List.flatMap_append, readLeaf_plain hx.1]
      rw [hread2] at key
      split at key
      · exact key
      · rename_i said h1
        obtain ⟨out, h2, h3, h4, h5, h6⟩ := key
        refine ⟨out, h2, h3, h4, h5, fun l' hl' => ?_⟩
        rcases h6 l' hl' with h | h | h
        · exact .inl h
        · rcases List.mem_cons.1 h with rfl | h
          · exact .inr (.inr (by simp))
          · exact .inr (.inl h)
        · exact .inr (.inr (by simp [h]))

/-! ## Indicators -/

/-- What pairing relies on. -/
def Good (ls : List Leaf) : Prop := PKeeps ls ∧ ∀ l ∈ ls, Plain l ∧ Lexical l.tok

theorem Good.tail {a : Leaf} {ls : List Leaf} (h : Good (a :: ls)) : Good ls :=
  ⟨h.1.2.2, fun l hl => h.2 l (by simp [hl])⟩

theorem Good.takeNai {ls : List Leaf} (h : Good ls) : Good (takeNai ls).2 := by
  cases ls with
  | nil => exact h
  | cons y r => simp only [Lex2.takeNai]; split
                · exact h.tail
                · exact h

theorem takeNai_read {ls : List Leaf} (h : Good ls) :
    ls.flatMap readLeaf = (if (takeNai ls).1 then [naiTok] else []) ++
      (takeNai ls).2.flatMap readLeaf := by
  cases ls with
  | nil => rfl
  | cons y r =>
    by_cases hy : y.tok.isSel .NAI = true
    · have hb : y.bahe = [] := by
        cases hb : y.bahe with
        | nil => rfl
        | cons a b => have := (h.1.1 (by simp [hb])).1; simp [hy] at this
      have hp := h.2 y (by simp)
      have : readLeaf y = [naiTok] := by rw [readLeaf_plain hp.1, hb, hp.2.1 hy]; rfl
      simp [takeNai, hy, this]
    · simp [takeNai, hy]

def caiRead : Option Cai → List Tok
  | none => []
  | some c => caiWords c

theorem takeCai_read {ls : List Leaf} (h : Good ls) :
    ∃ c r, takeCai ls = .ok (c, r) ∧ Good r ∧
      ls.flatMap readLeaf = caiRead c ++ r.flatMap readLeaf := by
  cases ls with
  | nil => exact ⟨none, [], rfl, h, rfl⟩
  | cons z r =>
    by_cases hz : z.tok.isSel .CAI = true
    · have hb : z.bahe = [] := by
        cases hb : z.bahe with
        | nil => rfl
        | cons a b => have := (h.1.1 (by simp [hb])).2; simp [hz] at this
      have hp := h.2 z (by simp)
      have hr : readLeaf z = [z.tok] := by rw [readLeaf_plain hp.1, hb]; rfl
      have hnai := takeNai_read h.tail
      have hcuhi : z.tok = caiTok "cu'i" → (takeNai r).1 = false := by
        intro e
        cases r with
        | nil => rfl
        | cons y r' => simp [takeNai, h.1.2.1 e y rfl]
      have main : ∃ c, caiCode z.tok = some c ∧
          z.tok :: (if (takeNai r).1 then [naiTok] else []) =
            caiWords (if (takeNai r).1 then c.withNai else c) := by
        rcases hp.2.2 hz with e | e | e | e | e
        · refine ⟨.CAI, by rw [e]; decide, ?_⟩; rw [e]; cases (takeNai r).1 <;> rfl
        · refine ⟨.SAI, by rw [e]; decide, ?_⟩; rw [e]; cases (takeNai r).1 <;> rfl
        · refine ⟨.RUhE, by rw [e]; decide, ?_⟩; rw [e]; cases (takeNai r).1 <;> rfl
        · refine ⟨.CUhI, by rw [e]; decide, ?_⟩; rw [hcuhi e, e]; rfl
        · refine ⟨.PEI, by rw [e]; decide, ?_⟩; rw [e]; cases (takeNai r).1 <;> rfl
      obtain ⟨c, hc, hw⟩ := main
      refine ⟨some (if (takeNai r).1 then c.withNai else c), _,
        by simp only [takeCai, hz, hc, if_true], h.tail.takeNai, ?_⟩
      rw [List.flatMap_cons, hr, hnai, caiRead, ← hw]; simp
    · exact ⟨none, z :: r, by simp [takeCai, hz], h, rfl⟩

theorem pairOff_read (ls : List Leaf) (h : Good ls) :
    ∃ out, pairOff ls = .ok out ∧ out.flatMap readLeaf = ls.flatMap readLeaf := by
  induction hl : ls.length using Nat.strongRecOn generalizing ls with
  | ind n ih =>
  cases ls with
  | nil => exact ⟨[], by rw [pairOff.eq_def], rfl⟩
  | cons x rest =>
    simp at hl
    rw [pairOff.eq_def]
    simp only
    by_cases hx : isIndicator x.tok = true
    · simp only [hx, if_true]
      obtain ⟨c, r, hc, hg, hread⟩ := takeCai_read h.tail.takeNai
      have hlen : r.length ≤ rest.length :=
        Nat.le_trans (takeCai_length hc) (takeNai_length rest)
      obtain ⟨out, ho, hro⟩ := ih r.length (by omega) r hg rfl
      split
      · rename_i e he; rw [hc] at he; cases he
      · rename_i c' r' he
        rw [hc] at he; injection he with he; injection he with h1 h2; subst h1 h2
        rw [ho]
        refine ⟨_, rfl, ?_⟩
        have hpx := (h.2 x (by simp)).1
        rw [List.flatMap_cons, List.flatMap_cons, takeNai_read h.tail, hread, hro,
          readLeaf_plain hpx, readLeaf, hpx.1, hpx.2]
        cases c <;> simp [caiRead]
    · simp only [hx]
      obtain ⟨out, ho, hro⟩ := ih rest.length (by omega) rest h.tail rfl
      rw [ho]
      exact ⟨_, rfl, by simp [hro]⟩

/-- Shape of the final token list: an initial run of bare indicators, then non-indicator
tokens each carrying only indicators. -/
def Folded (ns : List Node) : Prop :=
  ∃ lead rest, ns = lead ++ rest ∧
    (∀ n ∈ lead, isIndicator n.leaf.tok = true ∧ n.ui = []) ∧
    (∀ n ∈ rest, isIndicator n.leaf.tok = false ∧ ∀ l ∈ n.ui, isIndicator l.tok = true)

theorem isIndicator_eq (t : Tok) : isIndicator t = indicator t := by
  cases t with
  | cmavo s w => cases s <;> rfl
  | _ => rfl

theorem folded_eq (ns : List Node) : Folded ns ↔ FoldedText ns := by
  simp only [Folded, FoldedText, isIndicator_eq]

theorem indLoop_other (ls : List Leaf) : ∀ (y : Node) (left : List Node),
    isIndicator y.leaf.tok = false → y.ui = [] ∨ (∀ x, ls.head? = some x → isIndicator x.tok = false) →
    Folded (y :: left).reverse →
    ∃ ns, indLoop .OTHER (y :: left) ls = .ok ns ∧ Folded ns ∧
      flat ns = flat (y :: left).reverse ++ ls := by
  induction hl : ls.length using Nat.strongRecOn generalizing ls with
  | ind n ih =>
  intro y left hy hui hf
  cases ls with
  | nil => exact ⟨_, by rw [indLoop.eq_def], hf, by simp⟩
  | cons x rest =>
    simp at hl
    rw [indLoop.eq_def]
    simp only
    have hsplit : ∃ lead r, (y :: left).reverse = lead ++ (r ++ [y]) ∧ left.reverse = lead ++ r ∧
        (∀ n ∈ lead, isIndicator n.leaf.tok = true ∧ n.ui = []) ∧
        (∀ n ∈ r ++ [y], isIndicator n.leaf.tok = false ∧ ∀ l ∈ n.ui, isIndicator l.tok = true) := by
      obtain ⟨lead, r, e, h1, h2⟩ := hf
      rcases List.eq_nil_or_concat r with rfl | ⟨r', z, rfl⟩
      · have : y ∈ lead := by
          have : y ∈ (y :: left).reverse := by simp
          rw [e] at this; simpa using this
        have := (h1 y this).1; simp [hy] at this
      · rw [List.reverse_cons] at e
        have e' : left.reverse ++ [y] = (lead ++ r') ++ [z] := by rw [e]; simp
        obtain ⟨e1, e2⟩ := List.append_inj' e' rfl
        injection e2 with e2
        subst e2
        refine ⟨lead, r', by rw [List.reverse_cons, e1]; simp, e1, h1, ?_⟩
        simpa using h2
    by_cases hx : isIndicator x.tok = true
    · simp only [hx, if_true]
      have hui' : y.ui = [] := by
        rcases hui with h | h
        · exact h
        · have := h x rfl; simp [hx] at this
      have hlen : (rest.dropWhile (fun y => isIndicator y.tok)).length ≤ rest.length :=
        (List.dropWhile_suffix _).length_le
      obtain ⟨lead, r, e1, e2, h1, h2⟩ := hsplit
      obtain ⟨ns, a, b, c⟩ := ih (rest.dropWhile (fun y => isIndicator y.tok)).length (by omega) _ rfl
        { y with ui := (x :: rest).takeWhile (fun y => isIndicator y.tok) } left hy
        (.inr (by
          intro z hz
          have := List.head?_dropWhile_not (fun y : Leaf => isIndicator y.tok) rest
          rw [hz] at this
          simpa using this))
        (by
          refine ⟨lead, r ++ [{ y with ui := (x :: rest).takeWhile (fun y => isIndicator y.tok) }],
            ?_, h1, ?_⟩
          · rw [List.reverse_cons, e2]; simp
          · intro n hn
            rcases List.mem_append.1 hn with h | h
            · exact h2 n (by simp [h])
            · simp only [List.mem_singleton] at h; subst h
              refine ⟨hy, fun l hl => ?_⟩
              have := List.all_takeWhile (p := fun y : Leaf => isIndicator y.tok) (l := x :: rest)
              rw [List.all_eq_true] at this
              exact this l hl)
      refine ⟨ns, a, b, ?_⟩
      rw [c]
      simp only [flat, List.reverse_cons, List.flatMap_append, List.flatMap_cons, List.flatMap_nil, hui',
        List.append_nil, List.append_assoc, List.cons_append, List.nil_append]
      congr 2
      rw [List.takeWhile_cons_of_pos (p := fun y : Leaf => isIndicator y.tok) hx, List.cons_append, List.takeWhile_append_dropWhile]
    · simp only [hx]
      rw [Bool.not_eq_true] at hx
      obtain ⟨lead, r, e1, e2, h1, h2⟩ := hsplit
      obtain ⟨ns, a, b, c⟩ := ih rest.length (by omega) rest rfl { leaf := x } (y :: left) hx (.inl rfl)
        (by
          refine ⟨lead, r ++ [y] ++ [{ leaf := x }], ?_, h1, ?_⟩
          · rw [List.reverse_cons, e1]; simp
          · intro n hn
            rcases List.mem_append.1 hn with h | h
            · exact h2 n h
            · simp only [List.mem_singleton] at h; subst h
              exact ⟨hx, by simp⟩)
      refine ⟨ns, a, b, ?_⟩
      rw [c]
      simp [flat, List.flatMap_append]

theorem indLoop_lead (ls : List Leaf) : ∀ (st : XX) (left : List Node),
    st = .BEGIN ∨ st = .AFTER_INITIAL_FUHE ∨ st = .AFTER_INITIAL_INDICATOR →
    (∀ n ∈ left, isIndicator n.leaf.tok = true ∧ n.ui = []) →
    ∃ ns, indLoop st left ls = .ok ns ∧ Folded ns ∧ flat ns = flat left.reverse ++ ls := by
  induction ls with
  | nil =>
    intro st left hst hl
    exact ⟨left.reverse, by rw [indLoop.eq_def], ⟨left.reverse, [], by simp, by simpa using hl, by simp⟩,
      by simp⟩
  | cons x rest ih =>
    intro st left hst hl
    have fuhe : x.tok.isSel .FUhE = true → isIndicator x.tok = true := by
      intro h; simp [isIndicator, h]
    by_cases hx : isIndicator x.tok = true
    · have hl' : ∀ n ∈ ({ leaf := x } : Node) :: left, isIndicator n.leaf.tok = true ∧ n.ui = [] := by
        intro n hn; rcases List.mem_cons.1 hn with rfl | h
        · exact ⟨hx, rfl⟩
        · exact hl n h
      have fin : ∀ st', st' = .BEGIN ∨ st' = .AFTER_INITIAL_FUHE ∨ st' = .AFTER_INITIAL_INDICATOR →
          ∃ ns, indLoop st' ({ leaf := x } :: left) rest = .ok ns ∧ Folded ns ∧
            flat ns = flat left.reverse ++ x :: rest := by
        intro st' hst'
        obtain ⟨ns, a, b, c⟩ := ih st' _ hst' hl'
        exact ⟨ns, a, b, by rw [c]; simp [flat, List.flatMap_append]⟩
      rw [indLoop.eq_def]
      rcases hst with rfl | rfl | rfl
      · simp only [hx, if_true]
        by_cases hf : x.tok.isSel .FUhE = true
        · simp only [hf, if_true]; exact fin _ (by simp)
        · simp only [hf]; exact fin _ (by simp)
      · simp only [hx, if_true]; exact fin _ (by simp)
      · simp only [hx, if_true]; exact fin _ (by simp)
    · have hf : x.tok.isSel .FUhE = false := by
        rw [Bool.eq_false_iff]; exact fun h => hx (fuhe h)
      rw [Bool.not_eq_true] at hx
      have fin : ∃ ns, indLoop .OTHER ({ leaf := x } :: left) rest = .ok ns ∧ Folded ns ∧
            flat ns = flat left.reverse ++ x :: rest := by
        obtain ⟨ns, a, b, c⟩ := indLoop_other rest { leaf := x } left hx (.inl rfl)
          ⟨left.reverse, [{ leaf := x }], by simp, by simpa using hl, by simp [hx]⟩
        exact ⟨ns, a, b, by rw [c]; simp [flat, List.flatMap_append]⟩
      rw [indLoop.eq_def]
      rcases hst with rfl | rfl | rfl
      · simp only [hx, hf]; exact fin
      · simp only [hx]; exact fin
      · simp only [hx]; exact fin

/-- C13.  For every token sequence on which the pass finishes: an initial run of indicators
may stay; after it no indicator is a token of its own, each hangs on the nearest token before
it that is not an indicator (`flat ns` is the order of the words after pairing with nai/cai). -/
theorem indicators_folded (ls : List Leaf) (ns : List Node) (h : handleIndicators ls = .ok ns) :
    ∃ paired, pairOff ls = .ok paired ∧ flat ns = paired ∧ FoldedText ns := by
  simp only [handleIndicators] at h
  split at h
  · cases h
  · rename_i ls' hp
    obtain ⟨ns', a, b, c⟩ := indLoop_lead ls' .BEGIN [] (.inl rfl) (by simp)
    rw [a] at h; injection h with h; subst h
    exact ⟨ls', hp, by rw [c]; rfl, (folded_eq _).1 b⟩

/-- The folding is determined by the order of the words. -/
theorem folded_unique (ns ms : List Node) (hn : FoldedText ns) (hm : FoldedText ms)
    (h : flat ns = flat ms) : ns = ms := by
  rw [← folded_eq] at hn hm
  obtain ⟨l1, r1, rfl, a1, b1⟩ := hn
  obtain ⟨l2, r2, rfl, a2, b2⟩ := hm
  have rest : ∀ (r1 r2 : List Node),
      (∀ n ∈ r1, isIndicator n.leaf.tok = false ∧ ∀ l ∈ n.ui, isIndicator l.tok = true) →
      (∀ n ∈ r2, isIndicator n.leaf.tok = false ∧ ∀ l ∈ n.ui, isIndicator l.tok = true) →
      flat r1 = flat r2 → r1 = r2 := by
    have uis : ∀ (u1 u2 : List Leaf) (r1 r2 : List Node),
        (∀ l ∈ u1, isIndicator l.tok = true) → (∀ l ∈ u2, isIndicator l.tok = true) →
        (∀ n ∈ r1, isIndicator n.leaf.tok = false) → (∀ n ∈ r2, isIndicator n.leaf.tok = false) →
        u1 ++ flat r1 = u2 ++ flat r2 → u1 = u2 ∧ flat r1 = flat r2 := by
      intro u1
      induction u1 with
      | nil =>
        intro u2 r1 r2 _ h2 h3 _ e
        cases u2 with
        | nil => exact ⟨rfl, e⟩
        | cons a u =>
          cases r1 with
          | nil => simp [flat] at e
          | cons n r =>
            simp [flat] at e
            have := h2 a (by simp); have := h3 n (by simp)
            rw [e.1] at this; simp_all
      | cons a u ih =>
        intro u2 r1 r2 h1 h2 h3 h4 e
        cases u2 with
        | nil =>
          cases r2 with
          | nil => simp [flat] at e
          | cons n r =>
            simp [flat] at e
            have := h1 a (by simp); have := h4 n (by simp)
            rw [← e.1] at this; simp_all
        | cons b v =>
          simp only [List.cons_append, List.cons.injEq] at e
          obtain ⟨i, j⟩ := ih v r1 r2 (fun l hl => h1 l (by simp [hl])) (fun l hl => h2 l (by simp [hl])) h3 h4 e.2
          exact ⟨by rw [e.1, i], j⟩
    intro r1
    induction r1 with
    | nil =>
      intro r2 _ _ e
      cases r2 with
      | nil => rfl
      | cons n r => simp [flat] at e
    | cons n r ih =>
      intro r2 h1 h2 e
      cases r2 with
      | nil => simp [flat] at e
      | cons m s =>
        simp only [flat, List.flatMap_cons, List.cons_append, List.cons.injEq] at e
        obtain ⟨i, j⟩ := uis n.ui m.ui r s (h1 n (by simp)).2 (h2 m (by simp)).2
          (fun n hn => (h1 n (by simp [hn])).1) (fun n hn => (h2 n (by simp [hn])).1) e.2
        have := ih s (fun n hn => h1 n (by simp [hn])) (fun n hn => h2 n (by simp [hn])) j
        rw [this]
        congr 1
        cases n; cases m; simp_all
  induction l1 generalizing l2 with
  | nil =>
    cases l2 with
    | nil => exact rest r1 r2 b1 b2 h
    | cons n l =>
      cases r1 with
      | nil => simp [flat] at h
      | cons m r =>
        simp [flat] at h
        have := (b1 m (by simp)).1; have := (a2 n (by simp)).1
        rw [h.1] at *; simp_all
  | cons m l ih =>
    cases l2 with
    | nil =>
      cases r2 with
      | nil => simp [flat] at h
      | cons n r =>
        simp [flat] at h
        have := (b2 n (by simp)).1; have := (a1 m (by simp)).1
        rw [h.1] at *; simp_all
    | cons n l' =>
      have e1 := (a1 m (by simp)).2
      have e2 := (a2 n (by simp)).2
      simp only [flat, List.cons_append, List.flatMap_cons, e1, e2, List.nil_append,
        List.cons.injEq] at h
      have := ih (fun n hn => a1 n (by simp [hn])) l' h.2 (fun n hn => a2 n (by simp [hn]))
      rw [List.cons_append, List.cons_append, this]
      congr 1
      cases m; cases n
      simp only at e1 e2 h
      rw [e1, e2, h.1]

theorem pairOff_head (ls out : List Leaf) (h : pairOff ls = .ok out) (y : Leaf)
    (hy : out.head? = some y) : ∃ l, ls.head? = some l ∧ l.tok = y.tok := by
  cases ls with
  | nil => rw [pairOff.eq_def] at h; injection h with h; subst h; simp at hy
  | cons x rest =>
    refine ⟨x, rfl, ?_⟩
    rw [pairOff.eq_def] at h
    simp only at h
    split at h
    · split at h
      · cases h
      · split at h
        · cases h
        · injection h with h; subst h; simp at hy; rw [← hy]
    · split at h
      · cases h
      · injection h with h; subst h; simp at hy; rw [← hy]

theorem takeNai_false {l : List Leaf} (h : (takeNai l).1 = false) (y : Leaf)
    (hy : (takeNai l).2.head? = some y) : y.tok.isSel .NAI = false := by
  cases l with
  | nil => simp [takeNai] at hy
  | cons a r =>
    by_cases ha : a.tok.isSel .NAI = true
    · simp [takeNai, ha] at h
    · rw [takeNai, if_neg ha] at hy; simp at hy; subst hy; simpa using ha

/-- Pairing is greedy: after pairing, an indicator without intensity is not followed by a CAI
word, one with neither nai nor intensity is not followed by nai, and one with an intensity
that can still be negated is not followed by nai. -/
theorem pairing_maximal (ls out pre post : List Leaf) (x y : Leaf)
    (hp : ∀ l ∈ ls, Plain l) (h : pairOff ls = .ok out) (ho : out = pre ++ x :: y :: post)
    (hx : indicator x.tok = true) :
    (x.cai = none → y.tok.isSel .CAI = false) ∧
    (x.cai = none → x.neg = false → y.tok.isSel .NAI = false) ∧
    (x.cai = some .CAI ∨ x.cai = some .SAI ∨ x.cai = some .RUhE ∨ x.cai = some .PEI →
      y.tok.isSel .NAI = false) := by
  rw [← isIndicator_eq] at hx
  induction hl : ls.length using Nat.strongRecOn generalizing ls out pre with
  | ind n ih =>
  cases ls with
  | nil => rw [pairOff.eq_def] at h; injection h with h; subst h; simp at ho
  | cons a rest =>
    simp at hl
    rw [pairOff.eq_def] at h
    simp only at h
    split at h
    · split at h
      · cases h
      · rename_i c r hc
        have hlen := takeCai_length hc
        have hlen2 := takeNai_length rest
        have hsub : ∀ l ∈ r, l ∈ rest := by
          have h1 : ∀ (l : List Leaf), ∀ q ∈ (takeNai l).2, q ∈ l := by
            intro l q hq
            cases l with
            | nil => simp [takeNai] at hq
            | cons b t =>
              simp only [takeNai] at hq
              split at hq
              · exact List.mem_cons_of_mem _ hq
              · exact hq
          intro l hl
          apply h1 rest
          cases hrr : (takeNai rest).2 with
          | nil => rw [hrr] at hc; simp [takeCai] at hc; rw [hc.2] at hl; exact hl
          | cons z t =>
            rw [hrr] at hc
            simp only [takeCai] at hc
            split at hc
            · split at hc
              · cases hc
              · injection hc with hc; injection hc with _ hc; subst hc
                exact List.mem_cons_of_mem _ (h1 t l hl)
            · injection hc with hc; injection hc with _ hc; subst hc; exact hl
        split at h
        · cases h
        · rename_i out' hout
          injection h with h; subst h
          cases pre with
          | cons b pre =>
            simp only [List.cons_append, List.cons.injEq] at ho
            exact ih r.length (by omega) r out' pre
              (fun l hl => hp l (List.mem_cons_of_mem _ (hsub l hl))) hout ho.2 rfl
          | nil =>
            simp only [List.nil_append, List.cons.injEq] at ho
            obtain ⟨rfl, ho⟩ := ho
            have ha := hp a (by simp)
            obtain ⟨y', hy', ey⟩ := pairOff_head r out' hout y (by rw [ho]; rfl)
            rw [← ey]
            simp only [ha.1, ha.2, Option.or_none, Bool.false_or] at *
            cases hrr : (takeNai rest).2 with
            | nil => rw [hrr] at hc; simp [takeCai] at hc; rw [hc.2] at hy'; simp at hy'
            | cons z t =>
              rw [hrr] at hc
              by_cases hz : z.tok.isSel .CAI = true
              · simp only [takeCai, hz, if_true] at hc
                split at hc
                · cases hc
                · rename_i cc hcc
                  injection hc with hc; injection hc with hc1 hc2
                  subst hc2
                  refine ⟨fun e => ?_, fun e => ?_, fun e => ?_⟩
                  · rw [e] at hc1; cases hc1
                  · rw [e] at hc1; cases hc1
                  cases ht : (takeNai t).1 with
                  | false => exact takeNai_false ht y' hy'
                  | true =>
                    rw [ht] at hc1
                    simp only [if_true] at hc1
                    have hne : cc.withNai ≠ .CAI ∧ cc.withNai ≠ .SAI ∧ cc.withNai ≠ .RUhE ∧
                        cc.withNai ≠ .PEI := by cases cc <;> decide
                    rw [← hc1] at e
                    simp only [Option.some.injEq] at e
                    rcases e with e | e | e | e
                    · exact absurd e hne.1
                    · exact absurd e hne.2.1
                    · exact absurd e hne.2.2.1
                    · exact absurd e hne.2.2.2
              · simp only [takeCai, hz] at hc
                injection hc with hc; injection hc with hc1 hc2
                subst hc1 hc2
                simp at hy'; subst hy'
                refine ⟨fun _ => by simpa using hz, fun _ e => ?_, fun e => by simp at e⟩
                exact takeNai_false e z (by rw [hrr]; rfl)
    · rename_i hnx
      split at h
      · cases h
      · rename_i out' hout
        injection h with h; subst h
        cases pre with
        | cons b pre =>
          simp only [List.cons_append, List.cons.injEq] at ho
          exact ih rest.length (by omega) rest out' pre
            (fun l hl => hp l (List.mem_cons_of_mem _ hl)) hout ho.2 rfl
        | nil =>
          simp only [List.nil_append, List.cons.injEq] at ho
          rw [ho.1] at hnx; exact absurd hx hnx

/-! ## All three passes together -/

theorem read_flat (ns : List Node) : readAll ns = (flat ns).flatMap readLeaf := by
  induction ns with
  | nil => rfl
  | cons n ns ih =>
    simp only [readAll, flat, List.flatMap_cons, List.flatMap_append, List.cons_append] at *
    rw [ih]; simp [readNode]

/-- C12, partial.  For every text of table words that avoids the lossy patterns (`Keeps`), the
three passes finish exactly when every bu has a word to name, and reading the result aloud
gives the text with its letters formed.  Missing: the patterns excluded by `Keeps`, on which
the statement is false (see the three counterexamples below). -/
theorem folding_conserves_partial (ts : List Tok) (hlex : ∀ t ∈ ts, Lexical t) (hk : Keeps ts) :
    match letters [] ts with
    | none => handleBu (handleBahe [] ts) = .error .assertFail
    | some said => ∃ ls ns, handleBu (handleBahe [] ts) = .ok ls ∧ handleIndicators ls = .ok ns ∧
        readAll ns = said.reverse := by
  have h1 := handleBahe_keeps [] ts hk (by simp)
  have h2 := buLoop_read (handleBahe [] ts) [] h1
    (fun l hl => ⟨bahe_plain [] ts l hl, handleBahe_bahe [] ts (by simp) l hl⟩) (by simp) (by simp)
    (by simpa using LKeeps_PKeeps _ h1)
  have h3 := bahe_conserves [] ts (fun _ => rfl)
  simp only [List.reverse_nil, List.flatMap_nil] at h2
  rw [h3, List.nil_append] at h2
  split
  · rename_i h; rw [h] at h2; exact h2
  · rename_i said h
    rw [h] at h2
    obtain ⟨out, a, b, c, d, e⟩ := h2
    have hg : Good out := by
      refine ⟨c, fun l hl => ⟨d l hl, ?_⟩⟩
      rcases e l hl with ⟨w, h⟩ | h | h
      · rw [h]; exact ⟨fun h => by simp [Tok.isSel] at h, fun h => by simp [Tok.isSel] at h⟩
      · simp at h
      · exact hlex _ (handleBahe_tok [] ts l h)
    obtain ⟨paired, hp, hr⟩ := pairOff_read out hg
    obtain ⟨ns, i, _, k⟩ := indLoop_lead paired .BEGIN [] (.inl rfl) (by simp)
    refine ⟨out, ns, a, by rw [handleIndicators, hp]; exact i, ?_⟩
    rw [read_flat, k]
    simp [flat, hr, b]

/-- The passes as run on a text. -/
def folded (ts : List Tok) : Except Crash (List Tok) :=
  match handleBu (handleBahe [] ts) with
  | .error e => .error e
  | .ok ls => match handleIndicators ls with
    | .error e => .error e
    | .ok ns => .ok (readAll ns)

/-- Defect: "ba'e a bu" loses the ba'e. -/
theorem bahe_before_letter_lost : folded [cm .BAhE "ba'e", cm .A "a", cm .BU "bu"] =
    .ok [.bu "a".toList] := by decide +kernel

/-- Defect: "mi ui ba'e nai" loses the ba'e. -/
theorem bahe_before_nai_lost :
    folded [cm .KOhA "mi", cm .UI "ui", cm .BAhE "ba'e", cm .NAI "nai"] =
    .ok [cm .KOhA "mi", cm .UI "ui", cm .NAI "nai"] := by decide +kernel

/-- Defect: "mi ui cu'i nai" loses the nai. -/
theorem cuhi_nai_lost :
    folded [cm .KOhA "mi", cm .UI "ui", cm .CAI "cu'i", cm .NAI "nai"] =
    .ok [cm .KOhA "mi", cm .UI "ui", cm .CAI "cu'i"] := by decide +kernel

/-- Defect: a text that begins with bu stops on a failed assertion. -/
theorem leading_bu_aborts (b : Tok) (ts : List Tok) (hb : b.isSel .BU = true) :
    handleBu (handleBahe [] (b :: ts)) = .error .assertFail := by
  have hn : b.isSel .BAhE = false := sel_ne (by decide) hb
  cases ts with
  | nil => simp [handleBahe, handleBu, buLoop, hb]
  | cons y r => simp [handleBahe, hn, handleBu, buLoop, hb]

/-- "ba'e mi ui nai cai nai ko klama bu ui": a text meeting the hypotheses. -/
def sample : List Tok :=
  [cm .BAhE "ba'e", cm .KOhA "mi", cm .UI "ui", cm .NAI "nai", cm .CAI "cai", cm .NAI "nai",
   cm .KOhA "ko", .brivla "klama".toList, cm .BU "bu", cm .UI "ui"]

example : Keeps sample := by
  simp [Keeps, sample, cm, Tok.isSel, caiTok]
example : ∀ t ∈ sample, Lexical t := by
  simp [sample, cm, Lexical, Tok.isSel, caiTok, naiTok]
example : folded sample = .ok
  [cm .BAhE "ba'e", cm .KOhA "mi", cm .UI "ui", cm .NAI "nai", cm .CAI "cai", cm .NAI "nai",
   cm .KOhA "ko", .bu "klama".toList, cm .UI "ui"] := by decide +kernel
example : handleIndicators [{ tok := cm .FUhE "fu'e" }, { tok := cm .UI "ui" },
    { tok := cm .KOhA "mi" }, { tok := cm .UI "ui" }, { tok := cm .CAI "sai" }] =
    .ok [{ leaf := { tok := cm .FUhE "fu'e" } }, { leaf := { tok := cm .UI "ui" } },
      { leaf := { tok := cm .KOhA "mi" }, ui := [{ tok := cm .UI "ui", cai := some .SAI }] }] := by
  decide +kernel

end Jbo.Lex2
