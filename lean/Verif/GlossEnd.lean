import Verif.GlossThm
import Verif.Lex2Spec
/-!
# Glosses: what is shown of indicators, room in the buffers, labels
-/

namespace Jbo.Gloss
open Jbo.Gloss.Spec

/-! ## The display of a text -/

/-- The output gets the words and glosses from `get_lojban_word_and_translation`: every word of the tree has an item with properties, and for none of them a buffer
is too small. -/
structure Real (env : Output.Env) (d : Dict) (item : Terms.Node → Item) (props : Nat → Props) (top : Terms.Node) : Prop where
  word : ∀ x ∈ Output.Spec.words top, ∃ loj eng, wordGloss d (props x.id) (item x) = .ok (loj, eng) ∧ env.word x = (String.ofList loj, String.ofList eng)
  zei : ∀ x ∈ Output.Spec.words top, Output.Spec.compound x = true ↔ ∃ a b c, item x = .zei a b c
  name : ∀ x ∈ Output.Spec.words top, env.name x.id = true ↔ ∃ w, item x = .cmene w

/-- **The display shows the words as they are spelled**, from first to last, whatever the dictionary. -/
theorem display_spelled (env : Output.Env) (d : Dict) (item : Terms.Node → Item) (props : Nat → Props) (top : Terms.Node) (hr : Real env d item props top)
    (hp : Gram.Parse .chunks top) (fuel : Nat) (out : List Output.Call) (h : Output.output env fuel .both top = .ok out) :
    (out.filterMap Output.Spec.seen).filterMap Output.Spec.Piece.text? =
      (Output.Spec.words top).map fun x => String.ofList (stopped (item x) (spelled (props x.id) (item x))) := by
  rw [Output.display_words env top hp fuel out h]
  refine List.map_congr_left fun x hx => ?_
  obtain ⟨loj, eng, h1, h2⟩ := hr.word x hx
  rw [Output.text, h2, ← spelling d (props x.id) (item x) loj eng h1]
  have hz := hr.zei x hx
  have hn := hr.name x hx
  have hd : String.toList (if Option.all ("aeiou".toList.contains ·) (String.ofList loj).toList.head? then "." else "") =
      if loj.head?.all (· ∈ ['a', 'e', 'i', 'o', 'u']) then ['.'] else [] := by
    rw [show (String.ofList loj).toList = loj from String.toList_ofList]
    have : Option.all ("aeiou".toList.contains ·) loj.head? = loj.head?.all (· ∈ ['a', 'e', 'i', 'o', 'u']) := by
      cases loj with
      | nil => rfl
      | cons c loj => exact List.contains_eq_mem _ _
    rw [this]
    split <;> rfl
  apply String.toList_inj.1
  unfold Output.Spec.spelled
  cases he : item x with
  | zei a b c => rw [if_pos (hz.2 ⟨a, b, c, he⟩)]; rfl
  | cmene w =>
    have h3 : Output.Spec.compound x = false := Bool.eq_false_iff.2 fun e => by obtain ⟨a, b, c, e⟩ := hz.1 e; rw [he] at e; cases e
    rw [h3, hn.2 ⟨w, he⟩, if_neg (by decide), String.toList_append, String.toList_append, hd]
    simp [stopped]
  | _ =>
    have h3 : Output.Spec.compound x = false := Bool.eq_false_iff.2 fun e => by obtain ⟨a, b, c, e⟩ := hz.1 e; rw [he] at e; cases e
    have h4 : env.name x.id = false := Bool.eq_false_iff.2 fun e => by obtain ⟨w, e⟩ := hn.1 e; rw [he] at e; cases e
    rw [h3, h4, if_neg (by decide), String.toList_append, String.toList_append, hd]
    simp [stopped]

/-! ## Indicators -/

/-- The text of a token. -/
def leafText (x : Lex2.Leaf) : Word := (Lex2Spec.wordOf x.tok).getD []

/-- The text shown for a token with what `pair_off_indicator_suffixes` attached to it: see `spelling`. -/
def leafShown (x : Lex2.Leaf) : Word :=
  if x.tok.isSel .UI || x.tok.isSel .CAI then withSuffixes (leafText x) x.neg x.cai else leafText x

/-- The letters of a text. -/
def letters (w : Word) : Word := w.filter (· ≠ ' ')

/-- Two words of which the second is not shown. -/
def Lost (a b : Lex2.Leaf) : Prop :=
  (Lex2.isIndicator a.tok = true ∧ a.tok.isSel .UI = false ∧ a.tok.isSel .CAI = false ∧ (b.tok.isSel .NAI = true ∨ b.tok.isSel .CAI = true)) ∨
    (Lex2.caiCode a.tok = some .CUhI ∧ b.tok.isSel .NAI = true)

theorem takeNai_true {l : List Lex2.Leaf} (h : (Lex2.takeNai l).1 = true) : ∃ y, y.tok.isSel .NAI = true ∧ l = y :: (Lex2.takeNai l).2 := by
  cases l with
  | nil => cases h
  | cons y r =>
    rw [Lex2.takeNai] at h ⊢
    split
    · rename_i hy
      exact ⟨y, hy, rfl⟩
    · rename_i hy
      rw [if_neg hy] at h
      cases h

theorem takeNai_false {l : List Lex2.Leaf} (h : (Lex2.takeNai l).1 = false) : (Lex2.takeNai l).2 = l := by
  cases l with
  | nil => rfl
  | cons y r =>
    rw [Lex2.takeNai] at h ⊢
    split
    · rename_i hy
      rw [if_pos hy] at h
      cases h
    · rfl

theorem takeCai_ok {l r : List Lex2.Leaf} {c : Option Lex2.Cai} (h : Lex2.takeCai l = .ok (c, r)) :
    (c = none ∧ l = r) ∨ (∃ z c0, z.tok.isSel .CAI = true ∧ Lex2.caiCode z.tok = some c0 ∧
      ((c = some c0 ∧ l = z :: r) ∨ ∃ y, y.tok.isSel .NAI = true ∧ c = some c0.withNai ∧ l = z :: y :: r)) := by
  cases l with
  | nil => cases h; exact .inl ⟨rfl, rfl⟩
  | cons z t =>
    rw [Lex2.takeCai] at h
    split at h
    · rename_i hz
      split at h
      · cases h
      · rename_i c0 hc
        cases h
        refine .inr ⟨z, c0, hz, hc, ?_⟩
        cases hn : (Lex2.takeNai t).1 with
        | true =>
          obtain ⟨y, hy, e⟩ := takeNai_true hn
          exact .inr ⟨y, hy, rfl, congrArg (z :: ·) e⟩
        | false => exact .inl ⟨rfl, by rw [takeNai_false hn]⟩
    · cases h
      exact .inl ⟨rfl, rfl⟩

theorem caiCode_text {z : Lex2.Leaf} {c : Lex2.Cai} (h : Lex2.caiCode z.tok = some c) : leafText z = degreeWord c := by
  unfold Lex2.caiCode at h
  split at h
  · rename_i s w hz
    have ht : leafText z = w := by unfold leafText; rw [hz]; rfl
    rw [ht]
    split at h
    · rename_i e; cases h; rw [e]; decide
    split at h
    · rename_i e; cases h; rw [e]; decide
    split at h
    · rename_i e; cases h; rw [e]; decide
    split at h
    · rename_i e; cases h; rw [e]; decide
    split at h
    · rename_i e; cases h; rw [e]; decide
    · cases h
  · cases h

theorem withNai_word {t : Tok} {c : Lex2.Cai} (h : Lex2.caiCode t = some c) (hc : c ≠ .CUhI) : degreeWord c.withNai = degreeWord c ++ "nai".toList := by
  cases c with
  | CUhI => exact absurd rfl hc
  | CAI | SAI | RUhE | PEI => decide
  | _ =>
    exfalso
    unfold Lex2.caiCode at h
    split at h
    · repeat' split at h
      all_goals cases h
    · cases h

/-- **No word of an indicator is lost.**  The words after an indicator that are taken together with it, `nai` and the words for degrees with their own `nai`, are all
shown, in their order.  Full claim: without the last hypothesis; see `nai_lost`. -/
theorem indicators_shown_partial (ls out : List Lex2.Leaf) (h : Lex2.pairOff ls = .ok out) (hf : ∀ x ∈ ls, x.neg = false ∧ x.cai = none)
    (hn : ∀ x ∈ ls, x.tok.isSel .NAI = true → leafText x = "nai".toList) (hl : ∀ a b, [a, b] <:+: ls → ¬ Lost a b) :
    letters (out.flatMap leafShown) = letters (ls.flatMap leafText) := by
  induction hk : ls.length using Nat.strongRecOn generalizing ls out with
  | ind k ih =>
    subst hk
    cases ls with
    | nil =>
      rw [Lex2.pairOff] at h
      cases h
      rfl
    | cons x rest =>
      rw [Lex2.pairOff] at h
      have hx := hf x (List.mem_cons_self ..)
      split at h
      · rename_i hi
        split at h
        · cases h
        · rename_i c r hc
          split at h
          · cases h
          · rename_i out' ho
            cases h
            -- the words taken
            have key : ∃ us : List Lex2.Leaf, rest = us ++ r ∧ letters (leafShown { x with neg := x.neg || (Lex2.takeNai rest).1, cai := c.or x.cai }) =
                letters (leafText x ++ us.flatMap leafText) := by
              have hnai : ∀ y, y ∈ rest → y.tok.isSel .NAI = true → leafText y = "nai".toList := fun y hy => hn y (List.mem_cons_of_mem _ hy)
              obtain ⟨vs, hvs, hv⟩ : ∃ vs : List Lex2.Leaf, rest = vs ++ (Lex2.takeNai rest).2 ∧ vs.flatMap leafText = (if (Lex2.takeNai rest).1 then "nai".toList else []) ∧
                  ((Lex2.takeNai rest).1 = true → ∃ y, vs = [y] ∧ y.tok.isSel .NAI = true) ∧ ((Lex2.takeNai rest).1 = false → vs = []) := by
                cases hb : (Lex2.takeNai rest).1 with
                | true =>
                  obtain ⟨y, hy, e⟩ := takeNai_true hb
                  refine ⟨[y], e, ?_, fun _ => ⟨y, rfl, hy⟩, fun e => by cases e⟩
                  rw [List.flatMap_cons, hnai y (by rw [e]; exact List.mem_cons_self ..) hy]
                  rfl
                | false => exact ⟨[], (takeNai_false hb).symm, rfl, fun e => (by cases e), fun _ => rfl⟩
              obtain ⟨zs, hzs, hz⟩ : ∃ zs : List Lex2.Leaf, (Lex2.takeNai rest).2 = zs ++ r ∧
                  letters (degreePart c) = letters (zs.flatMap leafText) ∧
                  (c ≠ none → ∃ z zs', zs = z :: zs' ∧ z.tok.isSel .CAI = true) ∧ (c = none → zs = []) := by
                rcases takeCai_ok hc with ⟨rfl, e⟩ | ⟨z, c0, hz, hzc, ⟨rfl, e⟩ | ⟨y, hy, rfl, e⟩⟩
                · exact ⟨[], e, rfl, fun e => absurd rfl e, fun _ => rfl⟩
                · refine ⟨[z], e, ?_, fun _ => ⟨z, [], rfl, hz⟩, fun e => by cases e⟩
                  rw [List.flatMap_cons, List.flatMap_nil, List.append_nil, caiCode_text hzc]
                  rfl
                · refine ⟨[z, y], e, ?_, fun _ => ⟨z, [y], rfl, hz⟩, fun e => by cases e⟩
                  have hcu : c0 ≠ .CUhI := by
                    rintro rfl
                    refine hl z y ⟨x :: vs, r, ?_⟩ (.inr ⟨hzc, hy⟩)
                    rw [List.append_assoc, List.cons_append, List.cons_append, List.cons_append, List.nil_append, ← e, ← hvs]
                  have hyn : leafText y = "nai".toList := hnai y (by rw [hvs, e]; simp) hy
                  show letters (' ' :: degreeWord c0.withNai) = letters (leafText z ++ (leafText y ++ []))
                  rw [hyn, withNai_word hzc hcu, caiCode_text hzc]
                  rfl
              refine ⟨vs ++ zs, by rw [List.append_assoc, ← hzs, ← hvs], ?_⟩
              unfold leafShown
              have ht : leafText { x with neg := x.neg || (Lex2.takeNai rest).1, cai := c.or x.cai } = leafText x := rfl
              simp only [ht, hx.1, hx.2, Option.or_none, Bool.false_or]
              split
              · rw [List.flatMap_append, hv.1]
                show letters (leafText x ++ (if (Lex2.takeNai rest).1 then "nai".toList else []) ++ degreePart c) = _
                unfold letters at hz ⊢
                simp only [List.filter_append, hz.1, List.append_assoc]
              · rename_i hu
                rw [Bool.or_eq_true, not_or] at hu
                have e1 : vs = [] := by
                  cases hb : (Lex2.takeNai rest).1 with
                  | false => exact hv.2.2 hb
                  | true =>
                    obtain ⟨y, e, hy⟩ := hv.2.1 hb
                    refine absurd (.inl ⟨hi, by simpa using hu.1, by simpa using hu.2, .inl hy⟩) (hl x y ⟨[], (Lex2.takeNai rest).2, ?_⟩)
                    rw [List.nil_append, List.cons_append]
                    rw [e] at hvs
                    rw [hvs.symm]
                have e2 : zs = [] := by
                  by_cases hb : c = none
                  · exact hz.2.2 hb
                  · obtain ⟨z, zs', e, hz⟩ := hz.2.1 hb
                    refine absurd (.inl ⟨hi, by simpa using hu.1, by simpa using hu.2, .inr hz⟩) (hl x z ⟨[], zs' ++ r, ?_⟩)
                    rw [e1, hzs, e] at hvs
                    rw [hvs]
                    rfl
                rw [e1, e2]
                show letters (leafText x) = letters (leafText x ++ [])
                rw [List.append_nil]
            obtain ⟨us, hus, hshow⟩ := key
            have hr := ih r.length (by rw [hus]; simp; omega) r out' ho (fun y hy => hf y (by rw [hus]; simp [hy]))
              (fun y hy => hn y (by rw [hus]; simp [hy])) (fun a b hab => hl a b (hab.trans ⟨x :: us, [], by rw [hus]; simp⟩)) rfl
            have hus' : rest.flatMap leafText = us.flatMap leafText ++ r.flatMap leafText := by rw [hus, List.flatMap_append]
            rw [List.flatMap_cons, List.flatMap_cons, hus']
            unfold letters at hr hshow ⊢
            rw [List.filter_append, hshow, hr]
            simp only [List.filter_append, List.append_assoc]
      · split at h
        · cases h
        · rename_i hi out' ho
          cases h
          have hr := ih rest.length (by simp) rest out' ho (fun y hy => hf y (List.mem_cons_of_mem _ hy)) (fun y hy => hn y (List.mem_cons_of_mem _ hy))
            (fun a b hab => hl a b (hab.trans ⟨[x], [], by simp⟩)) rfl
          have hs : leafShown x = leafText x := by
            unfold leafShown
            rw [hx.1, hx.2]
            unfold withSuffixes
            split
            · rw [degreePart, List.append_nil]
              exact List.append_nil _
            · rfl
          rw [List.flatMap_cons, List.flatMap_cons, hs]
          unfold letters at hr ⊢
          rw [List.filter_append, List.filter_append, hr]

end Jbo.Gloss
