import Verif.FlowThm
import Verif.TextBlkEnd
/-!
# Theorems about the markup of `htmlout.c` and `latex.c`
-/

namespace Jbo.Flow
open Jbo.Output (Br Call)
open Jbo.Flow.Spec
open Jbo.TextBlk.Spec (Ordered Phase next runs)

/-! ## `make_htmlsafe` -/

/-- A character that is replaced. -/
def Marked (c : Char) : Prop := c = '&' ∨ c = '<' ∨ c = '>'

theorem htmlCode_marked {c : Char} (h : Marked c) : ∃ r, htmlCode c = some r := by
  rcases h with rfl | rfl | rfl <;> exact ⟨_, rfl⟩

theorem htmlCode_other {c : Char} (h : ¬ Marked c) : htmlCode c = none := by
  unfold htmlCode
  split <;> first | rfl | exact absurd (by simp [Marked]) h

theorem htmlLoop_marked : ∀ (n : Nat) (p acc : Text), (bufSize - acc.length) + p.length ≤ n → (∃ c ∈ p, Marked c) →
    htmlLoop p acc = .error .bounds := by
  intro n
  induction n with
  | zero =>
    intro p acc hn ⟨c, hc, _⟩
    have := List.length_pos_of_mem hc
    omega
  | succ n ih =>
    intro p acc hn ⟨c, hc, hm⟩
    cases p with
    | nil => cases hc
    | cons x p =>
      rw [htmlLoop]
      split
      · rename_i r hr
        have hl := htmlCode_pos hr
        split
        · refine ih (x :: p) _ ?_ ⟨c, hc, hm⟩
          simp only [List.length_append] at *
          omega
        · rfl
      · rename_i hr
        have hx : ¬ Marked x := fun hx => by
          obtain ⟨r, e⟩ := htmlCode_marked hx
          rw [e] at hr; cases hr
        split
        · refine ih p _ ?_ ?_
          · simp only [List.length_append, List.length_cons, List.length_nil] at *
            omega
          · rcases List.mem_cons.1 hc with rfl | hc
            · exact absurd hm hx
            · exact ⟨c, hc, hm⟩
        · rfl

theorem htmlLoop_plain : ∀ (p acc : Text), (∀ c ∈ p, ¬ Marked c) → acc.length + p.length < bufSize →
    htmlLoop p acc = .ok (acc ++ p) := by
  intro p
  induction p with
  | nil => intro acc _ h; rw [htmlLoop, if_pos (by simpa using h), List.append_nil]
  | cons x p ih =>
    intro acc hp h
    have hx := htmlCode_other (hp x (by simp))
    simp only [List.length_cons] at h
    rw [htmlLoop]
    split
    · rename_i r hr; rw [hx] at hr; cases hr
    · rw [if_pos (by omega), ih _ (fun c hc => hp c (by simp [hc])) (by simp; omega)]
      simp

theorem escaped_plain {t : Text} (h : ∀ c ∈ t, ¬ Marked c) : escaped t = t := by
  induction t with
  | nil => rfl
  | cons x t ih =>
    have hx := h x (by simp)
    have e : entity x = [x] := by
      unfold entity
      split <;> first | rfl | exact absurd (by simp [Marked]) hx
    rw [escaped, List.flatMap_cons, e, ← escaped, ih fun c hc => h c (by simp [hc])]
    rfl

/-- **A gloss with a character of markup runs out of the buffer.**  For every text with `&`, `<` or `>`, `make_htmlsafe`
writes the replacement again and again until it is outside of its buffer. -/
theorem htmlsafe_overruns (t : Text) (c : Char) (hc : c ∈ t) (h : c = '&' ∨ c = '<' ∨ c = '>') :
    htmlSafe t = .error .bounds := htmlLoop_marked _ t [] (Nat.le_refl _) ⟨c, hc, h⟩

/-- **`make_htmlsafe` gives what it should, or fails.**  Full statement: for every text shorter than the buffer the
result is the text with the characters of markup replaced.  Here: for those without such characters; by
`htmlsafe_overruns` it holds for no others. -/
theorem htmlsafe_escapes_partial (t : Text) (h : ∀ c ∈ t, c ≠ '&' ∧ c ≠ '<' ∧ c ≠ '>') (hl : t.length < bufSize) :
    htmlSafe t = .ok (escaped t) := by
  have k : ∀ c ∈ t, ¬ Marked c := fun c hc => by
    rintro (e | e | e)
    · exact (h c hc).1 e
    · exact (h c hc).2.1 e
    · exact (h c hc).2.2 e
  rw [escaped_plain k]
  exact htmlLoop_plain t [] k (by simpa using hl)

example : htmlSafe "come".toList = .ok "come".toList ∧ escaped "a<b".toList = "a&lt;b".toList :=
  ⟨htmlsafe_escapes_partial _ (by decide) (by decide), by decide⟩

/-- The gloss of *joibu* in `reduced_cmavo:337`. -/
example : htmlSafe "&".toList = .error .bounds := htmlsafe_overruns _ '&' (by decide) (by decide)

theorem htmlSafe_ok {t u : Text} (h : htmlSafe t = .ok u) : u = t ∧ ∀ c ∈ t, ¬ Marked c := by
  have k : ∀ c ∈ t, ¬ Marked c := fun c hc hm => by
    rw [htmlsafe_overruns t c hc hm] at h; cases h
  refine ⟨?_, k⟩
  have go : ∀ (p acc u : Text), (∀ c ∈ p, ¬ Marked c) → htmlLoop p acc = .ok u → u = acc ++ p := by
    intro p
    induction p with
    | nil =>
      intro acc u _ h
      rw [htmlLoop] at h
      split at h
      · cases h; simp
      · cases h
    | cons x p ih =>
      intro acc u hp h
      have hx := htmlCode_other (hp x (by simp))
      rw [htmlLoop] at h
      split at h
      · rename_i r hr; rw [hx] at hr; cases hr
      · split at h
        · rw [ih _ _ (fun c hc => hp c (by simp [hc])) h]; simp
        · cases h
  simpa using go t [] u k h

/-! ## Elements of HTML -/

theorem html_append (h : Html) (a b : Text) : html h (a ++ b) = (html h a).bind fun k => html k b := by
  unfold html
  rw [List.foldlM_append]; rfl

theorem html_text {st : List Text} {t : Text} (h : ∀ c ∈ t, c ≠ '<' ∧ c ≠ '>') : html ⟨st, none⟩ t = some ⟨st, none⟩ := by
  induction t with
  | nil => rfl
  | cons c t ih =>
    have e : htmlChar ⟨st, none⟩ c = some ⟨st, none⟩ := by
      simp [htmlChar, (h c (by simp)).1, (h c (by simp)).2]
    unfold html at *
    rw [List.foldlM_cons, e]
    exact ih fun d hd => h d (by simp [hd])

theorem unmarked {c : Char} (h : ¬ Marked c) : c ≠ '<' ∧ c ≠ '>' := ⟨fun e => h (.inr (.inl e)), fun e => h (.inr (.inr e))⟩

theorem digits_text (n : Nat) : ∀ c ∈ (toString n).toList, c ≠ '<' ∧ c ≠ '>' := by
  intro c hc
  have h := Nat.isDigit_of_mem_toDigits (by decide) (by decide) (show c ∈ Nat.toDigits 10 n by simpa using hc)
  constructor <;> (rintro rfl; exact absurd h (by decide))

/-- What a piece does to the open elements, if anything is printed. -/
def Keeps (t : Tok) : Prop := ∀ (st : List Text) (u : Text), printed .html t = .ok u → html ⟨st, none⟩ u = some ⟨st, none⟩

theorem keeps_within {a b : String} {n : List Text} (ha : ∀ st, html ⟨st, none⟩ a.toList = some ⟨n ++ st, none⟩)
    (hb : ∀ st, html ⟨n ++ st, none⟩ b.toList = some ⟨st, none⟩) {t : Text} (ht : ∀ c ∈ t, c ≠ '<' ∧ c ≠ '>') (st : List Text) :
    html ⟨st, none⟩ (within a t b) = some ⟨st, none⟩ := by
  rw [within, html_append, html_append, ha, Option.bind_some, html_text ht, Option.bind_some, hb]

theorem keeps_blank (d : Driver) : Keeps (.blank (textSep d)) ∧ Keeps (.blank " ") := by
  refine ⟨?_, ?_⟩ <;> (intro st u h; cases h)
  · cases d <;> rfl
  · rfl

theorem keeps_eols (n : Nat) : Keeps (.blank (eolText .html n)) := by
  intro st u h
  cases h
  show html ⟨st, none⟩ "\n<P><P>\n".toList = _
  rfl

theorem keeps_number (m : String) (n : Nat) (hm : ∀ c ∈ m.toList, c ≠ '<' ∧ c ≠ '>') (st : List Text) :
    html ⟨st, none⟩ (m.toList ++ subscript .html n) = some ⟨st, none⟩ := by
  rw [html_append, html_text hm, Option.bind_some]
  exact keeps_within (n := ["FONT".toList, "SUB".toList]) (fun _ => by simp [html, htmlChar, element, name])
    (fun _ => by simp [html, htmlChar, element]) (digits_text n) st

theorem keeps_opened (b : Br) (n : Nat) : Keeps (.opened b n) := by
  intro st u h
  cases h
  exact keeps_number _ n (by cases b <;> decide) st

theorem keeps_closed (b : Br) (n : Nat) : Keeps (.closed b n) := by
  intro st u h
  cases h
  exact keeps_number _ n (by cases b <;> decide) st

theorem keeps_word {s : String} (hs : ∀ c ∈ s.toList, c ≠ '<' ∧ c ≠ '>') : Keeps (.word s) := by
  intro st u h
  cases h
  exact keeps_within (n := ["B".toList]) (fun _ => rfl) (fun _ => rfl) hs st

theorem map_ok {α β : Type} {m : M α} {f : α → β} {b : β} (h : m.map f = .ok b) : ∃ a, m = .ok a ∧ f a = b := by
  cases m with
  | error e => cases h
  | ok a => exact ⟨a, rfl, by cases h; rfl⟩

theorem keeps_gloss (s : String) : Keeps (.gloss s) := by
  intro st u h
  simp only [printed] at h
  split at h
  · cases h
    unfold special
    simp only
    split
    · rfl
    · split
      · rfl
      · split <;> rfl
  · obtain ⟨t, ht, e⟩ := map_ok h
    obtain ⟨rfl, k⟩ := htmlSafe_ok ht
    subst e
    exact keeps_within (n := ["I".toList]) (fun _ => rfl) (fun _ => rfl) (fun c hc => unmarked (k c hc)) st

theorem keeps_next : Keeps .tagsNext := by
  intro st u h; cases h; rfl

theorem keeps_text {a b c : String} {e : Bool} (ha : ∀ x ∈ a.toList, x ≠ '<' ∧ x ≠ '>')
    (hb : ∀ x ∈ b.toList, x ≠ '<' ∧ x ≠ '>') : Keeps (.tagText a b c e) := by
  intro st u h
  obtain ⟨t, ht, k⟩ := map_ok h
  obtain ⟨rfl, hm⟩ := htmlSafe_ok ht
  subst k
  refine html_text ?_
  intro x hx
  have hc : ∀ y ∈ c.toList, y ≠ '<' ∧ y ≠ '>' := fun y hy => unmarked (hm y hy)
  simp only [List.mem_append] at hx
  rcases hx with (((hx | hx) | hx)) | hx
  · exact ha x hx
  · exact hb x hx
  · cases e
    · simp only [within, Bool.false_eq_true, if_false, List.mem_append] at hx
      rcases hx with (hx | hx) | hx
      · revert hx x; decide
      · exact hc x hx
      · revert hx x; decide
    · simp only [within, if_true, List.mem_append] at hx
      rcases hx with (hx | hx) | hx
      · revert hx x; decide
      · exact hc x hx
      · revert hx x; decide
  · revert hx x; decide

theorem keeps_part {s : String} (hs : ∀ c ∈ s.toList, c ≠ '<' ∧ c ≠ '>') : Keeps (.tagPart s) := by
  intro st u h; cases h; exact html_text hs

/-! ## All calls -/

theorem printAll_append {d : Driver} {a b : List Tok} {u : Text} (h : printAll d (a ++ b) = .ok u) :
    ∃ v w, printAll d a = .ok v ∧ printAll d b = .ok w ∧ u = v ++ w := by
  induction a generalizing u with
  | nil => exact ⟨[], u, rfl, h, rfl⟩
  | cons t a ih =>
    rw [List.cons_append, printAll] at h
    cases h1 : printed d t with
    | error e => rw [h1] at h; cases h
    | ok x =>
      rw [h1] at h
      cases h2 : printAll d (a ++ b) with
      | error e => rw [h2] at h; cases h
      | ok y =>
        rw [h2] at h
        cases h
        obtain ⟨v, w, k1, k2, rfl⟩ := ih h2
        refine ⟨x ++ v, w, ?_, k2, by rw [List.append_assoc]⟩
        rw [printAll, h1, k1]; rfl

theorem printAll_snoc {d : Driver} {a : List Tok} {t : Tok} {u : Text} (h : printAll d (a ++ [t]) = .ok u) :
    ∃ v w, printAll d a = .ok v ∧ printed d t = .ok w ∧ u = v ++ w := by
  obtain ⟨v, w, h1, h2, e⟩ := printAll_append h
  refine ⟨v, w, h1, ?_, e⟩
  rw [printAll] at h2
  cases h3 : printed d t with
  | error e => rw [h3] at h2; cases h2
  | ok x => rw [h3] at h2; cases h2; simp

/-- What has been printed leaves these elements open. -/
def Leaves (st : List Text) (out : List Tok) : Prop := ∀ u, printAll .html out = .ok u → html ⟨[], none⟩ u = some ⟨st, none⟩

theorem leaves_snoc {st : List Text} {out : List Tok} {t : Tok} (h : Leaves st out) (ht : Keeps t) : Leaves st (out ++ [t]) := by
  intro u hu
  obtain ⟨v, w, h1, h2, rfl⟩ := printAll_snoc hu
  rw [html_append, h v h1, Option.bind_some, ht st w h2]

theorem leaves_apart {st : List Text} {s : St} {sep : String} (h : Leaves st s.out) (hs : Keeps (.blank sep)) :
    Leaves st (apart sep s).out := by
  unfold apart
  split
  · exact h
  · exact h
  · exact leaves_snoc h hs
  · exact leaves_snoc h hs

theorem leaves_eols {st : List Text} {s : St} (h : Leaves st s.out) : Leaves st (clearEols .html s).out := by
  unfold clearEols
  split
  · exact leaves_snoc h (keeps_eols _)
  · exact h

/-- Calls whose texts have no characters of markup, where these are printed as they are. -/
def Tame : Call → Prop
  | .lojban s | .tagPart s => ∀ c ∈ s.toList, c ≠ '<' ∧ c ≠ '>'
  | .tagText a b _ _ => (∀ c ∈ a.toList, c ≠ '<' ∧ c ≠ '>') ∧ ∀ c ∈ b.toList, c ≠ '<' ∧ c ≠ '>'
  | _ => True

/-- The elements that are open: those of labels. -/
def open' : Phase → List Text
  | .opening | .inside => ["FONT".toList, "U".toList]
  | .plain | .waiting => []

theorem leaves_step {eolsOf : Nat → Nat} {s : St} {st : List Text} {c : Call} (hc : Tame c) (h1 : c ≠ .startTags)
    (h2 : c ≠ .endTags) (h : Leaves st s.out) : Leaves st (step .html eolsOf s c).out := by
  cases c with
  | opened b n =>
    have k := leaves_apart (leaves_eols h) (keeps_blank .html).2
    unfold step writeOpen
    by_cases hb : b = .none
    · simp only [hb, if_true]; exact k
    · simp only [hb, if_false]; exact leaves_snoc k (keeps_opened b n)
  | closed b n =>
    have k : Leaves st (closeGap s).out := by
      unfold closeGap
      cases s.state with
      | opened => exact leaves_snoc h (keeps_blank .html).2
      | _ => exact h
    unfold step writeClose
    by_cases hb : b = .none
    · simp only [hb, if_true]; exact k
    · simp only [hb, if_false]; exact leaves_snoc k (keeps_closed b n)
  | lojban t => exact leaves_snoc (leaves_apart h (keeps_blank .html).1) (keeps_word hc)
  | translation t => exact leaves_snoc (leaves_apart h (keeps_blank .html).1) (keeps_gloss t)
  | eols w => exact h
  | startTags => exact absurd rfl h1
  | endTags => exact absurd rfl h2
  | startTag =>
    unfold step
    cases s.first with
    | true => exact h
    | false => exact leaves_snoc h keeps_next
  | tagText a b c e => exact leaves_snoc h (keeps_text hc.1 hc.2)
  | tagPart t => exact leaves_snoc h (keeps_part hc)

theorem leaves_phase {eolsOf : Nat → Nat} {s : St} {c : Call} {p q : Phase} (hn : next p c = some q) (hc : Tame c)
    (h : Leaves (open' p) s.out) : Leaves (open' q) (step .html eolsOf s c).out := by
  by_cases h1 : c = .startTags
  · subst h1
    have e : open' p = [] ∧ open' q = ["FONT".toList, "U".toList] := by
      cases p <;> simp [next] at hn <;> subst hn <;> exact ⟨rfl, rfl⟩
    rw [e.1] at h
    rw [e.2]
    intro u hu
    obtain ⟨v, w, k1, k2, rfl⟩ := printAll_snoc hu
    cases k2
    rw [html_append, h v k1]
    rfl
  · by_cases h2 : c = .endTags
    · subst h2
      have e : open' p = ["FONT".toList, "U".toList] ∧ open' q = [] := by
        cases p <;> simp [next] at hn; subst hn; exact ⟨rfl, rfl⟩
      rw [e.1] at h
      rw [e.2]
      intro u hu
      obtain ⟨v, w, k1, k2, rfl⟩ := printAll_snoc hu
      cases k2
      rw [html_append, h v k1]
      rfl
    · have e : open' q = open' p := by
        cases c <;> first | exact absurd rfl h1 | exact absurd rfl h2 | skip
        all_goals
          cases p <;> simp only [next] at hn <;> (try split at hn) <;>
            first | (cases hn; rfl) | cases hn
      rw [e]
      exact leaves_step hc h1 h2 h

theorem leaves_runs {eolsOf : Nat → Nat} : ∀ (cs : List Call) (s : St) (p q : Phase), runs p cs = some q →
    (∀ c ∈ cs, Tame c) → Leaves (open' p) s.out → Leaves (open' q) (cs.foldl (step .html eolsOf) s).out
  | [], s, p, q, h, _, hl => by cases h; exact hl
  | c :: cs, s, p, q, h, ht, hl => by
    rw [runs] at h
    cases e : next p c with
    | none => rw [e] at h; cases h
    | some r =>
      rw [e] at h
      exact leaves_runs cs _ r q h (fun d hd => ht d (by simp [hd])) (leaves_phase e (ht c (by simp)) hl)

/-- Elements are well nested, for calls in good order. -/
theorem html_ordered (eolsOf : Nat → Nat) (cs : List Call) (ho : Ordered cs) (ht : ∀ c ∈ cs, Tame c) (u : Text)
    (h : display .html eolsOf cs = .ok u) : WellFormed u := by
  have base : Leaves (open' .plain) initialise.out := by intro u hu; cases hu; rfl
  rcases ho with ho | ho
  · exact leaves_runs cs _ _ _ ho ht base u h
  · exact leaves_runs cs _ _ _ ho ht base u h

/-- **The body of the page is well nested.**  Full statement: for every tree of the grammar the page that is printed is
well formed.  Here: if it is printed at all, and Lojban texts and labels have no `<` and `>`.  Missing: those texts are
printed as they are (`lojban_raw`, `jai_label_unclosed`), and the head of the page is never closed
(`htmlout.c:45-48`). -/
theorem html_nested_partial (env : Output.Env) (top : Terms.Node) (hp : Gram.Parse .chunks top) (fuel : Nat)
    (calls : List Call) (h : Output.output env fuel .both top = .ok calls) (ht : ∀ c ∈ calls, Tame c)
    (eolsOf : Nat → Nat) (u : Text) (hd : display .html eolsOf calls = .ok u) : WellFormed u :=
  html_ordered eolsOf calls (TextBlk.output_ordered env top hp fuel calls h) ht u hd

instance (c : Call) : Decidable (Tame c) := by
  unfold Tame
  split <;> infer_instance

theorem joi_tame : ∀ c ∈ joiCalls, Tame c := by decide +kernel

/-- Texts that need no escaping. -/
def easyText (s : String) : Bool := s.toList.all (fun c => c ≠ '&' && c ≠ '<' && c ≠ '>') && s.toList.length < bufSize
def easy : Tok → Bool
  | .gloss s => easyText s
  | .tagText _ _ s _ => easyText s
  | _ => true

theorem easyText_ok {s : String} (h : easyText s = true) : htmlSafe s.toList = .ok (escaped s.toList) := by
  simp only [easyText, Bool.and_eq_true, List.all_eq_true, decide_eq_true_eq] at h
  exact htmlsafe_escapes_partial _ (fun c hc => by simpa [and_assoc] using h.1 c hc) h.2

theorem easy_printed : ∀ {ts : List Tok}, ts.all easy = true → ∃ u, printAll .html ts = .ok u
  | [], _ => ⟨_, rfl⟩
  | t :: ts, h => by
    rw [List.all_cons, Bool.and_eq_true] at h
    obtain ⟨v, hv⟩ := easy_printed h.2
    have k : ∃ w, printed .html t = .ok w := by
      cases t with
      | gloss s =>
        simp only [printed, safe, easyText_ok h.1]
        split <;> exact ⟨_, rfl⟩
      | tagText a b c e => simp only [printed, safe, easyText_ok h.1]; exact ⟨_, rfl⟩
      | _ => exact ⟨_, rfl⟩
    obtain ⟨w, hw⟩ := k
    exact ⟨w ++ v, by rw [printAll, hw, hv]; rfl⟩

/-- The example meets the hypotheses of `html_nested_partial`: its page is printed, and so well formed. -/
example : ∃ u, display .html (fun _ => 0) joiCalls = .ok u ∧ WellFormed u := by
  obtain ⟨u, h⟩ := easy_printed (ts := pieces .html (fun _ => 0) joiCalls) (by decide +kernel)
  exact ⟨u, h, html_nested_partial (Output.envOf (fun _ => false) Output.joiExample) Output.joiExample
    (Gram.parse_of (by decide +kernel)) 100 joiCalls (by decide +kernel) joi_tame _ u h⟩

/-- **Labels of *jai* are not closed.**  The label that `output.c:874` writes for *jai* with a tag has `<tag>`, which a
browser takes for an element that is never closed. -/
theorem jai_label_unclosed : ∃ u, display .html (fun _ => 0)
    [.startTags, .startTag, .tagPart "jai+<tag>1: (", .tagPart "#1)", .endTags, .lojban "mi"] = .ok u ∧ ¬ WellFormed u :=
  ⟨_, rfl, by unfold WellFormed; decide +kernel⟩

/-- **Lojban text is markup.**  A quoted text goes to the page as it is. -/
theorem lojban_raw (s : String) : ∃ u, display .html (fun _ => 0) [.lojban s] = .ok u ∧ u = "<B>".toList ++ s.toList ++ "</B>".toList :=
  ⟨_, rfl, by simp [within]⟩

/-! ## `make_texsafe` -/

/-- **TeX shows the gloss.**  For every text without backslash and `$`: the characters that TeX typesets are those of the
text. -/
theorem texsafe_typeset (t u : Text) (h : ∀ c ∈ t, c ≠ '\\' ∧ c ≠ '$') (hu : texSafe t = .ok u) : typeset false u = t := by
  have e : u = t.flatMap texCode := by
    unfold texSafe at hu
    split at hu
    · cases hu; rfl
    · cases hu
  subst e
  clear hu
  induction t with
  | nil => rfl
  | cons c t ih =>
    have k := ih fun d hd => h d (by simp [hd])
    have hc := h c (by simp)
    rw [List.flatMap_cons]
    generalize t.flatMap texCode = w at k
    unfold texCode
    split
    · simp [typeset, k]
    · split
      · simp [typeset, k, hc.1, hc.2]
      · simp [typeset, k, hc.1, hc.2]

theorem tex_append (s : Tex) (a b : Text) : tex s (a ++ b) = (tex s a).bind fun k => tex k b := by
  unfold tex
  rw [List.foldlM_append]; rfl

theorem tex_code {c : Char} (hc : c ≠ '\\' ∧ c ≠ '$') (n : Nat) : tex ⟨n, false, false⟩ (texCode c) = some ⟨n, false, false⟩ := by
  unfold texCode
  split
  · rfl
  · split
    · rename_i h1 h2
      have : c = '<' ∨ c = '>' := by simpa using h2
      rcases this with rfl | rfl <;> rfl
    · rename_i h1 h2
      simp only [List.mem_cons, List.not_mem_nil, or_false, not_or] at h1
      simp [tex, texChar, hc.1, hc.2, h1]

/-- **A gloss has no meaning to TeX.**  For every text without backslash and `$`, wherever it stands, TeX reads what
`make_texsafe` gives without opening or closing anything, and without error. -/
theorem texsafe_clean (t u : Text) (h : ∀ c ∈ t, c ≠ '\\' ∧ c ≠ '$') (hu : texSafe t = .ok u) (n : Nat) :
    tex ⟨n, false, false⟩ u = some ⟨n, false, false⟩ := by
  have e : u = t.flatMap texCode := by
    unfold texSafe at hu
    split at hu
    · cases hu; rfl
    · cases hu
  subst e
  clear hu
  induction t with
  | nil => rfl
  | cons c t ih =>
    rw [List.flatMap_cons, tex_append, tex_code (h c (by simp)), Option.bind_some, ih fun d hd => h d (by simp [hd])]

example : texSafe "50% {a_b} <c>".toList = .ok "50\\% \\{a\\_b\\} $<$c$>$".toList := by decide +kernel

/-- **A gloss that ends in a backslash closes no group.** -/
theorem texsafe_backslash : ∃ u, texSafe ['\\'] = .ok u ∧ tex ⟨0, false, false⟩ u ≠ some ⟨0, false, false⟩ :=
  ⟨_, rfl, by decide⟩

theorem tex_plain {t : Text} (h : Plain t) (n : Nat) : tex ⟨n, false, false⟩ t = some ⟨n, false, false⟩ := by
  induction t with
  | nil => rfl
  | cons c t ih =>
    have hc := h c (by simp)
    simp only [List.mem_cons, List.not_mem_nil, or_false, not_or] at hc
    have e : texChar ⟨n, false, false⟩ c = some ⟨n, false, false⟩ := by simp [texChar, hc]
    unfold tex at *
    rw [List.foldlM_cons, e]
    exact ih fun d hd => h d (by simp [hd])

/-- What TeX does at some depth, it does deeper as well. -/
theorem tex_shift (n : Nat) : ∀ {t : Text} {j k : Nat} {m s m' s' : Bool}, tex ⟨j, m, s⟩ t = some ⟨k, m', s'⟩ →
    tex ⟨n + j, m, s⟩ t = some ⟨n + k, m', s'⟩
  | [], j, k, m, s, m', s', h => by cases h; rfl
  | c :: t, j, k, m, s, m', s', h => by
    unfold tex at h
    rw [List.foldlM_cons] at h
    cases e : texChar ⟨j, m, s⟩ c with
    | none => rw [e] at h; cases h
    | some r =>
      obtain ⟨j', m1, s1⟩ := r
      rw [e] at h
      have ih := tex_shift n (t := t) (j := j') (m := m1) (s := s1) h
      have e' : texChar ⟨n + j, m, s⟩ c = some ⟨n + j', m1, s1⟩ := by
        revert e
        unfold texChar
        by_cases h1 : s = true
        · simp only [h1, if_true]; intro e; cases e; rfl
        · simp only [h1, if_false, Bool.false_eq_true]
          by_cases h2 : c = '\\'
          · simp only [h2, if_true]; intro e; cases e; rfl
          · simp only [h2, if_false]
            by_cases h3 : c = '{'
            · simp only [h3, if_true]; intro e; cases e; rfl
            · simp only [h3, if_false]
              by_cases h4 : c = '}'
              · simp only [h4, if_true]
                by_cases h5 : j = 0
                · simp only [h5, if_true]; intro e; cases e
                · simp only [h5, if_false]
                  intro e
                  cases e
                  have h6 : ¬ (n + j = 0) := by omega
                  have h7 : n + j - 1 = n + (j - 1) := by omega
                  simp only [h6, if_false, h7]
              · simp only [h4, if_false]
                by_cases h5 : c = '$'
                · simp only [h5, if_true]; intro e; cases e; rfl
                · simp only [h5, if_false]
                  by_cases h6 : c ∈ ['#', '%', '&']
                  · simp only [h6, if_true]; intro e; cases e
                  · simp only [h6, if_false]
                    by_cases h7 : c ∈ ['^', '_']
                    · simp only [h7, if_true]
                      cases m
                      · simp
                      · simp only [if_true]; intro e; cases e; rfl
                    · simp only [h7, if_false]; intro e; cases e; rfl
      unfold tex at ih ⊢
      rw [List.foldlM_cons, e']
      exact ih

theorem lit {t : Text} (h : tex ⟨0, false, false⟩ t = some ⟨0, false, false⟩) (n : Nat) :
    tex ⟨n, false, false⟩ t = some ⟨n, false, false⟩ := tex_shift n h

/-- A piece that TeX reads without opening or closing anything. -/
def Sound (t : Tok) : Prop := ∀ (n : Nat) (u : Text), printed .latex t = .ok u → tex ⟨n, false, false⟩ u = some ⟨n, false, false⟩

theorem sound_within {a b : String} {k : Nat} (ha : tex ⟨0, false, false⟩ a.toList = some ⟨k, false, false⟩)
    (hb : tex ⟨k, false, false⟩ b.toList = some ⟨0, false, false⟩) {t : Text}
    (ht : ∀ n, tex ⟨n, false, false⟩ t = some ⟨n, false, false⟩) (n : Nat) :
    tex ⟨n, false, false⟩ (within a t b) = some ⟨n, false, false⟩ := by
  rw [within, tex_append, tex_append, show tex ⟨n, false, false⟩ a.toList = some ⟨n + k, false, false⟩ from tex_shift n ha,
    Option.bind_some, ht, Option.bind_some]
  exact tex_shift n hb

theorem plain_digits (n : Nat) : Plain (toString n).toList := by
  intro c hc
  have h := Nat.isDigit_of_mem_toDigits (by decide) (by decide) (show c ∈ Nat.toDigits 10 n by simpa using hc)
  intro k
  simp only [List.mem_cons, List.not_mem_nil, or_false] at k
  rcases k with rfl | rfl | rfl | rfl | rfl | rfl | rfl | rfl | rfl <;> exact absurd h (by decide)

theorem tex_plain_math {t : Text} (ht : Plain t) (j : Nat) : tex ⟨j, true, false⟩ t = some ⟨j, true, false⟩ := by
  induction t with
  | nil => rfl
  | cons c t ih =>
    have hc := ht c (by simp)
    simp only [List.mem_cons, List.not_mem_nil, or_false, not_or] at hc
    have e : texChar ⟨j, true, false⟩ c = some ⟨j, true, false⟩ := by simp [texChar, hc]
    unfold tex at *
    rw [List.foldlM_cons, e]
    exact ih fun d hd => ht d (by simp [hd])

theorem tex_script {a t b : Text} (ha : tex ⟨0, false, false⟩ a = some ⟨2, true, false⟩)
    (hb : tex ⟨2, true, false⟩ b = some ⟨0, false, false⟩) (ht : Plain t) (n : Nat) :
    tex ⟨n, false, false⟩ (a ++ t ++ b) = some ⟨n, false, false⟩ := by
  rw [tex_append, tex_append, show tex ⟨n, false, false⟩ a = some ⟨n + 2, true, false⟩ from tex_shift n ha,
    Option.bind_some, tex_plain_math ht, Option.bind_some]
  exact tex_shift n hb

theorem tex_number (m : Text) (n : Nat) (hm : tex ⟨0, false, false⟩ m = some ⟨0, false, false⟩) (k : Nat) :
    tex ⟨k, false, false⟩ (m ++ subscript .latex n) = some ⟨k, false, false⟩ := by
  rw [tex_append, lit hm, Option.bind_some]
  exact tex_script (by decide) (by decide) (plain_digits n) k

theorem sound_opened (b : Br) (n : Nat) : Sound (.opened b n) := by
  intro k u h
  cases h
  exact tex_number _ n (by cases b <;> decide) k

theorem sound_closed (b : Br) (n : Nat) : Sound (.closed b n) := by
  intro k u h
  cases h
  exact tex_number _ n (by cases b <;> decide) k

theorem sound_blank : Sound (.blank (textSep .latex)) ∧ Sound (.blank " ") := by
  refine ⟨?_, ?_⟩ <;> (intro n u h; cases h; exact lit (by decide) n)

theorem sound_eols (m : Nat) : Sound (.blank (eolText .latex m)) := by
  intro n u h
  cases h
  by_cases hm : 1 < m <;> simp only [eolText, hm, if_true, if_false] <;> exact lit (by decide) n

theorem sound_word {s : String} (h : Plain s.toList) : Sound (.word s) := by
  intro n u e
  cases e
  exact sound_within (k := 2) (by decide) (by decide) (tex_plain h) n

theorem sound_gloss {s : String} (h : s.toList.head? = some '$' ∨ ∀ c ∈ s.toList, c ≠ '\\' ∧ c ≠ '$') : Sound (.gloss s) := by
  intro n u e
  simp only [printed] at e
  split at e
  · cases e
    unfold special
    simp only
    split
    · exact lit (by decide) n
    · split
      · exact lit (by decide) n
      · split <;> exact lit (by decide) n
  · rename_i hs
    obtain ⟨t, ht, k⟩ := map_ok e
    subst k
    exact sound_within (k := 1) (by decide) (by decide)
      (texsafe_clean _ _ (h.resolve_left hs) ht) n

theorem sound_marks : Sound .tagsStart ∧ Sound .tagsEnd ∧ Sound .tagsNext := by
  refine ⟨?_, ?_, ?_⟩ <;> (intro n u h; cases h; exact lit (by decide) n)

theorem sound_text {a b c : String} {e : Bool} (ha : Plain a.toList) (hb : Plain b.toList)
    (hc : ∀ x ∈ c.toList, x ≠ '\\' ∧ x ≠ '$') : Sound (.tagText a b c e) := by
  intro n u h
  obtain ⟨t, ht, k⟩ := map_ok h
  subst k
  refine sound_within (k := 1) (by decide) (by decide) (fun m => ?_) n
  rw [tex_append, tex_append, tex_plain ha, Option.bind_some, tex_plain hb, Option.bind_some]
  cases e
  · exact sound_within (k := 0) (by decide) (by decide) (texsafe_clean _ _ hc ht) m
  · exact sound_within (k := 0) (by decide) (by decide) (texsafe_clean _ _ hc ht) m

theorem sound_part {s : String} (h : Plain s.toList) : Sound (.tagPart s) := by
  intro n u e
  cases e
  exact sound_within (k := 1) (by decide) (by decide) (tex_plain h) n

/-- Calls whose texts mean nothing to TeX where they are printed as they are, and have no backslash and `$` where they
are escaped. -/
def Mild : Call → Prop
  | .lojban s | .tagPart s => Plain s.toList
  | .translation s => s.toList.head? = some '$' ∨ ∀ c ∈ s.toList, c ≠ '\\' ∧ c ≠ '$'
  | .tagText a b c _ => Plain a.toList ∧ Plain b.toList ∧ ∀ x ∈ c.toList, x ≠ '\\' ∧ x ≠ '$'
  | _ => True

theorem sound_step {eolsOf : Nat → Nat} {s : St} {c : Call} (hc : Mild c) (h : ∀ t ∈ s.out, Sound t) :
    ∀ t ∈ (step .latex eolsOf s c).out, Sound t := by
  have snoc : ∀ {out : List Tok} {t : Tok}, (∀ x ∈ out, Sound x) → Sound t → ∀ x ∈ out ++ [t], Sound x := by
    intro out t ho ht x hx
    rcases List.mem_append.1 hx with hx | hx
    · exact ho x hx
    · rw [List.mem_singleton.1 hx]; exact ht
  have ap : ∀ {s : St} {sep : String}, (∀ x ∈ s.out, Sound x) → Sound (.blank sep) → ∀ x ∈ (apart sep s).out, Sound x := by
    intro s sep ho hs
    unfold apart
    split
    · exact ho
    · exact ho
    · exact snoc ho hs
    · exact snoc ho hs
  have eo : ∀ x ∈ (clearEols .latex s).out, Sound x := by
    unfold clearEols
    split
    · exact snoc h (sound_eols _)
    · exact h
  cases c with
  | opened b n =>
    have k := ap eo sound_blank.2
    unfold step writeOpen
    by_cases hb : b = .none
    · simp only [hb, if_true]; exact k
    · simp only [hb, if_false]; exact snoc k (sound_opened b n)
  | closed b n =>
    have k : ∀ x ∈ (closeGap s).out, Sound x := by
      unfold closeGap
      cases s.state with
      | opened => exact snoc h sound_blank.2
      | _ => exact h
    unfold step writeClose
    by_cases hb : b = .none
    · simp only [hb, if_true]; exact k
    · simp only [hb, if_false]; exact snoc k (sound_closed b n)
  | lojban t => exact snoc (ap h sound_blank.1) (sound_word hc)
  | translation t => exact snoc (ap h sound_blank.1) (sound_gloss hc)
  | eols w => exact h
  | startTags => exact snoc h sound_marks.1
  | endTags => exact snoc h sound_marks.2.1
  | startTag =>
    unfold step
    cases s.first with
    | true => exact h
    | false => exact snoc h sound_marks.2.2
  | tagText a b c e => exact snoc h (sound_text hc.1 hc.2.1 hc.2.2)
  | tagPart t => exact snoc h (sound_part hc)

theorem sound_steps {eolsOf : Nat → Nat} : ∀ (cs : List Call) (s : St), (∀ c ∈ cs, Mild c) → (∀ t ∈ s.out, Sound t) →
    ∀ t ∈ (cs.foldl (step .latex eolsOf) s).out, Sound t
  | [], _, _, h => h
  | c :: cs, _, hc, h => sound_steps cs _ (fun d hd => hc d (by simp [hd])) (sound_step (hc c (by simp)) h)

theorem sound_print : ∀ {ts : List Tok} {u : Text}, (∀ t ∈ ts, Sound t) → printAll .latex ts = .ok u →
    tex ⟨0, false, false⟩ u = some ⟨0, false, false⟩
  | [], u, _, h => by cases h; rfl
  | t :: ts, u, hs, h => by
    rw [printAll] at h
    cases h1 : printed .latex t with
    | error e => rw [h1] at h; cases h
    | ok x =>
      rw [h1] at h
      cases h2 : printAll .latex ts with
      | error e => rw [h2] at h; cases h
      | ok y =>
        rw [h2] at h
        cases h
        rw [tex_append, hs t (by simp) 0 x h1, Option.bind_some]
        exact sound_print (fun x hx => hs x (by simp [hx])) h2

/-- **TeX can read the body.**  Full statement: whatever is displayed, groups and mathematics are closed and no
character has a meaning that is not wanted.  Here: if Lojban texts, names in labels and parts of labels have no
characters that mean something to TeX, and glosses have no backslash and `$`.  Missing: those texts are not escaped
(`jai_label_hash`, `texsafe_backslash`). -/
theorem latex_clean_partial (eolsOf : Nat → Nat) (cs : List Call) (hc : ∀ c ∈ cs, Mild c) (u : Text)
    (h : display .latex eolsOf cs = .ok u) : Clean u :=
  sound_print (sound_steps cs initialise hc (fun _ ht => absurd ht List.not_mem_nil)) h

/-- **Labels of *jai* stop TeX.**  The number in the label of *jai* with a tag (`output.c:877`) has a bare `#`. -/
theorem jai_label_hash : ∃ u, display .latex (fun _ => 0)
    [.startTags, .startTag, .tagPart "jai+<tag>1: (", .tagPart "#1)", .endTags, .lojban "mi"] = .ok u ∧ ¬ Clean u :=
  ⟨_, rfl, by unfold Clean; decide +kernel⟩

instance (t : Text) : Decidable (Plain t) := by unfold Plain; infer_instance
instance (c : Call) : Decidable (Mild c) := by
  unfold Mild
  split <;> infer_instance

/-- The example meets the hypotheses of `latex_clean_partial`. -/
example : (∀ c ∈ joiCalls, Mild c) ∧ (display .latex (fun _ => 0) joiCalls).toOption.isSome = true :=
  ⟨by decide +kernel, by decide +kernel⟩

/-! ## Texts are in what is printed -/

/-- **Words are printed.**  Each driver prints a word between two marks that are the same for all words. -/
theorem words_printed (d : Driver) : ∃ a b, ∀ s : String, printed d (.word s) = .ok (a ++ s.toList ++ b) := by
  cases d with
  | text => exact ⟨[], [], fun s => by simp [printed]⟩
  | html => exact ⟨_, _, fun s => rfl⟩
  | latex => exact ⟨_, _, fun s => rfl⟩

/-- **Glosses are printed**, between two marks that are the same for all glosses, escaped as the driver does it. -/
theorem glosses_printed (d : Driver) : ∃ a b, ∀ (s : String) (u : Text), s.toList.head? ≠ some '$' →
    printed d (.gloss s) = .ok u → ∃ t, safe d s.toList = .ok t ∧ u = a ++ t ++ b := by
  have go : ∀ (f : Text → Text) (s : String) (u : Text), s.toList.head? ≠ some '$' →
      (if s.toList.head? = some '$' then .ok (special d s).toList else (safe d s.toList).map f) = Except.ok u →
      ∃ t, safe d s.toList = .ok t ∧ u = f t := by
    intro f s u hs h
    rw [if_neg hs] at h
    obtain ⟨t, h1, h2⟩ := map_ok h
    exact ⟨t, h1, h2.symm⟩
  cases d with
  | text => exact ⟨"/".toList, "/".toList, fun s u hs h => go (fun t => within "/" t "/") s u hs h⟩
  | html => exact ⟨"<I>".toList, "</I>".toList, fun s u hs h => go (fun t => within "<I>" t "</I>") s u hs h⟩
  | latex =>
    exact ⟨"\\textsl{\\small{}".toList, "}".toList, fun s u hs h => go (fun t => within "\\textsl{\\small{}" t "}") s u hs h⟩

/-- **Labels are printed**: the word, the place and the gloss, the last in brackets or not. -/
theorem labels_printed (d : Driver) : ∃ a z, ∀ (s p c : String) (e : Bool) (u : Text), printed d (.tagText s p c e) = .ok u →
    ∃ t, safe d c.toList = .ok t ∧
      u = a ++ (s ++ p).toList ++ (if e then [' ', '('] ++ t ++ [')'] else [' '] ++ t) ++ z := by
  cases d with
  | text =>
    refine ⟨[], [], fun s p c e u h => ?_⟩
    unfold printed at h
    obtain ⟨t, h1, rfl⟩ := map_ok h
    exact ⟨t, h1, by cases e <;> simp [within]⟩
  | html =>
    refine ⟨[], ['\n'], fun s p c e u h => ?_⟩
    obtain ⟨t, h1, rfl⟩ := map_ok h
    exact ⟨t, h1, by cases e <;> simp [within]⟩
  | latex =>
    refine ⟨"\\textsl{\\footnotesize{}".toList, "}\n".toList, fun s p c e u h => ?_⟩
    obtain ⟨t, h1, rfl⟩ := map_ok h
    exact ⟨t, h1, by cases e <;> simp [within]⟩

/-- **Numbers are printed** in HTML and LaTeX, the same way for an opening and a closing bracket. -/
theorem numbers_printed (d : Driver) (hd : d ≠ .text) : ∃ a z, ∀ (b : Br) (n : Nat),
    printed d (.opened b n) = .ok ((openMark d b).toList ++ (a ++ (toString n).toList ++ z)) ∧
      printed d (.closed b n) = .ok ((closeMark d b).toList ++ (a ++ (toString n).toList ++ z)) := by
  cases d with
  | text => exact absurd rfl hd
  | html => exact ⟨_, _, fun b n => ⟨rfl, rfl⟩⟩
  | latex => exact ⟨_, _, fun b n => ⟨rfl, rfl⟩⟩

/-- In plain text a bracket that is not of the kinds of `text_marks_alike` is closed by its mirror image and can be told
from the others. -/
theorem text_marks (b c : Br) : TextBlk.mirror (openMark .text b) = (closeMark .text b).toList ∧
    (openMark .text b = openMark .text c → b = c ∨ ((b = .ceil ∨ b = .floor) ∧ (c = .ceil ∨ c = .floor))) := by
  cases b <;> cases c <;> decide

/-- The same for LaTeX: closing marks differ, and no closing mark is an opening one. -/
theorem latex_marks (b c : Br) : (closeMark .latex b = closeMark .latex c → b = c) ∧
    (b ≠ .none → openMark .latex b ≠ closeMark .latex c) := by
  cases b <;> cases c <;> decide

/-- How a text is written in HTML. -/
def inHtml (t : Text) : Text := t.flatMap fun c => if c = '<' then "&lt;".toList else if c = '>' then "&gt;".toList else [c]

/-- In HTML each bracket is closed by its mirror image, and brackets that look alike are those with the mark `(`. -/
theorem html_marks (b c : Br) : (∃ o : String, (openMark .html b).toList = inHtml o.toList ∧ (closeMark .html b).toList = inHtml (TextBlk.mirror o)) ∧
    (openMark .html b = openMark .html c → b = c ∨ (openMark .html b = "(" ∧ openMark .html c = "(")) := by
  constructor
  · cases b
    · exact ⟨"", by decide⟩
    · exact ⟨"(", by decide⟩
    · exact ⟨"[", by decide⟩
    · exact ⟨"{", by decide⟩
    · exact ⟨"<", by decide⟩
    · exact ⟨"(", by decide⟩
    · exact ⟨"(", by decide⟩
    · exact ⟨"<<", by decide⟩
  · cases b <;> cases c <;> decide

/-- The text of an arrow points to the left, in HTML too; in plain text and LaTeX quotes are opened and closed by mirror images. -/
theorem specials : special .text "$LEFTARROW" = "<-" ∧ (special .html "$LEFTARROW").toList = inHtml "<-".toList ∧
    (∀ d, special d "$LEFTARROW" ≠ "" ∧ special d "$OPENQUOTE" ≠ "" ∧ special d "$CLOSEQUOTE" ≠ "") ∧
    (∀ d, d ≠ .html → special d "$OPENQUOTE" = "``" ∧ special d "$CLOSEQUOTE" = "\'\'") := by
  refine ⟨by decide, by decide, fun d => ?_, fun d hd => ?_⟩ <;> cases d <;> first | decide | exact absurd rfl hd

/-- A text is escaped for LaTeX character by character, and is refused just if what comes out does not fit into the buffer. -/
theorem texSafe_iff (s t : Text) : texSafe s = .ok t ↔ t = s.flatMap texCode ∧ t.length < 65536 := by
  unfold texSafe
  constructor
  · intro h
    split at h
    · rename_i hl; cases h; exact ⟨rfl, hl⟩
    · cases h
  · rintro ⟨rfl, hl⟩
    exact if_pos (show _ < bufSize from hl)

end Jbo.Flow
