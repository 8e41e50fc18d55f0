import Verif.LatexBlkThm
/-!
# TeX can read what `latexblk.c` prints
-/

namespace Jbo.LatexBlk
open Jbo.Output (Br Call)
open Jbo.Flow (Text Ph bufSize tex_append tex_shift tex_plain Mild lit plain_digits tex_script texsafe_clean)
open Jbo.Flow.Spec (tex Plain Clean)

/-- TeX reads the text in a group of its own without opening or closing anything. -/
def Sound (t : Text) : Prop := ∀ n, tex ⟨n, false, false⟩ t = some ⟨n, false, false⟩

theorem sound_append {a b : Text} (ha : Sound a) (hb : Sound b) : Sound (a ++ b) := fun n => by
  rw [tex_append, ha, Option.bind_some, hb]

theorem sound_nil : Sound [] := fun _ => rfl

/-- The same for labels, whose ends of line close a group and open one. -/
def Lines (t : Text) : Prop := ∀ n, tex ⟨n + 1, false, false⟩ (t.flatMap tagChar) = some ⟨n + 1, false, false⟩

theorem lines_append {a b : Text} (ha : Lines a) (hb : Lines b) : Lines (a ++ b) := fun n => by
  rw [List.flatMap_append, tex_append, ha, Option.bind_some, hb]

theorem lines_nil : Lines [] := fun _ => rfl

theorem newline : tex ⟨1, false, false⟩ "}\\\\[-3pt]{\\ISS{}".toList = some ⟨1, false, false⟩ := by decide

theorem lines_newline : Lines ['\n'] := fun n => by
  rw [List.flatMap_cons, List.flatMap_nil, List.append_nil, tagChar, if_pos rfl]
  exact tex_shift n newline

theorem lines_char {c : Char} (t : Text) (h1 : c ≠ '\n' → t.flatMap tagChar = t) (h2 : c ≠ '\n' → Sound t)
    (h3 : c = '\n' → t = ['\n']) : Lines t := by
  by_cases hc : c = '\n'
  · rw [h3 hc]; exact lines_newline
  · intro n; rw [h1 hc]; exact h2 hc _

theorem tagChar_other {c : Char} (h : c ≠ '\n') : tagChar c = [c] := by rw [tagChar, if_neg h]

theorem flat_same : ∀ {t : Text}, (∀ c ∈ t, c ≠ '\n') → t.flatMap tagChar = t
  | [], _ => rfl
  | c :: t, h => by
    rw [List.flatMap_cons, tagChar_other (h c (by simp)), flat_same fun d hd => h d (by simp [hd])]; rfl

theorem lines_plain {t : Text} (h : Plain t) : Lines t := by
  induction t with
  | nil => exact lines_nil
  | cons c t ih =>
    refine lines_append (a := [c]) (lines_char (c := c) [c] (fun k => flat_same (by simpa using k)) (fun _ => tex_plain ?_)
      (fun k => by rw [k])) (ih fun d hd => h d (by simp [hd]))
    intro d hd
    rw [List.mem_singleton.1 hd]
    exact h c (by simp)

theorem lines_code {c : Char} (hc : c ≠ '\\' ∧ c ≠ '$') : Lines (Flow.texCode c) := by
  refine lines_char (c := c) _ (fun k => ?_) (fun _ => Flow.tex_code hc) (fun k => by rw [k]; decide)
  refine flat_same fun d hd => ?_
  unfold Flow.texCode at hd
  have slash : '\\' ≠ '\n' := by decide
  have dollar : '$' ≠ '\n' := by decide
  split at hd
  · simp only [List.mem_cons, List.not_mem_nil, or_false] at hd
    rcases hd with rfl | rfl
    · exact slash
    · exact k
  · split at hd
    · simp only [List.mem_cons, List.not_mem_nil, or_false] at hd
      rcases hd with rfl | rfl | rfl
      · exact dollar
      · exact k
      · exact dollar
    · rw [List.mem_singleton.1 hd]; exact k

theorem texSafe_ok {t u : Text} (h : texSafe t = .ok u) : Flow.texSafe t = .ok u := by
  unfold texSafe at h
  split at h
  · cases h; assumption
  · cases h

theorem lines_safe {t u : Text} (ht : ∀ c ∈ t, c ≠ '\\' ∧ c ≠ '$') (h : texSafe t = .ok u) : Lines u := by
  have e : u = t.flatMap Flow.texCode := by
    have h := texSafe_ok h
    unfold Flow.texSafe at h
    split at h
    · cases h; rfl
    · cases h
  subst e
  clear h
  induction t with
  | nil => exact lines_nil
  | cons c t ih =>
    rw [List.flatMap_cons]
    exact lines_append (lines_code (ht c (by simp))) (ih fun d hd => ht d (by simp [hd]))

/-- All that is printed and all that is in the buffers can be read. -/
structure Reads (s : St) : Prop where
  out : ∀ x ∈ s.out, Sound (printed x)
  loj : Sound s.loj
  eng : Sound s.eng
  tag : Lines s.tag

theorem out_snoc {out : List Item} {x : Item} (h : ∀ y ∈ out, Sound (printed y)) (hx : Sound (printed x)) :
    ∀ y ∈ out ++ [x], Sound (printed y) := by
  intro y hy
  rcases List.mem_append.1 hy with hy | hy
  · exact h y hy
  · rw [List.mem_singleton.1 hy]; exact hx

theorem block_pieces {a b c d l e t : Text} (ha : tex ⟨0, false, false⟩ a = some ⟨1, false, false⟩)
    (hb : tex ⟨1, false, false⟩ b = some ⟨1, false, false⟩) (hc : tex ⟨1, false, false⟩ c = some ⟨1, false, false⟩)
    (hd : tex ⟨1, false, false⟩ d = some ⟨0, false, false⟩) (hl : Sound l) (he : Sound e)
    (ht : ∀ n, tex ⟨n + 1, false, false⟩ t = some ⟨n + 1, false, false⟩) : Sound (a ++ l ++ b ++ e ++ c ++ t ++ d) := fun n => by
  have ha' : tex ⟨n, false, false⟩ a = some ⟨n + 1, false, false⟩ := tex_shift n ha
  have hb' : tex ⟨n + 1, false, false⟩ b = some ⟨n + 1, false, false⟩ := tex_shift n hb
  have hc' : tex ⟨n + 1, false, false⟩ c = some ⟨n + 1, false, false⟩ := tex_shift n hc
  have hd' : tex ⟨n + 1, false, false⟩ d = some ⟨n, false, false⟩ := tex_shift n hd
  rw [tex_append, tex_append, tex_append, tex_append, tex_append, tex_append, ha', Option.bind_some, hl, Option.bind_some,
    hb', Option.bind_some, he, Option.bind_some, hc', Option.bind_some, ht, Option.bind_some, hd']

theorem sound_block {l e t : Text} (hl : Sound l) (he : Sound e) (ht : Lines t) : Sound (printed (.block l e t)) :=
  block_pieces (by decide) (by decide) (by decide) (by decide) hl he ht

theorem sound_number (m : Text) (n : Nat) (hm : tex ⟨0, false, false⟩ m = some ⟨0, false, false⟩) : Sound (m ++ subscript n) :=
  sound_append (lit hm) (tex_script (by decide) (by decide) (plain_digits n))

theorem sound_opened (b : Br) (n : Nat) : Sound (printed (.opened b n)) := sound_number _ n (by cases b <;> decide)
theorem sound_closed (b : Br) (n : Nat) : Sound (printed (.closed b n)) := sound_number _ n (by cases b <;> decide)
theorem sound_space : Sound (printed .space) := lit (by decide)
theorem sound_eols (n : Nat) : Sound (printed (.eols n)) := by
  have e : printed (.eols n) = (if 1 < n then "\n\n\\vspace{2ex}" else "\n\n").toList := rfl
  rw [e]
  by_cases h : 1 < n
  · rw [if_pos h]; exact lit (by decide)
  · rw [if_neg h]; exact lit (by decide)

theorem reads_flush {s : St} (h : Reads s) : Reads (flushBlock s) :=
  ⟨out_snoc h.out (sound_block h.loj h.eng h.tag), sound_nil, sound_nil, lines_nil⟩

theorem reads_texts {s : St} (h : Reads s) : Reads (flushTexts s) := by
  unfold flushTexts
  split
  · exact reads_flush h
  · exact h

theorem reads_eols {s : St} (h : Reads s) : Reads (clearEols s) := by
  unfold clearEols
  split
  · exact ⟨out_snoc h.out (sound_eols _), h.loj, h.eng, h.tag⟩
  · exact h

theorem reads_openGap {s : St} (h : Reads s) : Reads (openGap s) := by
  unfold openGap
  cases s.state <;> first | exact h | exact ⟨out_snoc h.out sound_space, h.loj, h.eng, h.tag⟩

theorem reads_closeGap {s : St} (h : Reads s) : Reads (closeGap s) := by
  unfold closeGap
  cases s.state <;> first | exact h | exact ⟨out_snoc h.out sound_space, h.loj, h.eng, h.tag⟩

theorem lines_add {a t u : Text} (ha : Lines a) (ht : Lines t) (h : addTag a t = .ok u) : Lines u := by
  rcases addTag_ok h with rfl | rfl
  · exact lines_append ha ht
  · exact lines_append ha (lines_append (a := ['\n']) lines_newline ht)

theorem sound_eng {t : String} {u : Text} (ht : t.toList.head? = some '$' ∨ ∀ c ∈ t.toList, c ≠ '\\' ∧ c ≠ '$')
    (h : engText t = .ok u) : Sound u := by
  unfold engText at h
  split at h
  · cases h
    unfold Flow.special
    simp only
    split
    · exact lit (by decide)
    · split
      · exact lit (by decide)
      · split <;> exact lit (by decide)
  · rename_i hs
    obtain ⟨v, h1, h2⟩ := bind_ok h
    cases h2
    exact sound_append (a := [' ']) (lit (by decide)) (texsafe_clean _ _ (ht.resolve_left hs) (texSafe_ok h1))

theorem lines_tag {a b c : String} {e : Bool} {u : Text} (ha : Plain a.toList) (hb : Plain b.toList)
    (hc : ∀ x ∈ c.toList, x ≠ '\\' ∧ x ≠ '$') (h : tagText a b c e = .ok u) : Lines u := by
  obtain ⟨t, h1, h2⟩ := bind_ok h
  rw [cat_ok h2, List.nil_append]
  have ht := lines_safe hc h1
  refine lines_append (lines_append (lines_plain ha) (lines_plain hb)) ?_
  cases e
  · exact lines_append (lines_append (lines_plain (by unfold Plain; decide)) ht) (lines_plain (by unfold Plain; decide))
  · exact lines_append (lines_append (lines_plain (by unfold Plain; decide)) ht) (lines_plain (by unfold Plain; decide))

theorem reads_step {eolsOf : Nat → Nat} {s u : St} {c : Call} (hc : Mild c) (h : step eolsOf s c = .ok u) (hs : Reads s) :
    Reads u := by
  cases c with
  | opened b n =>
    cases h
    unfold writeOpen
    split
    · exact hs
    · have k := reads_openGap (reads_eols (reads_texts hs))
      exact ⟨out_snoc k.out (sound_opened b n), k.loj, k.eng, k.tag⟩
  | closed b n =>
    cases h
    unfold writeClose
    split
    · exact hs
    · have k := reads_closeGap (reads_texts hs)
      exact ⟨out_snoc k.out (sound_closed b n), k.loj, k.eng, k.tag⟩
  | lojban t =>
    have k : Reads (clearEols (if s.eng ≠ [] then flushBlock s else s)) := by
      split
      · exact reads_eols (reads_flush hs)
      · exact reads_eols hs
    obtain ⟨a, h1, h2⟩ := bind_ok h
    cases h2
    refine ⟨k.out, ?_, k.eng, k.tag⟩
    show Sound a
    rw [cat_ok h1]
    exact sound_append k.loj (sound_append (a := [' ']) (lit (by decide)) (tex_plain hc))
  | translation t =>
    obtain ⟨a, h1, h⟩ := bind_ok h
    obtain ⟨b, h2, h⟩ := bind_ok h
    cases h
    refine ⟨hs.out, hs.loj, ?_, hs.tag⟩
    show Sound b
    rw [cat_ok h2]
    exact sound_append hs.eng (sound_eng hc h1)
  | eols w => cases h; exact ⟨hs.out, hs.loj, hs.eng, hs.tag⟩
  | startTags =>
    have k := reads_eols (reads_texts hs)
    obtain ⟨a, h1, h2⟩ := bind_ok h
    cases h2
    refine ⟨k.out, k.loj, k.eng, ?_⟩
    show Lines a
    rw [cat_ok h1]
    exact lines_append k.tag (lines_plain (by unfold Plain; decide))
  | endTags =>
    obtain ⟨a, h1, h2⟩ := bind_ok h
    cases h2
    refine ⟨hs.out, hs.loj, hs.eng, ?_⟩
    show Lines a
    rw [cat_ok h1]
    exact lines_append hs.tag (lines_plain (by unfold Plain; decide))
  | startTag =>
    obtain ⟨a, h1, h2⟩ := bind_ok h
    cases h2
    refine ⟨hs.out, hs.loj, hs.eng, ?_⟩
    show Lines a
    rw [cat_ok h1]
    refine lines_append hs.tag ?_
    split
    · exact lines_nil
    · exact lines_plain (by unfold Plain; decide)
  | tagText a b c e =>
    obtain ⟨x, h1, h⟩ := bind_ok h
    obtain ⟨y, h2, h⟩ := bind_ok h
    cases h
    exact ⟨hs.out, hs.loj, hs.eng, lines_add hs.tag (lines_tag hc.1 hc.2.1 hc.2.2 h1) h2⟩
  | tagPart t =>
    obtain ⟨x, h1, h⟩ := bind_ok h
    obtain ⟨y, h2, h⟩ := bind_ok h
    cases h
    refine ⟨hs.out, hs.loj, hs.eng, lines_add hs.tag ?_ h2⟩
    rw [cat_ok h1, List.nil_append]
    exact lines_plain hc

theorem reads_steps {eolsOf : Nat → Nat} : ∀ {cs : List Call} {s u : St}, (∀ c ∈ cs, Mild c) →
    cs.foldlM (step eolsOf) s = .ok u → Reads s → Reads u
  | [], s, u, _, h, hs => by cases h; exact hs
  | c :: cs, s, u, hc, h, hs => by
    rw [List.foldlM_cons] at h
    obtain ⟨v, h1, h2⟩ := bind_ok h
    exact reads_steps (fun d hd => hc d (by simp [hd])) h2 (reads_step (hc c (by simp)) h1 hs)

theorem sound_all : ∀ {out : List Item}, (∀ x ∈ out, Sound (printed x)) → Sound (out.flatMap printed)
  | [], _ => sound_nil
  | x :: out, h => by
    rw [List.flatMap_cons]
    exact sound_append (h x (by simp)) (sound_all fun y hy => h y (by simp [hy]))

/-- **TeX can read the blocks.**  Full statement: whatever is displayed, groups and mathematics are closed and no
character has a meaning that is not wanted.  Here: if Lojban texts, names in labels and parts of labels have no
characters that mean something to TeX, and glosses have no backslash and `$`.  Missing: those texts are not escaped
(`block_label_hash`). -/
theorem block_clean_partial (eolsOf : Nat → Nat) (cs : List Call) (hc : ∀ c ∈ cs, Mild c) (out : List Item)
    (h : display eolsOf cs = .ok out) : Clean (out.flatMap printed) := by
  obtain ⟨s, h1, h2⟩ := bind_ok h
  cases h2
  have hs : Reads initialise := ⟨fun _ hx => absurd hx List.not_mem_nil, sound_nil, sound_nil, lines_nil⟩
  exact sound_all (reads_steps hc h1 hs).out 0

/-- The example meets the hypotheses of `block_clean_partial`. -/
example : (∀ c ∈ Flow.joiCalls, Mild c) ∧ (display (fun _ => 0) Flow.joiCalls).toOption.isSome = true :=
  ⟨by decide +kernel, by decide +kernel⟩

/-- Labels of *jai* with a tag have a bare `#` here as well. -/
theorem block_label_hash : ∃ out, display (fun _ => 0) [.startTags, .startTag, .tagPart "jai+<tag>1: (", .tagPart "#1)",
    .endTags, .lojban "mi", .closed .round 1] = .ok out ∧ ¬ Clean (out.flatMap printed) := by
  refine ⟨(display (fun _ => 0) [.startTags, .startTag, .tagPart "jai+<tag>1: (", .tagPart "#1)",
    .endTags, .lojban "mi", .closed .round 1]).toOption.getD [], by decide +kernel, by unfold Clean; decide +kernel⟩

/-! ## Texts are in what is printed -/

/-- **Blocks are printed whole.**  The Lojban text, the English text and the labels are printed in this order between
marks that are the same for all blocks; of the labels only the ends of lines are replaced. -/
theorem block_printed : ∃ a b c z w : Text, ∀ l e t : Text,
    printed (.block l e t) = a ++ l ++ b ++ e ++ c ++ t.flatMap (fun x => if x = '\n' then w else [x]) ++ z :=
  ⟨_, _, _, _, _, fun _ _ _ => rfl⟩

/-- **Brackets are printed**: the mark, then the number, which is printed the same way for all; marks of different
kinds differ, and opening marks from closing ones. -/
theorem brackets_printed : ∃ (f g : Br → Text) (a z : Text),
    (∀ b n, printed (.opened b n) = f b ++ (a ++ (toString n).toList ++ z) ∧
      printed (.closed b n) = g b ++ (a ++ (toString n).toList ++ z)) ∧
    ∀ b c, (f b = f c → b = c) ∧ (g b = g c → b = c) ∧ (b ≠ .none → f b ≠ g c) :=
  ⟨fun b => (openMark b).toList, fun b => (closeMark b).toList, _, _, fun _ _ => ⟨rfl, rfl⟩, by
    intro b c; cases b <;> cases c <;> decide⟩

end Jbo.LatexBlk
