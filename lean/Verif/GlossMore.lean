import Verif.GlossEx
/-!
# Glosses of quotations, compounds and connectives
-/

namespace Jbo.Gloss
open Jbo.Gloss.Spec

theorem attempt_ok {d : Dict} {w e : Word} (h : attempt d w = .ok e) : e = asked d w := by
  unfold attempt at h
  unfold asked
  split at h
  · rename_i t ht
    rw [ht, (put_ok h).1]
    rfl
  · rename_i ht
    cases h
    rw [ht]
    rfl

/-- **Quotations, letters and names.**  The quoted text is looked up as a headword, and after `zo` its gloss stands in quotation marks; a letter with `bu` is
looked up with `.bu`; a name is glossed as such. -/
theorem quote_gloss (d : Dict) (p : Props) (x : Item) (l e : Word) (h : wordGloss d p x = .ok (l, e)) :
    match x with
    | .zoi _ _ text | .lohu text => e = asked d text
    | .zo text => e = ['"'] ++ asked d text ++ ['"']
    | .bu w => e = asked d (w ++ ['.', 'b', 'u'])
    | .cmene _ => e = ['[', 'N', 'A', 'M', 'E', ']']
    | _ => True := by
  cases x with
  | zoi f t u =>
    obtain ⟨loj, h1, h⟩ := bind_ok.1 h
    exact attempt_ok (kept h).2
  | lohu t =>
    obtain ⟨loj, h1, h⟩ := bind_ok.1 h
    exact attempt_ok (kept h).2
  | zo t =>
    obtain ⟨loj, h1, h⟩ := bind_ok.1 h
    obtain ⟨b, h2, h⟩ := bind_ok.1 h
    show e = ['"'] ++ asked d t ++ ['"']
    rw [← attempt_ok h2]
    exact (put_ok (kept h).2).1
  | bu t =>
    obtain ⟨loj, h1, h⟩ := bind_ok.1 h
    have := attempt_ok (kept h).2
    rw [(put_ok h1).1] at this
    exact this
  | cmene t =>
    obtain ⟨loj, h1, h⟩ := bind_ok.1 h
    cases h
    rfl
  | cmavo _ _ _ => trivial
  | zei _ _ _ => trivial
  | brivla _ => trivial

theorem zeiParts_eq (d : Dict) : ∀ ws : List Word, zeiParts d ws = List.intercalate " type-of ".toList (ws.map (asked d))
  | [] => rfl
  | [w] => by
    show orAsk d w = _
    simp [List.intercalate, asked, orAsk]
  | w :: v :: ws => by
    rw [zeiParts, zeiParts_eq d (v :: ws)]
    · simp [List.intercalate, asked, orAsk]
    · intro e; cases e

/-- **Compounds made with `zei`.**  If the compound as a whole has a gloss that is known, it is shown; otherwise the glosses of the words. -/
theorem zei_gloss (d : Dict) (p : Props) (a b : Word) (parts : List Word) (l e : Word) (h : wordGloss d p (.zei a b parts) = .ok (l, e)) :
    ∃ r, convertible d p b = .ok r ∧
      ((∃ t, r = some t ∧ t.head? ≠ some '?' ∧ e = t) ∨
        ((∀ t, r = some t → t.head? = some '?') ∧ e = List.intercalate " type-of ".toList (parts.map (asked d)))) := by
  obtain ⟨loj, h1, h⟩ := bind_ok.1 h
  obtain ⟨r, h2, h⟩ := bind_ok.1 (kept h).2
  refine ⟨r, h2, ?_⟩
  rw [← zeiParts_eq]
  cases r with
  | none => exact .inr ⟨fun _ e => (by cases e), (put_ok h).1⟩
  | some t =>
    simp only at h
    split at h
    · rename_i ht
      exact .inr ⟨fun _ e => (by cases e; exact ht), (put_ok h).1⟩
    · rename_i ht
      exact .inl ⟨t, rfl, ht, (put_ok h).1⟩

/-- The name of the position in the headwords of connectives. -/
def position : Connect.Pos → Option String
  | .after => some "AFTER"
  | .ge => some "GE"
  | .gi => some "GI"
  | _ => none

/-- **Connectives.**  The headword is the truth table with the position; the buffer is large enough for each, and the two tables that no connective has, for which the
dictionary says that they are impossible, are not looked up. -/
theorem pattern_gloss (neg1 conv neg2 : Bool) (f : Connect.Tr) (p : Connect.Pos) : ∃ s, Connect.pattern neg1 conv neg2 f = .ok s ∧ s ≠ "FFFF" ∧ s ≠ "TTTT" ∧
    patternKey p s.toList = .ok ((position p).map fun n => s.toList ++ '@' :: n.toList) := by
  have : ∀ (neg1 conv neg2 : Bool) (f : Fin 5) (p : Fin 7), ∃ s ∈ Connect.truthEx,
      Connect.pattern neg1 conv neg2 ([.a, .e, .o, .u, .q][f]) = .ok s ∧ s ≠ "FFFF" ∧ s ≠ "TTTT" ∧
      patternKey ([.after, .ge, .gi, .geJoik, .giJoik, .geStag, .giStag][p]) s.toList =
        .ok ((position ([.after, .ge, .gi, .geJoik, .giJoik, .geStag, .giStag][p])).map fun n => s.toList ++ '@' :: n.toList) := by decide +kernel
  have hf : ∃ i : Fin 5, ([.a, .e, .o, .u, .q] : List Connect.Tr)[i] = f := by cases f <;> decide
  have hp : ∃ i : Fin 7, ([.after, .ge, .gi, .geJoik, .giJoik, .geStag, .giStag] : List Connect.Pos)[i] = p := by cases p <;> decide
  obtain ⟨i, rfl⟩ := hf
  obtain ⟨j, rfl⟩ := hp
  obtain ⟨s, _, h⟩ := this neg1 conv neg2 i j
  exact ⟨s, h⟩

example : wordGloss small {} (.zoi "zoi".toList "gy".toList "ui".toList) = .ok ("zoi gy ui gy".toList, "happiness".toList) ∧
    wordGloss small {} (.bu "a".toList) = .ok ("a.bu".toList, "?".toList) ∧
    wordGloss { small with unknown := fun _ _ _ => .ok none } {} (.zei "ui zei pu".toList "ui+pu".toList ["ui".toList, "pu".toList]) = .ok ("ui zei pu".toList, "happiness type-of before".toList) := by
  decide +kernel

end Jbo.Gloss
