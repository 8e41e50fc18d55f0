import Verif.GramOcc
/-!
# Parse trees for the examples

A check for parse trees of words without `ba'e`, to show that the examples are trees of the grammar.
-/

namespace Jbo.Gram
open Jbo.Terms Jbo.Terms.Spec

/-- An indicator. -/
def indicWord : Node → Bool
  | .cmavo _ s w => indicators.contains s && (wordsOf s).contains w
  | _ => false

/-- A word with indicators. -/
def augWord : Item → Node → Bool
  | .t s, .nt _ .augmented (.cmavo _ s' w :: rs) => s == s' && (wordsOf s).contains w && rs.all indicWord
  | .brivla, .nt _ .augmented (.brivla _ :: rs) => rs.all indicWord
  | .zei, .nt _ .augmented (.zei _ :: rs) => rs.all indicWord
  | _, _ => false

theorem augWord_word {it : Item} {x : Node} (h : augWord it x = true) : WordR it x := by
  have ind : ∀ {rs : List Node}, rs.all indicWord = true → ∀ r ∈ rs, Indic r := by
    intro rs h r hr
    have := List.all_eq_true.1 h r hr
    cases r <;> simp only [indicWord, Bool.false_eq_true, Bool.and_eq_true, List.contains_iff_mem] at this
    exact .word this.1 this.2
  unfold augWord at h
  split at h
  · simp only [Bool.and_eq_true, beq_iff_eq, List.contains_iff_mem] at h
    obtain ⟨⟨rfl, hw⟩, h⟩ := h
    exact .marked (bs := []) nofun (.cmavo hw) (ind h)
  · exact .marked (bs := []) nofun .brivla (ind h)
  · exact .marked (bs := []) nofun .zei (ind h)
  · cases h

/-- Whether children fit a rule, their own children aside. -/
def fits : List Item → List Node → Bool
  | [], [] => true
  | .n t :: its, .nt _ u cs :: ds => t == u && !(u == .augmented) && fits its ds
  | .t s :: its, .cmavo _ s' w :: ds => s == s' && (wordsOf s).contains w && fits its ds
  | .brivla :: its, .brivla _ :: ds => fits its ds
  | .zei :: its, .zei _ :: ds => fits its ds
  | .leaf :: its, .leaf _ :: ds => fits its ds
  | .e s :: its, .cmavo i s' w :: ds => (s == s' && (wordsOf s).contains w && fits its ds) || fits its (.cmavo i s' w :: ds)
  | .e _ :: its, ds => fits its ds
  | it :: its, .nt i u cs :: ds => augWord it (.nt i u cs) && fits its ds
  | _, _ => false

mutual
def good : Node → Bool
  | .nt _ t cs => t == .augmented || (rules.any (fun r => r.lhs == t && fits r.rhs cs) && goods cs)
  | _ => true
def goods : List Node → Bool
  | [] => true
  | c :: cs => good c && goods cs
end

theorem fits_kids {P : NT → Node → Prop} : ∀ (its : List Item) (cs : List Node), fits its cs = true →
    (∀ i t ds, Node.nt i t ds ∈ cs → t ≠ .augmented → P t (.nt i t ds)) → Kids P its cs := by
  intro its
  induction its with
  | nil => intro cs h _; cases cs with
    | nil => exact .nil
    | cons _ _ => simp [fits] at h
  | cons it its ih =>
    intro cs h hp
    have tl : ∀ {c : Node} {ds : List Node}, cs = c :: ds → fits its ds = true → Kids P its ds := by
      intro c ds e hf
      subst e
      exact ih ds hf (fun i t es hm => hp i t es (List.mem_cons_of_mem _ hm))
    cases it with
    | n t =>
      cases cs with
      | nil => simp [fits] at h
      | cons c ds =>
        cases c <;> simp only [fits, Bool.false_eq_true, Bool.and_eq_true, beq_iff_eq] at h
        obtain ⟨⟨rfl, ha⟩, h⟩ := h
        exact .n (hp _ _ _ (List.mem_cons_self ..) (by simpa using ha)) (tl rfl h)
    | t s =>
      cases cs with
      | nil => simp [fits] at h
      | cons c ds =>
        cases c <;> simp only [fits, Bool.false_eq_true, Bool.and_eq_true, beq_iff_eq, List.contains_iff_mem] at h
        · obtain ⟨⟨rfl, hw⟩, h⟩ := h
          exact .word (.alone (.cmavo hw)) (tl rfl h)
        · exact .word (augWord_word h.1) (tl rfl h.2)
    | e s =>
      cases cs with
      | nil => exact .out (ih _ (by simpa [fits] using h) hp)
      | cons c ds =>
        cases c with
        | cmavo i s' w =>
          simp only [fits, Bool.or_eq_true, Bool.and_eq_true, beq_iff_eq, List.contains_iff_mem] at h
          rcases h with ⟨⟨rfl, hw⟩, h⟩ | h
          · exact .put hw (tl rfl h)
          · exact .out (ih _ h hp)
        | _ => exact .out (ih _ (by simpa [fits] using h) hp)
    | brivla =>
      cases cs with
      | nil => simp [fits] at h
      | cons c ds =>
        cases c <;> simp only [fits, Bool.false_eq_true, Bool.and_eq_true] at h
        · exact .word (.alone .brivla) (tl rfl h)
        · exact .word (augWord_word h.1) (tl rfl h.2)
    | zei =>
      cases cs with
      | nil => simp [fits] at h
      | cons c ds =>
        cases c <;> simp only [fits, Bool.false_eq_true, Bool.and_eq_true] at h
        · exact .word (.alone .zei) (tl rfl h)
        · exact .word (augWord_word h.1) (tl rfl h.2)
    | leaf =>
      cases cs with
      | nil => simp [fits] at h
      | cons c ds =>
        cases c <;> simp only [fits, Bool.false_eq_true, Bool.and_eq_true] at h
        · exact .word (.alone .leaf) (tl rfl h)
        · exact .word (augWord_word h.1) (tl rfl h.2)
    | never =>
      cases cs with
      | nil => simp [fits] at h
      | cons c ds =>
        cases c <;> simp only [fits, Bool.false_eq_true, Bool.and_eq_true] at h
        exact .word (augWord_word h.1) (tl rfl h.2)

theorem goods_mem {cs : List Node} (h : goods cs = true) : ∀ c ∈ cs, good c = true := by
  induction cs with
  | nil => simp
  | cons c cs ih =>
    rw [goods, Bool.and_eq_true] at h
    intro d hd
    rcases List.mem_cons.1 hd with rfl | hd
    · exact h.1
    · exact ih h.2 d hd

theorem good_parse : ∀ (n : Nat) (i : Nat) (t : NT) (cs : List Node), (Node.nt i t cs).depth ≤ n → good (.nt i t cs) = true → t ≠ .augmented →
    Parse t (.nt i t cs) := by
  intro n
  induction n with
  | zero => intro i t cs hd _ _; rw [depth_nt] at hd; omega
  | succ n ih =>
    intro i t cs hd h ht
    rw [good, Bool.or_eq_true, beq_iff_eq] at h
    have h := h.resolve_left ht
    rw [Bool.and_eq_true, List.any_eq_true] at h
    obtain ⟨⟨r, hr, hf⟩, hg⟩ := h
    simp only [Bool.and_eq_true, beq_iff_eq] at hf
    obtain ⟨rfl, hf⟩ := hf
    refine .mk hr (fits_kids _ _ hf fun j u ds hm hu => ih j u ds ?_ (goods_mem hg _ hm) hu)
    have := mem_depth (t := r.lhs) (i := i) hm
    omega

theorem parse_of {i : Nat} {t : NT} {cs : List Node} (h : good (.nt i t cs) = true) (ht : t ≠ .augmented := by decide) :
    Parse t (.nt i t cs) :=
  good_parse _ i t cs (Nat.le_refl _) h ht

mutual
/-- No `gi'e … ke`. -/
def noKe : Node → Bool
  | .nt _ t cs => !(t == .bridiTail && !(kids cs .bridiTail).isEmpty) && noKes cs
  | _ => true
def noKes : List Node → Bool
  | [] => true
  | c :: cs => noKe c && noKes cs
end

theorem noKes_mem {cs : List Node} (h : noKes cs = true) : ∀ c ∈ cs, noKe c = true := by
  induction cs with
  | nil => simp
  | cons c cs ih =>
    rw [noKes, Bool.and_eq_true] at h
    intro d hd
    rcases List.mem_cons.1 hd with rfl | hd
    · exact h.1
    · exact ih h.2 d hd

theorem noKe_sub {x y : Node} (h : Sub x y) (hk : noKe x = true) : noKe y = true := by
  induction h with
  | refl => exact hk
  | child hc _ ih =>
    rw [noKe, Bool.and_eq_true] at hk
    exact ih (noKes_mem hk.2 _ hc)

theorem modest_of {top : Node} (h1 : num [.term] top ≤ 14) (h2 : num convTypes top ≤ 19) (h3 : num jaiTypes top = 0)
    (h4 : noKe top = true) : Modest top := by
  refine ⟨fun i t cs _ hs => Nat.le_trans (num_sub hs) h1, fun i t cs _ hs => Nat.le_trans (num_sub hs) h2, h3, fun i cs hs hne => ?_⟩
  have := noKe_sub hs h4
  rw [noKe] at this
  simp [hne] at this

/-- A node in nodes that have no other child. -/
def up : List NT → List Node → List Node
  | [], cs => cs
  | t :: ts, cs => [.nt 0 t (up ts cs)]

/-- A text of one statement. -/
def textOf (s : List Node) : Node :=
  .nt 0 .chunks (up [.text, .text1, .paragraphs, .paragraph, .statement, .innerStatement, .statement1, .statement2, .statement3, .sentence] s)

/-- A sumti of one word of KOhA, as a term. -/
def kohaTerm (i : Nat) (w : String) : Node :=
  .nt i .term (up [.termPlainSumti, .sumti, .sumti1, .sumti2, .sumti3, .sumti4, .sumti5, .sumti5a, .sumti6] [.cmavo (i + 1) .KOhA w])

def koha (i : Nat) (w : String) : List Node := up [.terms, .terms1, .terms2] [kohaTerm i w]

/-- A selbri of one unit. -/
def selbriOf (u : List Node) : List Node :=
  up [.selbri, .selbri1, .selbri2, .selbri3, .selbri4, .selbri5, .selbri6, .tanruUnit, .tanruUnit1, .tanruUnit2] u

/-- A bridi tail of one selbri. -/
def tailOf' (u : List Node) (tt : List Node) : List Node :=
  up [.bridiTail, .bridiTail1, .bridiTail2, .bridiTail3] (up [.mainSelbri] (selbriOf u) ++ tt)

/-- The node at the end of a path of numbers of children, with its ancestors. -/
def down (anc : List Node) : Node → List Nat → Option (List Node × Node)
  | x, [] => some (anc, x)
  | .nt i t cs, n :: p => if t = .augmented then none else match cs[n]? with
    | some c => down (.nt i t cs :: anc) c p
    | none => none
  | _, _ => none

theorem down_occ {top : Node} : ∀ (p : List Nat) {anc anc' : List Node} {x y : Node}, Occ top anc x → down anc x p = some (anc', y) →
    Occ top anc' y := by
  intro p
  induction p with
  | nil => intro anc anc' x y ho h; rw [down] at h; cases h; exact ho
  | cons n p ih =>
    intro anc anc' x y ho h
    cases x with
    | nt i t cs =>
      rw [down] at h
      split at h
      · cases h
      · rename_i ht
        split at h
        · rename_i c hc
          exact ih (.child ho ht (List.mem_of_getElem? hc)) h
        · cases h
    | _ => simp [down] at h

theorem occ_sub {top : Node} {anc : List Node} {x : Node} (h : Occ top anc x) : Sub top x := by
  have key : ∀ {y : Node} {i t cs} {c : Node}, Sub y (.nt i t cs) → c ∈ cs → Sub y c := by
    intro y i t cs c h hc
    generalize e : Node.nt i t cs = z at h
    induction h with
    | refl => subst e; exact .child hc .refl
    | child h1 _ ih => exact .child h1 (ih e)
  induction h with
  | top => exact .refl
  | child _ _ hc ih => exact key ih hc
  | word _ _ _ ih => exact key ih (by simp)
  | before _ _ hm ih => exact key ih (by simp [hm])
  | after _ _ _ hm ih => exact key ih (by simp [hm])

/-- *mi se prami do*. -/
def seExample : Node := textOf (up [.noCuSentence] (koha 10 "mi" ++
  tailOf' (up [.seTu2] (.cmavo 20 .SE "se" :: up [.tanruUnit2] [.brivla 21])) (up [.tailTerms] (koha 30 "do"))))

example : Parse .chunks seExample ∧ Modest seExample :=
  ⟨parse_of (by decide +kernel), modest_of (by decide +kernel) (by decide +kernel) (by decide +kernel) (by decide +kernel)⟩

/-- In *mi se prami do* the first term fills the second place, the second the first. -/
example : (termsProcessing 60 seExample).toOption.map (·.filterMap Ev.seen) =
    some [(10, .brivla 21, some (.ord 2)), (30, .brivla 21, some (.ord 1))] := by decide +kernel

end Jbo.Gram
