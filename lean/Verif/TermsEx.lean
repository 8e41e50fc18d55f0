import Verif.TermsKe
/-!
# Sentences that meet the hypotheses
-/

namespace Jbo.Terms.Ex
open Spec

/-- A `terms` with bare sumti. -/
def sumti (i : Nat) : Node := .nt 0 .terms [.nt 0 .terms1 [.nt 0 .terms2 [.nt i .term [.nt 0 .termPlainSumti []]]]]

theorem sumti_R (i : Nat) : TermsR (sumti i) [.pos i] := .one (.one .plain)

/-- The levels between `main_selbri` and `tanru_unit_2`. -/
def main (m : Nat) (cs : List Node) : Node :=
  .nt m .mainSelbri [.nt 0 .selbri [.nt 0 .selbri1 [.nt 0 .selbri2 [.nt 0 .selbri3 [.nt 0 .selbri4 [.nt 0 .selbri5 [.nt 0 .selbri6
    [.nt 0 .tanruUnit [.nt 0 .tanruUnit1 [.nt 0 .tanruUnit2 cs]]]]]]]]]]

theorem main_R (m : Nat) {cs : List Node} {a : Sb} (h : SbR (.nt 0 .tanruUnit2 cs) a) : MainR (main m cs) a :=
  .mk (.selbri (.here rfl rfl) (.tanru rfl (.conn rfl rfl (.bo rfl rfl (.unit (.plain h))))))

/-- `klama`. -/
def word (m w : Nat) : Node := main m [.brivla w]
theorem word_R (m w : Nat) : MainR (word m w) (.leaf (.brivla w)) := main_R m (.word .brivla)

/-- `se klama`. -/
def seWord (m w : Nat) : Node := main m [.nt 0 .seTu2 [.cmavo 9 .SE "se", .nt 0 .tanruUnit2 [.brivla w]]]
theorem seWord_R (m w : Nat) : MainR (seWord m w) (.se 2 9 (.leaf (.brivla w))) :=
  main_R m (.se .alone (by simp [sePlaces]) rfl (.word .brivla))

/-- A selbri with terms after it, as a `bridi_tail_2`. -/
def tail2 (ms : Node) (tl : List Node) : Node := .nt 0 .bridiTail2 [.nt 0 .bridiTail3 (ms :: tl)]

/-- A sentence: terms and a bridi tail. -/
def sentence (h bt : Node) : Node := .nt 0 .statement3 [.nt 0 .sentence [.nt 0 .noCuSentence [h, bt]]]

/-- `mi klama ti gi'e se citka ta vau do`. -/
def text : Node :=
  sentence (sumti 1) (.nt 0 .bridiTail [.nt 0 .bridiTail1
    [.nt 0 .bridiTail1 [tail2 (word 20 30) [.nt 0 .tailTerms [sumti 2]]], .leaf 8, tail2 (seWord 21 31) [.nt 0 .tailTerms [sumti 3]],
      .nt 0 .tailTerms [sumti 4]]])

/-- The bridi of `text`. -/
def textBr : Br := .under [.pos 1] (.both (.main (word 20 30) (some [.pos 2])) (.main (seWord 21 31) (some [.pos 3])) (some [.pos 4]))

theorem text_R : StmtR text textBr := by
  refine .mk .noCu (.terms rfl (sumti_R 1)) rfl (.tail (.tail1and (by decide) rfl rfl (.terms rfl rfl (sumti_R 4)) ?_ ?_))
  · exact .tail1 (.tail2 (.main (.terms rfl rfl (sumti_R 2))))
  · exact .tail2 (.main (.terms rfl rfl (sumti_R 3)))

/-- The selbri. -/
def textS (s : Share) : Sb := if s.pre = [.pos 1] ∧ s.post = [.pos 2, .pos 4] then .leaf (.brivla 30) else .se 2 9 (.leaf (.brivla 31))

theorem text_shares : give textBr [] [] = [⟨word 20 30, [.pos 1], [.pos 2, .pos 4]⟩, ⟨seWord 21 31, [.pos 1], [.pos 3, .pos 4]⟩] := rfl

theorem text_jobs : allJobs textS textBr =
    [⟨.brivla 30, [.pos 1], [.pos 2, .pos 4], []⟩, ⟨.brivla 31, [.pos 1], [.pos 3, .pos 4], [.se 2 9]⟩] := rfl

theorem text_within : textBr.Within textS := by
  refine ⟨⟨trivial, trivial⟩, ?_, ?_, ?_, ?_, ?_⟩
  · rw [text_shares]; simp [Share.Fits, maxTerms]
  · rw [text_shares]
    intro s hs
    simp only [List.mem_cons, List.not_mem_nil, or_false] at hs
    rcases hs with rfl | rfl
    · exact word_R 20 30
    · exact seWord_R 21 31
  · rw [text_shares]
    intro s hs
    simp only [List.mem_cons, List.not_mem_nil, or_false] at hs
    rcases hs with rfl | rfl <;> trivial
  · rw [text_shares]
    intro s hs
    simp only [List.mem_cons, List.not_mem_nil, or_false] at hs
    rcases hs with rfl | rfl
    · exact Nat.zero_le _
    · show 0 + 1 ≤ 20; omega
  · rw [text_jobs]
    intro j hj
    simp only [List.mem_cons, List.not_mem_nil, or_false] at hj
    rcases hj with rfl | rfl
    · exact ⟨clean_of_nojai rfl, by simp, by decide, by decide⟩
    · exact ⟨clean_of_nojai rfl, by simp, by decide, by decide⟩

/-- `mi` is klama1 and citka2, `ti` klama2, `ta` citka1, `do` klama3 and citka3. -/
example : (statement3Args 40 text).map (List.filterMap Ev.seen) =
    .ok [(1, .brivla 30, some (.ord 1)), (2, .brivla 30, some (.ord 2)), (4, .brivla 30, some (.ord 3)),
      (1, .brivla 31, some (.ord 2)), (3, .brivla 31, some (.ord 1)), (4, .brivla 31, some (.ord 3))] := rfl

example : ∃ evs, ∀ fuel, text.depth ≤ fuel → statement3Args fuel text = .ok evs := by
  obtain ⟨P, _, evs, _, h⟩ := statement_exact_partial text_R text_within
  exact ⟨evs, h⟩

/-- `klama gi'e ke citka ke'e`. -/
def keTail : List Node :=
  [.nt 0 .bridiTail1 [tail2 (word 20 30) []], .leaf 8, .leaf 9, .nt 0 .bridiTail [.nt 0 .bridiTail1 [tail2 (word 21 31) []]], .leaf 10]

theorem keTail_R : BrR (.nt 0 .bridiTail keTail) (.ke (.main (word 20 30) none) (.main (word 21 31) none) none) :=
  .tailKe (by decide) rfl rfl (.none rfl) (.tail1 (.tail2 (.main (.none rfl)))) (.tail (.tail1 (.tail2 (.main (.none rfl)))))

/-- **`mi klama gi'e ke citka ke'e` reads memory that has no value.** -/
theorem ke_witness (fuel : Nat) (h : 20 ≤ fuel) : statement3Args fuel (sentence (sumti 1) (.nt 0 .bridiTail keTail)) = .error .uninit := by
  have := ke_uninit keTail_R (pre := [.pos 1]) (post := []) (by simp [give, Share.Fits, maxTerms]) fuel (by
    have : (Node.nt 0 .bridiTail keTail).depth = 16 := by decide
    omega)
  obtain ⟨n, rfl⟩ : ∃ n, fuel = n + 20 := ⟨fuel - 20, by omega⟩
  exact this

/-- With terms after it the same text is labelled. -/
example : (statement3Args 40 (sentence (sumti 1) (.nt 0 .bridiTail (keTail ++ [.nt 0 .tailTerms [sumti 2]])))).map (List.filterMap Ev.seen) =
    .ok [(1, .brivla 30, some (.ord 1)), (2, .brivla 30, some (.ord 2)), (1, .brivla 31, some (.ord 1)), (2, .brivla 31, some (.ord 2))] := rfl

end Jbo.Terms.Ex
