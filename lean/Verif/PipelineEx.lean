import Verif.PipelineThm
import Verif.GlossEx
/-!
# A text through all passes
-/

namespace Jbo.Pipeline
open Jbo.Terms Jbo.Terms.Spec Jbo.Gram Jbo.Output Jbo.Output.Spec

/-- The terminal nodes of a text whose brivla are all *klama*. -/
def itemIn (top : Node) (i : Nat) : Gloss.Item :=
  match (words top).find? (·.id == i) with
  | some (.cmavo _ s w) => .cmavo s w.toList false
  | some (.brivla _) => .brivla "klama".toList
  | _ => .cmene []

def wordsIn (top : Node) : Words := ⟨Gloss.small, itemIn top, fun _ => false, fun _ => none, fun _ => false⟩

theorem find_word : ∀ {l : List Node} {x : Node}, (l.map Node.id).Nodup → x ∈ l → l.find? (·.id == x.id) = some x
  | y :: l, x, hn, hx => by
    rw [List.find?_cons]
    rcases List.mem_cons.1 hx with rfl | hx
    · simp
    · rw [List.map_cons, List.nodup_cons] at hn
      have : (y.id == x.id) = false := by
        rw [beq_eq_false_iff_ne]
        intro e
        exact hn.1 (e ▸ List.mem_map_of_mem hx)
      rw [this]
      exact find_word hn.2 hx

/-- The hypotheses of `whole_ends`, `whole_words` and `whole_fits_partial` hold for *mi klama da poi mi klama ke'a*. -/
example : Parse .chunks daKeha ∧ (ids daKeha).Nodup ∧ 2 * daKeha.depth < 200 ∧ (∃ t, termsProcessing 200 daKeha = .ok t) ∧
    (∀ x ∈ words daKeha, Fits (wordsIn daKeha) x) ∧ (ids daKeha).length < 10 ^ 500 := by
  have hd : ((words daKeha).map Node.id).Nodup := by decide +kernel
  have hk : (words daKeha).all (fun x => match x with | .cmavo .. | .brivla _ => true | _ => false) = true := by decide +kernel
  refine ⟨parse_of (by decide +kernel), by decide +kernel, by decide +kernel, ?_, fun x hx => ?_, by decide +kernel⟩
  · have : (termsProcessing 200 daKeha).toOption.isSome = true := by decide +kernel
    cases h : termsProcessing 200 daKeha with
    | ok t => exact ⟨t, rfl⟩
    | error e => rw [h] at this; cases this
  · have hf := find_word hd hx
    have := List.all_eq_true.1 hk x hx
    cases x with
    | cmavo i s w => exact ⟨false, by simp only [wordsIn, itemIn]; rw [show (List.find? (fun y => y.id == i) (words daKeha)) = _ from hf]⟩
    | brivla i => exact ⟨_, by simp only [wordsIn, itemIn]; rw [show (List.find? (fun y => y.id == i) (words daKeha)) = _ from hf]⟩
    | _ => cases this

example : Modest daKeha := modest_of (by decide +kernel) (by decide +kernel) (by decide +kernel) (by decide +kernel)

set_option maxRecDepth 100000 in
/-- What is shown of it. -/
example : sight (whole 200 (wordsIn daKeha) daKeha) = some [.opened .square 1, .opened .round 2, .word "mi", .closed .round 2, .opened .triangle 3,
    .word "klama", .closed .triangle 3, .opened .round 4, .opened .ceil 5, .opened .ceil 6, .word "da", .closed .ceil 6, .opened .angle 7, .word "poi",
    .opened .square 8, .opened .round 9, .word "mi", .closed .round 9, .opened .triangle 10, .word "klama", .closed .triangle 10, .opened .round 11,
    .word "ke'a", .closed .round 11, .closed .square 8, .closed .angle 7, .closed .ceil 5, .closed .round 4, .closed .square 1] ∧
    glosses (whole 200 (wordsIn daKeha) daKeha) = some ["[is, does]", "being go", "[is, does]", "being go", "(relativized item) #6"] := by decide +kernel

end Jbo.Pipeline
