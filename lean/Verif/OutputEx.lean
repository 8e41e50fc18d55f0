import Verif.OutputNum
/-!
# Texts for the display
-/

namespace Jbo.Output
open Jbo.Terms Jbo.Gram Jbo.Output.Spec

mutual
/-- The same tree, the nodes numbered from left to right. -/
def number (n : Nat) : Node → Node × Nat
  | .nt _ t cs => let (ds, m) := numbers (n + 1) cs; (.nt n t ds, m)
  | .brivla _ => (.brivla n, n + 1)
  | .zei _ => (.zei n, n + 1)
  | .cmavo _ s w => (.cmavo n s w, n + 1)
  | .leaf _ => (.leaf n, n + 1)
def numbers (n : Nat) : List Node → List Node × Nat
  | [] => ([], n)
  | c :: cs => let (d, m) := number n c; let (ds, k) := numbers m cs; (d :: ds, k)
end

/-- *joi gi mi gi nai do klama* -/
def joiTerm : Node := .nt 0 .term (up [.termPlainSumti, .sumti, .sumti1, .sumti2, .sumti3] [.nt 0 .sumti4 [
  .nt 0 .gek [.nt 0 .joik [.cmavo 0 .JOI "joi"], .cmavo 0 .GI "gi"],
  .nt 0 .sumti (up [.sumti1, .sumti2, .sumti3, .sumti4, .sumti5, .sumti5a, .sumti6] [.cmavo 0 .KOhA "mi"]),
  .nt 0 .gik [.cmavo 0 .GI "gi", .cmavo 0 .NAI "nai"],
  .nt 0 .sumti4 (up [.sumti5, .sumti5a, .sumti6] [.cmavo 0 .KOhA "do"])]])

def joiExample : Node := (number 0 (textOf (up [.noCuSentence] (up [.terms, .terms1, .terms2] [joiTerm] ++ tailOf' [.brivla 0] [])))).1

/-- What the passes before give: brackets and connectives.  The glosses are made up. -/
def envOf (need : Nat → Bool) (top : Node) : Env where
  word
    | .cmavo _ _ w => (w, if w = "joi" then "and" else "")
    | .brivla _ => ("klama", "go")
    | _ => ("", "")
  name _ := false
  brac := match addBracketingTags need top with
    | .ok ms => bracOf ms
    | .error _ => fun _ => (.none, 0)
  tags _ := [.text "klama" "1" "go-er"]
  conn := match Connect.connectivesProcessing top with
    | .ok log => connOf top log
    | .error _ => fun _ => none
  pattern _ _ := none
  offset _ := ""
  cluster _ := none

/-- What is seen of an output. -/
def sight (m : M (List Call)) : Option (List Piece) := m.toOption.map (·.filterMap seen)

/-- The translations in an output. -/
def glosses (m : M (List Call)) : Option (List String) := m.toOption.map (·.filterMap fun | .translation s => some s | _ => none)

/-- The hypotheses of `display_ends` hold for it. -/
example : Parse .chunks joiExample ∧ (ids joiExample).Nodup ∧
    (∃ log, Connect.connectivesProcessing joiExample = .ok log ∧ (envOf (fun _ => false) joiExample).conn = connOf joiExample log) ∧
    ∀ i tag m, Tag.jai tag m ∉ (envOf (fun _ => false) joiExample).tags i := by
  refine ⟨parse_of (by decide +kernel), by decide +kernel, ?_, by simp [envOf]⟩
  obtain ⟨log, h, _⟩ := Connect.connectives_any joiExample (parse_of (by decide +kernel))
  exact ⟨log, h, by simp only [envOf, h]⟩

set_option maxRecDepth 100000 in
example : sight (output (envOf (fun _ => false) joiExample) 100 .both joiExample) = some [.opened .square 1, .opened .round 2, .opened .ceil 3,
    .word "joi", .word "gi", .word "mi", .word "gi", .word "nai", .word "do", .closed .ceil 3, .closed .round 2,
    .opened .triangle 4, .word "klama", .closed .triangle 4, .closed .square 1] := by decide +kernel

/-- The gloss of `joi` comes at `gi`, after the one for `nai`. -/
example : glosses (output (envOf (fun _ => false) joiExample) 100 .both joiExample) = some ["other than", "and", "[is, does]", "go"] := by decide +kernel

/-- *mi nelci da poi mi nelci ke'a* -/
def daKeha : Node := (number 0 Relative.plainKeha).1

/-- *mi nelci le mi poi mi nelci ke'a ku'o gerku* -/
def ownerTerm : Node := .nt 0 .term (up [.termPlainSumti, .sumti, .sumti1, .sumti2, .sumti3, .sumti4, .sumti5, .sumti5a, .sumti6] [.cmavo 0 .LE "le",
  .nt 0 .sumtiTail (up [.sumti6] [.cmavo 0 .KOhA "mi"] ++
    up [.relativeClauses, .relativeClauseSeq, .relativeClause] (Relative.poiLiked (kohaTerm 0 "ke'a")) ++
    up [.sumtiTail1, .sumtiTail1a] (selbriOf [.brivla 0]))])

def ownerKeha : Node := (number 0 (textOf (Relative.liked ownerTerm))).1

/-- The first `ke'a` and the numbers after it, with the brackets that the pass wants. -/
def kehaShown (top : Node) (i : Nat) : Option Nat := do
  let log ← (Relative.relativeClauseProcessing top).toOption
  let ms ← (addBracketingTags (fun j => log.contains (.brac j)) top).toOption
  kehaNumber log (bracOf ms) i

/-- In *mi nelci da poi mi nelci ke'a* the gloss of `ke'a` is followed by 6, and 6 is the bracket around *da*. -/
example : Parse .chunks daKeha ∧ (ids daKeha).Nodup ∧ kehaShown daKeha 109 = some 6 ∧
    (sight (output (envOf (· == 54) daKeha) 150 .both daKeha)).map (fun ps => ps.drop 9 |>.take 4) =
      some [.opened .ceil 6, .word "da", .closed .ceil 6, .opened .angle 7] :=
  ⟨parse_of (by decide +kernel), by decide +kernel, by decide +kernel, by decide +kernel⟩

/-- **A defect.**  In *mi nelci le mi poi mi nelci ke'a ku'o gerku* the word `ke'a` belongs to a clause with the antecedent *mi*, and the program
knows this; but a node SUMTI_6 never gets a bracket, and the gloss of `ke'a` is followed by `#0`. -/
theorem owner_unnumbered : Parse .chunks ownerKeha ∧ (ids ownerKeha).Nodup ∧
    Relative.relativeClauseProcessing ownerKeha = .ok [.antecedent 62 58, .brac 58, .link 112 62, .contains 62] ∧ kehaShown ownerKeha 112 = some 0 :=
  ⟨parse_of (by decide +kernel), by decide +kernel, by decide +kernel, by decide +kernel⟩

end Jbo.Output
