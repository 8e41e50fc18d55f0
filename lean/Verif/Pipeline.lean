import Verif.FormKnown
import Verif.Gloss
import Verif.Tenses
import Verif.Relative
/-!
# The passes of `main.c` one after the other, and the display made from what they leave
-/

namespace Jbo.Pipeline
open Jbo.Terms

/-- What the passes hang on the nodes. -/
structure Logs where
  terms : List Terms.Ev
  conv : List Convert.Ev
  tense : List Tenses.Ev
  conn : List Connect.Ev
  rel : List Relative.Ev
  marks : List Output.Mark

/-- `prop_conversion` is there after `terms_processing` (`conversion.c:126`). -/
def converted (t : List Terms.Ev) (i : Nat) : Bool := t.any fun | .conv j _ => j == i | _ => false

/-- `prop_require_brac` after `terms_processing` and `relative_clause_processing`. -/
def required (t : List Terms.Ev) (r : List Relative.Ev) (i : Nat) : Bool := decide (.brac i ∈ t) || decide (.brac i ∈ r)

/-- The six passes (`main.c:309-315`). -/
def passes (fuel : Nat) (top : Node) : M Logs := do
  let t ← termsProcessing fuel top
  let c ← Convert.doConversions fuel (converted t) top
  let s ← Tenses.tenseProcessing top
  let n ← Connect.connectivesProcessing top
  let r ← Relative.relativeClauseProcessing top
  let m ← Output.addBracketingTags (required t r) top
  return ⟨t, c, s, n, r, m⟩

/-- What is known of the words apart from the passes: the dictionary, the terminal nodes, `prop_neg_indicator` and `prop_cai_indicator` (hung on by
`lex2.c`), and what stands in memory where `in_selbri` has no value. -/
structure Words where
  dict : Gloss.Dict
  item : Nat → Gloss.Item
  nai : Nat → Bool
  cai : Nat → Option Lex2.Cai
  memory : Nat → Bool

/-- The last value written to a member of a property. -/
def lastOf {α β : Type} (log : List α) (f : α → Option β) : Option β := (log.filterMap f).getLast?

/-- The place of `prop_conversion`: `conv_mark_tu2s` writes it only where `terms_processing` has not. -/
def convOf (k : Logs) (i : Nat) : Option Nat :=
  (lastOf k.conv fun | .conv j p => if j = i then some p else none | _ => none).or
    (lastOf k.terms fun | .conv j p => if j = i then some p else none | _ => none)

/-- The properties that the output reads. -/
def propsOf (k : Logs) (w : Words) (i : Nat) : Gloss.Props where
  bai := lastOf k.conv fun | .bai j c => if j = i then some c else none | _ => none
  tense := lastOf k.tense fun e => if e.id = i then some e.ctx else none
  quiet := decide (.dontGloss i ∈ k.terms) || decide (.dontGloss i ∈ k.conv) || decide (.dontGloss i ∈ k.rel)
  keha := Output.kehaNumber k.rel (Output.bracOf k.marks) i
  nai := w.nai i
  cai := w.cai i
  conv := convOf k i
  role := (Convert.glosstype k.conv i).map fun (f, t) => (f.getD (w.memory i), t)

/-- The text of a terminal node that a label shows. -/
def wordAt (w : Words) (i : Nat) : Word :=
  match w.item i with
  | .cmavo _ t _ | .brivla t | .cmene t | .bu t | .zei _ t _ => t
  | _ => []

/-- What a label refers to, with words and numbers (`output.c:861-967`). -/
def headOf (k : Logs) (w : Words) : Terms.Head → Gloss.Head
  | .brivla x => .brivla (wordAt w x)
  | .goha x => .goha (wordAt w x)
  | .me s => .me (Output.bracOf k.marks s).2
  | .nuha m => .nuha (Output.bracOf k.marks m).2
  | .numberMoi n m => .numberMoi (Output.bracOf k.marks n).2 (wordAt w m)
  | .abstraction n => .abstraction (wordAt w n)
  | .zei z => .zei (Output.bracOf k.marks z).2 (wordAt w z)

/-- A label as `output_term` hands it to the driver (`output.c:853-967`).  A label that does not fit its buffer (C89) is left out. -/
def tagOf (k : Logs) (w : Words) (top : Node) (l : Label) : Option Output.Tag :=
  match l.jai with
  | some (tg, u) => (Output.nodeAt tg top).map (.jai · (Output.bracOf k.marks u).2)
  | none => match Gloss.labelText w.dict l.pos (headOf k w l.head) with
    | .ok (a, b, c) => some (.text (String.ofList a) (String.ofList b) (String.ofList c))
    | .error _ => none

/-- The words of type `N_BU`. -/
def buOf (w : Words) (i : Nat) : Option Word :=
  match w.item i with
  | .bu t => some t
  | _ => none

/-- The word of some selma'o among the children. -/
def childWord (x : Node) (s : Terms.Sel) : Option Word :=
  match findCmavo x s with
  | .ok (some (.cmavo _ _ t)) => some t.toList
  | _ => none

/-- What `output` reads.  A gloss that does not fit its buffer (C89) is empty. -/
def envOf (k : Logs) (w : Words) (top : Node) : Output.Env where
  word x := match Gloss.wordGloss w.dict (propsOf k w x.id) (w.item x.id) with
    | .ok (l, e) => (String.ofList l, String.ofList e)
    | .error _ => ("", "")
  name i := match w.item i with
    | .cmene _ => true
    | _ => false
  brac := Output.bracOf k.marks
  tags i := (labels k.terms i).filterMap (tagOf k w top)
  conn := Output.connOf top k.conn
  pattern p s := match Gloss.patternKey p s.toList with
    | .ok (some key) => (w.dict.look key).map String.ofList
    | _ => none
  offset x := match Gloss.timeOffset w.dict (propsOf k w x.id) ((childWord x .PU).getD []) (childWord x .NAI) (childWord x .ZI) with
    | .ok (_, e) => String.ofList e
    | .error _ => ""
  cluster x := match Gloss.cluster w.dict (propsOf k w x.id) (buOf w) x with
    | .ok t => t.map String.ofList
    | .error _ => none

/-- From the parse tree to the calls of the driver. -/
def whole (fuel : Nat) (w : Words) (top : Node) : M (List Output.Call) := do
  let k ← passes fuel top
  Output.output (envOf k w top) fuel .both top

end Jbo.Pipeline
