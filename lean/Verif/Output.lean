import Verif.Gram
import Verif.Connect
import Verif.Relative
/-!
# Model of `output.c`: what is shown of the tree

What the output does is the list of calls of the driver (`DriverVector`, `output.h:14-28`).
-/

namespace Jbo.Output
open Jbo.Terms

/-- `BracketType` (`nodes.h`). -/
inductive Br
  | none | round | square | brace | angle | ceil | floor | triangle
deriving DecidableEq, Repr

/-- `WhatToShow` (`output.c:22-29`) without `SHOW_NONE`, which is not used. -/
inductive Show
  | lojban | english | tagTrans | lojbanInd | both
deriving DecidableEq, Repr

/-- The calls of the driver. -/
inductive Call
  | opened (b : Br) (n : Nat)
  | closed (b : Br) (n : Nat)
  | lojban (text : String)
  | translation (text : String)
  | eols (word : Nat)
  | startTags
  | endTags
  | startTag
  | tagText (brivla place trans : String) (brac : Bool)
  | tagPart (text : String)
deriving DecidableEq, Repr

/-! ## Brackets -/

/-- What the `switch` of `add_bracketing_internal` does for a type of node (`output.c:44-163`): the bracket is given
always, if there is more than one child, if it is required, if one of both; or if the first child has more than one. -/
inductive Cond
  | always | several | required | either | inner
deriving DecidableEq, Repr

def brOf : NT → Option (Br × Cond)
  | .term => some (.round, .always)
  | .sumti2 | .sumti3 | .sumti4 | .sumti5 => some (.ceil, .several)
  | .sumti5a | .sumti5b | .nameSumti6 => some (.ceil, .required)
  | .sumti | .sumti1 | .laheSumti6 | .naheBoSumti6 | .freeVocative => some (.ceil, .either)
  | .sumtiTail1a => some (.ceil, .required)
  | .selbri1 | .selbri2 | .selbri3 | .selbri4 | .selbri5 | .selbri6 => some (.floor, .several)
  | .mainSelbri | .metalinguisticMainSelbri => some (.triangle, .always)
  | .sentence | .fragment => some (.square, .always)
  | .relativeClauses => some (.round, .inner)
  | .relativeClause => some (.angle, .always)
  | .abstraction => some (.angle, .always)
  | .tanruUnit1 => some (.brace, .several)
  | .tanruUnit2 => some (.brace, .required)
  | .free => some (.round, .always)
  | .number | .lerfuString | .mexOperator => some (.round, .required)
  | _ => none

/-- Whether a node with these children gets its bracket; `need` are the nodes with `prop_require_brac`. -/
def holds (need : Nat → Bool) (i : Nat) (cs : List Node) : Cond → M Bool
  | .always => return true
  | .several => return decide (cs.length > 1)
  | .required => return need i
  | .either => return decide (cs.length > 1) || need i
  | .inner => match cs with
    | .nt _ _ ds :: _ => return decide (ds.length > 1)
    | _ :: _ => .error .uninit
    | [] => .error .bounds

/-- What a node gets (`output.c:40-163`): `number` and `brackets`. -/
structure Mark where
  id : Nat
  br : Br
  num : Nat
deriving DecidableEq, Repr

mutual
/-- `add_bracketing_internal` (`output.c:34-173`): the marks of the nodes, and the new value of `*seq`. -/
def addBracketing (need : Nat → Bool) (seq : Nat) : Node → M (List Mark × Nat)
  | .nt i t cs => do
    let m ← match brOf t with
      | none => pure (⟨i, .none, 0⟩ : Mark)
      | some (b, c) => do
        if ← holds need i cs c then pure ⟨i, b, seq + 1⟩ else pure ⟨i, .none, 0⟩
    let (ms, n) ← addBracketings need (if m.num = 0 then seq else seq + 1) cs
    return (m :: ms, n)
  | .zei i => return ([⟨i, .floor, seq + 1⟩], seq + 1)
  | _ => return ([], seq)
def addBracketings (need : Nat → Bool) (seq : Nat) : List Node → M (List Mark × Nat)
  | [] => return ([], seq)
  | c :: cs => do
    let (ms, n) ← addBracketing need seq c
    let (ms', n') ← addBracketings need n cs
    return (ms ++ ms', n')
end

/-- `add_bracketing_tags` (`output.c:174-183`). -/
def addBracketingTags (need : Nat → Bool) (top : Node) : M (List Mark) := do
  return (← addBracketing need 0 top).1

/-- `brackets` and `number` of a node after `add_bracketing_tags`. -/
def bracOf (ms : List Mark) (i : Nat) : Br × Nat :=
  match ms.find? (·.id == i) with
  | some m => (m.br, m.num)
  | none => (.none, 0)

/-- `prop_rel_clause_link` of a word and `prop_antecedent` of a clause. -/
def linkOf (keha : Nat) : Relative.Ev → Option Nat
  | .link k r => if k = keha then some r else none
  | _ => none
def antecedentOf (rel : Nat) : Relative.Ev → Option Nat
  | .antecedent r a => if r = rel then some a else none
  | _ => none

/-- The number that `translate_koha` writes after the gloss of `ke'a` (`output.c:282-294`): `prop_rel_clause_link` and
`prop_antecedent` are what `relative_clause_processing` left. -/
def kehaNumber (log : List Relative.Ev) (brac : Nat → Br × Nat) (keha : Nat) : Option Nat := do
  let rel ← log.findSome? (linkOf keha)
  let a ← log.findSome? (antecedentOf rel)
  return (brac a).2

/-! ## Output -/

/-- `XConnective` (`nodes.h:293-323`): a truth pattern, or the connective or tense that the pointer `js` leads to. -/
inductive Conn
  | truth (p : Connect.Pos) (pattern : String)
  | joined (p : Connect.Pos) (js : Node) (neg1 neg2 : Bool)

mutual
/-- The nonterminal that has a number: what the pointer `js` leads to. -/
def nodeAt (i : Nat) : Node → Option Node
  | .nt j t cs => if j = i then some (.nt j t cs) else nodeIn i cs
  | _ => none
def nodeIn (i : Nat) : List Node → Option Node
  | [] => none
  | c :: cs => (nodeAt i c).or (nodeIn i cs)
end

/-- `prop_connective` of a node after `connectives_processing`, which left this list. -/
def connOf (top : Node) (log : List Connect.Ev) (i : Nat) : Option Conn :=
  log.findSome? fun
    | .truth j p s => if j = i then some (.truth p s) else none
    | .joined j p js n1 n2 => if j = i then (nodeAt js top).map (.joined p · n1 n2) else none

/-- A label of a term: the arguments of `write_tag_text`, or the tag of `jai` and the number of its unit. -/
inductive Tag
  | text (brivla place trans : String)
  | jai (tag : Node) (n : Nat)

/-- What the output reads: properties of nodes, and the results of the functions that choose glosses, which are modelled
elsewhere or not at all. -/
structure Env where
  /-- what `get_lojban_word_and_translation` writes (`output.c:715-832`) -/
  word : Node → String × String
  /-- the words of type `N_CMENE` -/
  name : Nat → Bool
  /-- `brackets` and `number` of a node -/
  brac : Nat → Br × Nat
  /-- the labels of a term, as `output_term` shows them (`output.c:853-967`) -/
  tags : Nat → List Tag
  /-- `prop_connective` -/
  conn : Nat → Option Conn
  /-- `translate(buffer)` of a pattern with its position (`output.c:1086-1099`) -/
  pattern : Connect.Pos → String → Option String
  /-- the text written by `translate_time_offset` (`output.c:527-578`) -/
  offset : Node → String
  /-- the translation of a cluster (`output.c:1203-1256`) -/
  cluster : Node → Option String

/-- The modes that show Lojban, and those that show English. -/
def Show.loj (w : Show) : Bool := w == .both || w == .lojban || w == .lojbanInd
def Show.eng (w : Show) : Bool := w == .both || w == .english

/-- A call of `translation` in the English modes. -/
def engText (what : Show) (s : String) : List Call := if what.eng then [.translation s] else []

/-- `c->data.nonterm.type`, read with no test of the type of the node. -/
def typeOf : Node → M NT
  | .nt _ t _ => .ok t
  | _ => .error .uninit

/-- A step under a condition. -/
def onlyIf (c : Bool) (m : M (List Call)) : M (List Call) := if c then m else .ok []

/-- One call after the other. -/
def each (f : Node → M (List Call)) : List Node → M (List Call)
  | [] => return []
  | c :: cs => do
    let a ← f c
    return a ++ (← each f cs)

/-- A text between the first child and the others. -/
def parted (f : Show → Node → M (List Call)) (what : Show) (s : String) : List Node → M (List Call)
  | [] => .error .bounds
  | c :: cs => do
    let a ← f what c
    return a ++ engText what s ++ (← each (f what) cs)

/-- The labels of `output_term` (`output.c:846-967`). -/
def outTags (f : Show → Node → M (List Call)) : List Tag → M (List Call)
  | [] => return []
  | .text b p t :: r => do return [.startTag, .tagText b p t true] ++ (← outTags f r)
  | .jai tag n :: r => do
    let a ← f .tagTrans tag
    return [.startTag, .tagPart "jai+<tag>1: ("] ++ a ++ [.tagPart ("#" ++ toString n ++ ")")] ++ (← outTags f r)

/-- `output_term` (`output.c:834-974`). -/
def outTerm (env : Env) (f : Show → Node → M (List Call)) (what : Show) (i : Nat) (cs : List Node) : M (List Call) := do
  let a ← onlyIf (what.loj && !(env.tags i).isEmpty) (do return [.startTags] ++ (← outTags f (env.tags i)) ++ [.endTags])
  return a ++ (← each (f what) cs)

/-- The translation that comes at the end of a word (`output.c:1010-1024`, `1407-1424`, `1462-1497`); the word is the
number `i`, `ind` tells whether it is an indicator. -/
def ending (what : Show) (i : Nat) (eng : String) (ind : Bool) : List Call :=
  let e := if eng = "" then [] else [eng]
  match what with
  | .english | .both => e.map .translation ++ [.eols i]
  | .lojbanInd => if ind then e.map .translation ++ [.eols i] else []
  | .tagTrans => e.map (.tagText "" "" · false) ++ [.eols i]
  | .lojban => []

/-- `output_simple_time_offset` (`output.c:976-1024`); in the mode for tags the end of line is not set. -/
def outOffset (env : Env) (f : Show → Node → M (List Call)) (what : Show) (i : Nat) (cs : List Node) : M (List Call) := do
  let _ ← asserted (← findCmavo (.nt i .timeOffset cs) .PU)
  let a ← onlyIf what.loj (each (f .lojbanInd) cs)
  return a ++ (ending what i (env.offset (.nt i .timeOffset cs)) false).filter (fun c => !(what == .tagTrans) || c != .eols i)

/-- `output_sumti_tail` (`output.c:1026-1065`). -/
def outSumtiTail (f : Show → Node → M (List Call)) (what : Show) : List Node → M (List Call)
  | [] => .error .bounds
  | c :: cs => do
    if (← typeOf c) = .sumti6 then
      let a ← onlyIf what.loj (do return (← f .lojban c) ++ [.translation " "])
      let b ← each (f what) cs
      let d ← onlyIf what.eng (do return [.translation "[of]"] ++ (← f .english c))
      return a ++ b ++ d
    else each (f what) (c :: cs)

/-- A text of a connective: as a translation or as text of a tag. -/
def said (what : Show) (s : String) : Call := if what = .tagTrans then .tagText "" "" s false else .translation s

/-- The second part of `output_fore_or_afterthought` (`output.c:1088-1183`). -/
def meaning (env : Env) (f : Show → Node → M (List Call)) (what : Show) : Conn → M (List Call)
  | .truth p s => return match env.pattern p s with
    | some t => [said what t]
    | none => []
  | .joined p js n1 n2 =>
    let inner := f (if what = .tagTrans then .tagTrans else .english) js
    match p with
    | .geStag => return if n1 then [said what "something other than"] else []
    | .geJoik => return []
    | .giStag => do return (← inner) ++ if n2 then [said what "other than"] else []
    | .giJoik => do return (if n2 then [said what "other than"] else []) ++ (← inner)
    | _ => return []

/-- `output_fore_or_afterthought` (`output.c:1067-1185`). -/
def outConnective (env : Env) (f : Show → Node → M (List Call)) (what : Show) (i : Nat) (cs : List Node) : M (List Call) := do
  let a ← onlyIf what.loj (each (f .lojbanInd) cs)
  let b ← onlyIf (what.eng || what == .tagTrans) (match env.conn i with
    | none => .error .assertion
    | some c => meaning env f what c)
  return a ++ b

/-- `output_clustered` (`output.c:1187-1285`). -/
def outClustered (env : Env) (f : Show → Node → M (List Call)) (what : Show) (i : Nat) (t : NT) (cs : List Node) : M (List Call) :=
  match env.cluster (.nt i t cs) with
  | some s => do
    let a ← onlyIf what.loj (each (f .lojbanInd) cs)
    return a ++ engText what s
  | none => each (f what) cs

/-- The test for QUANTIFIER and SUMTI in a SUMTI_TAIL_1 (`output.c:1362-1364`). -/
def quantified : List Node → M Bool
  | c :: cs => do
    if (← typeOf c) = .quantifier then
      match cs with
      | d :: _ => do return (← typeOf d) = .sumti
      | [] => .error .bounds
    else return false
  | [] => .error .bounds

/-- What stands between the brackets of a node (`output.c:1301-1399`). -/
def inner (env : Env) (f : Show → Node → M (List Call)) (what : Show) (i : Nat) (t : NT) (cs : List Node) : M (List Call) :=
  match t with
  | .selbri3 => if cs.length = 2 then parted f what "[type-of]" cs else each (f what) cs
  | .term => outTerm env f what i cs
  | .noCuSentence => if cs.length = 2 then parted f what "[is, does]" cs else each (f what) cs
  | .observativeSentence => match cs with
    | c :: _ => f what c
    | [] => .error .bounds
  | .timeOffset => outOffset env f what i cs
  | .spaceIntProp | .intervalProperty | .numberMoiTu2 => outClustered env f what i t cs
  | .sumtiTail => outSumtiTail f what cs
  | .sumti5a => if cs.length = 2 then parted f what "(of)" cs else each (f what) cs
  | .sumtiTail1 => do if ← quantified cs then parted f what "(of)" cs else each (f what) cs
  | .jek | .jekOptKe | .jekOptKebo | .ek | .gihek | .gek | .gik | .guhek => outConnective env f what i cs
  | _ => each (f what) cs

/-- The brackets around something. -/
def bracketed (what : Show) (b : Br × Nat) (cs : List Call) : List Call :=
  if what.loj then .opened b.1 b.2 :: cs ++ [.closed b.1 b.2] else cs

/-- `strchr("aeiou", loj[0])` (`output.c:1449`): the end of the text counts as found too. -/
def dotted (s : String) : Bool :=
  match s.toList with
  | [] => true
  | c :: _ => "aeiou".toList.contains c

/-- The indicators (`output.c:1477-1481`). -/
def indic : Node → Bool
  | .cmavo _ s _ => s == .UI || s == .BAhE || s == .Y || s == .DAhO || s == .FUhO
  | _ => false

/-- The text of a word (`output.c:1444-1454`). -/
def wordText (env : Env) (x : Node) : String :=
  (if dotted (env.word x).1 then "." else "") ++ (env.word x).1 ++ (if env.name x.id then "." else "")

/-- `output_internal` (`output.c:1287-1500`).  The first argument bounds the depth of the recursion. -/
def output (env : Env) : Nat → Show → Node → M (List Call)
  | 0, _, _ => .error .depth
  | fuel + 1, what, .nt i t cs => do
    return bracketed what (env.brac i) (← inner env (output env fuel) what i t cs)
  | _ + 1, what, .zei i =>
    return bracketed what (env.brac i) ((if what.loj then [.lojban (env.word (.zei i)).1] else []) ++ ending what i (env.word (.zei i)).2 false)
  | _ + 1, what, x => return (if what.loj then [.lojban (wordText env x)] else []) ++ ending what x.id (env.word x).2 (indic x)

end Jbo.Output
