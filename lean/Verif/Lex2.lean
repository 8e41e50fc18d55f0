import Verif.Token
import Verif.Erasure

/-!
# Model of the token passes of `lex2.c`

The circular token list is a Lean list.  A pass that needs the previous token keeps the
tokens already passed in reverse order (`left`).  Words deleted from the list but attached
to a surviving node (ba'e, indicators) are fields of `Leaf` and `Node`.
-/

namespace Jbo.Lex2
open Jbo

/-- Text put before, between and after joined words. -/
def joinWith (sep : Word) : List Word → Word
  | [] => []
  | [w] => w
  | w :: ws => w ++ sep ++ joinWith sep ws

/-- `lex2.c:195-307` `build_string_from_nodes`: the text of one node; `none` is `assert(0)`
(types `N_MARKER`, `N_LOhU`, `N_BU`).  `zei.sep_with_zei` is rebuilt from the parts. -/
def nodeText : Tok → Option Word
  | .garbage w => some w
  | .cmavo _ w => some w
  | .brivla w => some w
  | .cmene w => some w
  | .zoi _ _ t => some ("zoi+\"".toList ++ t ++ "\"".toList)
  | .zo t => some ("zo+".toList ++ t)
  | .zei parts => some (joinWith " zei ".toList parts)
  | .broken _ => some "<Defective erasure>".toList
  | .marker _ => none
  | .lohu _ => none
  | .bu _ => none

/-- `lex2.c:195-307` on the nodes from `start` to `end` (both included): texts separated by
single spaces. -/
def nodesText (ts : List Tok) : Option Word := (ts.mapM nodeText).map (joinWith [' '])

/-- `lex2.c:345-376`: the text quoted by `zo`; `none` is `assert(0)`. -/
def zoText : Tok → Option Word
  | .cmavo _ w => some w
  | .garbage w => some w
  | .brivla w => some w
  | .cmene w => some w
  | .zoi _ _ t => some t
  | _ => none

/-- `lex2.c:324-386` `handle_zo`. -/
def handleZo : List Tok → Except Crash (List Tok)
  | [] => .ok []
  | [x] => if x.isSel .ZO then .error .exit1 else .ok [x]
  | x :: y :: rest =>
    if x.isSel .ZO then
      match zoText y with
      | none => .error .assertFail
      | some t => (handleZo rest).map (.zo t :: ·)
    else (handleZo (y :: rest)).map (x :: ·)

/-- `lex2.c:405-418`: tokens strictly before the first le'u, and those after it. -/
def splitLehu : List Tok → Option (List Tok × List Tok)
  | [] => none
  | t :: ts =>
    if t.isSel .LEhU then some ([], ts)
    else
      match splitLehu ts with
      | none => none
      | some (a, b) => some (t :: a, b)

theorem splitLehu_length {ts a b : List Tok} (h : splitLehu ts = some (a, b)) :
    b.length < ts.length := by
  induction ts generalizing a b with
  | nil => simp [splitLehu] at h
  | cons t ts ih =>
    simp only [splitLehu] at h
    split at h
    · injection h with h; injection h with h1 h2; subst h2; simp
    · split at h
      · cases h
      · rename_i a' b' h'
        injection h with h; injection h with h1 h2; subst h2
        have := ih h'; simp; omega

/-- `lex2.c:393-429` `handle_lohu`.  For an empty quotation `end` is the lo'u node itself,
`start` the le'u node: the text builder walks on to the list head (type `N_MARKER`, or a
node of a forbidden type before that) and its `assert(0)` fails. -/
def handleLohu : List Tok → Except Crash (List Tok)
  | [] => .ok []
  | x :: rest =>
    if x.isSel .LOhU then
      match h : splitLehu rest with
      | none => .error .exit1
      | some ([], _) => .error .assertFail
      | some (b :: body, post) =>
        match nodesText (b :: body) with
        | none => .error .assertFail
        | some t =>
          match handleLohu post with
          | .ok r => .ok (.lohu t :: r)
          | .error e => .error e
    else
      match handleLohu rest with
      | .ok r => .ok (x :: r)
      | .error e => .error e
termination_by ts => ts.length
decreasing_by
  · have := splitLehu_length h; simp; omega
  · simp

/-- `lex2.c:469-481`: starting behind a zei, collect the operands of the maximal chain.
`none`: the text ends in zei.  Result: operands and the tokens behind the chain. -/
def chain : List Tok → Option (List Tok × List Tok)
  | [] => none
  | [y] => some ([y], [])
  | y :: z :: rest =>
    if z.isSel .ZEI then
      match chain rest with
      | none => none
      | some (ys, r) => some (y :: ys, r)
    else some ([y], z :: rest)

theorem chain_length {ts a b : List Tok} (h : chain ts = some (a, b)) : b.length < ts.length := by
  induction hl : ts.length using Nat.strongRecOn generalizing ts a b with
  | ind n ih =>
  cases ts with
  | nil => simp [chain] at h
  | cons y ts =>
    cases ts with
    | nil => simp [chain] at h; obtain ⟨_, rfl⟩ := h; simp at hl ⊢; omega
    | cons z rest =>
      simp only [chain] at h
      split at h
      · split at h
        · cases h
        · rename_i ys r hc
          injection h with h; injection h with h1 h2; subst h2
          have := ih rest.length (by simp at hl; omega) hc rfl
          simp at hl; omega
      · injection h with h; injection h with h1 h2; subst h2; simp at hl ⊢; omega

/-- `lex2.c:442-530` `handle_zei`; the Boolean is `had_bad_tokens`.  `left` empty means
`first`.  The deleted operands stay reachable as `zei.children`; here the compound keeps
their texts. -/
def zeiLoop (left : List Tok) (bad : Bool) : List Tok → Except Crash (List Tok × Bool)
  | [] => .ok (left.reverse, bad)
  | x :: rest =>
    if x.isSel .ZEI then
      match left with
      | [] => zeiLoop [x] true rest
      | w :: l =>
        match h : chain rest with
        | none => zeiLoop (x :: w :: l) true rest
        | some (ys, r) =>
          match (w :: ys).mapM nodeText with
          | none => .error .assertFail
          | some parts => zeiLoop (.zei parts :: l) bad r
    else zeiLoop (x :: left) bad rest
termination_by ts => ts.length
decreasing_by
  all_goals first
    | (simp; done)
    | (have := chain_length h; simp; omega)

/-- `handle_zei()`. -/
def handleZei (ts : List Tok) : Except Crash (List Tok × Bool) := zeiLoop [] false ts

/-- `nodes.h:279-291`: codes of an attached CAI. -/
inductive Cai
  | CAI | SAI | RUhE | CUhI | PEI | CAINAI | SAINAI | RUhENAI | PEINAI
deriving DecidableEq, Repr

/-- A token with what is attached to the node itself: the chain of ba'e (in text order) and
the properties "negated by nai" and "scaled by cai". -/
structure Leaf where
  tok : Tok
  bahe : List Tok := []
  neg : Bool := false
  cai : Option Cai := none
deriving DecidableEq, Repr

/-- A node of the final token list with its list of indicators. -/
structure Node where
  leaf : Leaf
  ui : List Leaf := []
deriving DecidableEq, Repr

/-- `lex2.c:538-568` `handle_bahe`; `pend` is the chain hanging on the current token. -/
def handleBahe (pend : List Tok) : List Tok → List Leaf
  | [] => []
  | [x] => [{ tok := x, bahe := pend }]
  | x :: y :: rest =>
    if x.isSel .BAhE then
      if y.isSel .FAhO then { tok := x, bahe := pend } :: handleBahe [] (y :: rest)
      else handleBahe (pend ++ [x]) (y :: rest)
    else { tok := x, bahe := pend } :: handleBahe [] (y :: rest)

/-- `lex2.c:589-653`: the word stored for `y bu`; `none` is `assert(0)`. -/
def buText : Tok → Option Word
  | .cmavo _ w => some w
  | .garbage w => some w
  | .brivla w => some w
  | .cmene w => some w
  | .zoi _ _ t => some t
  | .zo t => some ("zo".toList ++ t)
  | .zei parts => some (joinWith " zei ".toList parts)
  | .bu w => some (w ++ ".bu".toList)
  | .lohu t => some ("lo'u-".toList ++ t ++ "-le'u".toList)
  | .broken _ => some "<Defective erasure>".toList
  | .marker _ => none

/-- `lex2.c:574-662` `handle_bu`.  At the start of the text the previous node is the list
head, of type `N_MARKER` (`lex2.c:38`, `nodes.h:19`).  The absorbed node is freed with
everything attached to it. -/
def buLoop (left : List Leaf) : List Leaf → Except Crash (List Leaf)
  | [] => .ok left.reverse
  | x :: rest =>
    if x.tok.isSel .BU then
      match left with
      | [] => .error .assertFail
      | y :: l =>
        match buText y.tok with
        | none => .error .assertFail
        | some w => buLoop ({ x with tok := .bu w } :: l) rest
    else buLoop (x :: left) rest

/-- `handle_bu()`. -/
def handleBu (ls : List Leaf) : Except Crash (List Leaf) := buLoop [] ls

/-- `lex2.c:670-687` `is_indicator_cmavo`. -/
def isIndicator (t : Tok) : Bool :=
  t.isSel .UI || t.isSel .CAI || t.isSel .Y || t.isSel .DAhO || t.isSel .FUhE || t.isSel .FUhO

/-- `lex2.c:763-776`: code of a CAI word; `none` is `abort()`. -/
def caiCode (t : Tok) : Option Cai :=
  match t with
  | .cmavo _ w =>
    if w = "cai".toList then some .CAI
    else if w = "sai".toList then some .SAI
    else if w = "ru'e".toList then some .RUhE
    else if w = "cu'i".toList then some .CUhI
    else if w = "pei".toList then some .PEI
    else none
  | _ => none

/-- `lex2.c:788-807`: effect of a following nai on the code. -/
def Cai.withNai : Cai → Cai
  | .CAI => .CAINAI
  | .SAI => .SAINAI
  | .RUhE => .RUhENAI
  | .PEI => .PEINAI
  | c => c

/-- The `nai` test at `lex2.c:737-739` and `785-787`. -/
def takeNai : List Leaf → Bool × List Leaf
  | [] => (false, [])
  | y :: r => if y.tok.isSel .NAI then (true, r) else (false, y :: r)

theorem takeNai_length (l : List Leaf) : (takeNai l).2.length ≤ l.length := by
  cases l with
  | nil => simp [takeNai]
  | cons y r => simp only [takeNai]; split <;> simp

/-- `lex2.c:756-815`: the CAI (with optional nai) following, if any. -/
def takeCai : List Leaf → Except Crash (Option Cai × List Leaf)
  | [] => .ok (none, [])
  | z :: r =>
    if z.tok.isSel .CAI then
      match caiCode z.tok with
      | none => .error .assertFail
      | some c => .ok (some (if (takeNai r).1 then c.withNai else c), (takeNai r).2)
    else .ok (none, z :: r)

theorem takeCai_length {l r : List Leaf} {c} (h : takeCai l = .ok (c, r)) : r.length ≤ l.length := by
  cases l with
  | nil => simp [takeCai] at h; simp [h.2.symm]
  | cons z t =>
    simp only [takeCai] at h
    split at h
    · split at h
      · cases h
      · injection h with h; injection h with h1 h2; subst h2
        have := takeNai_length t; simp; omega
    · injection h with h; injection h with h1 h2; subst h2; simp

/-- `lex2.c:725-820` `pair_off_indicator_suffixes`. -/
def pairOff : List Leaf → Except Crash (List Leaf)
  | [] => .ok []
  | x :: rest =>
    if isIndicator x.tok then
      match h : takeCai (takeNai rest).2 with
      | .error e => .error e
      | .ok (c, r) =>
        match pairOff r with
        | .error e => .error e
        | .ok out => .ok ({ x with neg := x.neg || (takeNai rest).1, cai := c.or x.cai } :: out)
    else
      match pairOff rest with
      | .error e => .error e
      | .ok out => .ok (x :: out)
termination_by l => l.length
decreasing_by
  · have := takeCai_length h; have := takeNai_length rest; simp; omega
  · simp

/-- `lex2.c:834`: state of `handle_indicators`. -/
inductive XX
  | BEGIN | AFTER_INITIAL_FUHE | AFTER_INITIAL_INDICATOR | OTHER
deriving DecidableEq, Repr

/-- `lex2.c:838-895`, the loop of `handle_indicators`.  Attaching to the list head itself
(`left = []` in state `OTHER`) would lose the indicators; it is an error here. -/
def indLoop (st : XX) (left : List Node) : List Leaf → Except Crash (List Node)
  | [] => .ok left.reverse
  | x :: rest =>
    match st with
    | .BEGIN =>
      indLoop (if x.tok.isSel .FUhE then .AFTER_INITIAL_FUHE
        else if isIndicator x.tok then .AFTER_INITIAL_INDICATOR else .OTHER) ({ leaf := x } :: left) rest
    | .AFTER_INITIAL_FUHE =>
      indLoop (if isIndicator x.tok then .AFTER_INITIAL_INDICATOR else .OTHER)
        ({ leaf := x } :: left) rest
    | .AFTER_INITIAL_INDICATOR =>
      indLoop (if isIndicator x.tok then .AFTER_INITIAL_INDICATOR else .OTHER)
        ({ leaf := x } :: left) rest
    | .OTHER =>
      if isIndicator x.tok then
        match left with
        | [] => .error .outOfBounds
        | target :: l =>
          let run := (x :: rest).takeWhile (fun y => isIndicator y.tok)
          let after := rest.dropWhile (fun y => isIndicator y.tok)
          indLoop .OTHER ({ target with ui := run } :: l) after
      else indLoop .OTHER ({ leaf := x } :: left) rest
termination_by l => l.length
decreasing_by
  all_goals first
    | (simp; done)
    | (have := (List.dropWhile_suffix (p := fun y : Leaf => isIndicator y.tok) (l := rest)).length_le
       simp; omega)

/-- `lex2.c:829-896` `handle_indicators`. -/
def handleIndicators (ls : List Leaf) : Except Crash (List Node) :=
  match pairOff ls with
  | .error e => .error e
  | .ok ls' => indLoop .BEGIN [] ls'

/-- `lex2.c:907-933` `preprocess_tokens` up to (not including) `categorize_tokens`. -/
def preprocess (ts : List Tok) : Except Crash (List Node × Bool) :=
  match handleZo ts with
  | .error e => .error e
  | .ok a =>
    match handleLohu a with
    | .error e => .error e
    | .ok b =>
      match Erasure.doErasures b with
      | .error e => .error e
      | .ok c =>
        match handleZei c with
        | .error e => .error e
        | .ok (d, bad) =>
          match handleBu (handleBahe [] d) with
          | .error e => .error e
          | .ok e =>
            match handleIndicators e with
            | .error e => .error e
            | .ok f => .ok (f, bad)

end Jbo.Lex2
