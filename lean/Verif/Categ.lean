import Verif.Token

/-!
# Model of the marker passes of `categ.c`

The circular token list is a Lean list; the list head (`static TreeNode toks`, `lex2.c:38`) is the end of
the list on both sides: its type is `N_MARKER` with `tok == 0`, so neither `cmtest` nor `mkrtest` is true of
it.  A pass keeps the nodes before `x` in reverse order (`l`) and the nodes from `x` on (`r`).  A pointer to a
later node is the number of steps to it.  Loops that are not structural take fuel; running out of it is
`.diverge`.  A search that would run over the list head and round again is `.diverge` too (it is proved not to
happen).  Simplified: line and column of the inserted markers are not kept.
-/

namespace Jbo.Categ
open Jbo

/-- `mkrtest` (`categ.c:61-70`). -/
def mkr (m : Sel) (t : Tok) : Bool := t == .marker m

/-- `mkrtest` of the next node, if the list head does not come first. -/
def headMkr (m : Sel) : List Tok → Bool
  | t :: _ => mkr m t
  | [] => false

/-- `cmtest` (`categ.c:51-60`) of the next node. -/
def headSel (s : Sel) : List Tok → Bool
  | t :: _ => t.isSel s
  | [] => false

/-! ## Tenses -/

/-- `enum StagTokens` (`categ.c:291-318`). -/
inductive Stag
  | BAI | BU | BY | CAhA | CUhE | FAhA | FEhE | FOI | KI | LAU | MOhI | NAhE | NAI | PA | PU | ROI | SE | TAhE
  | TEI | VA | VEhA | VIhA | ZAhO | ZEhA | ZI
deriving DecidableEq, Repr

/-- `map_stag_token` (`categ.c:320-350`); `none` is -1. -/
def mapStag : Sel → Option Stag
  | .BAI => some .BAI
  | .BY => some .BY
  | .CAhA => some .CAhA
  | .CUhE => some .CUhE
  | .FAhA => some .FAhA
  | .FEhE => some .FEhE
  | .FOI => some .FOI
  | .KI => some .KI
  | .LAU => some .LAU
  | .MOhI => some .MOhI
  | .NAhE => some .NAhE
  | .NAI => some .NAI
  | .PA => some .PA
  | .PU => some .PU
  | .ROI => some .ROI
  | .SE => some .SE
  | .TAhE => some .TAhE
  | .TEI => some .TEI
  | .VA => some .VA
  | .VEhA => some .VEhA
  | .VIhA => some .VIhA
  | .ZAhO => some .ZAhO
  | .ZEhA => some .ZEhA
  | .ZI => some .ZI
  | _ => none

/-- The token of a node (`categ.c:360-361`). -/
def stagTok : Tok → Option Stag
  | .cmavo s _ => mapStag s
  | .bu _ => some .BU
  | _ => none

/-- The automaton generated by dfasyn from `stag_nfa.in`: `stag_next_state` (`none` is a negative result) and
`stag_exitval`.  That the generated tables behave like the automaton described is the subject of `Dfasyn`; here the
automaton is a parameter of the pass.  For the token -1, which occurs in no row of the tables,
`stag_next_state` is negative. -/
structure Dfa where
  σ : Type
  init : σ
  step : σ → Stag → Option σ
  acc : σ → Bool

/-- How the inner loop ends (`categ.c:358-385`): on a token that does not fit or at the list head, with
`last_ok_token`, here the number of tokens up to and including it. -/
inductive Scan
  | jam (ok : Option Nat)
  | atEnd (ok : Option Nat)
deriving DecidableEq, Repr

/-- The inner loop (`categ.c:359-383`); `n` tokens have been read. -/
def scan (A : Dfa) : A.σ → Nat → Option Nat → List Tok → Scan
  | _, _, ok, [] => .atEnd ok
  | s, n, ok, y :: ys =>
    match (stagTok y).bind (A.step s) with
    | some s' => scan A s' (n + 1) (if A.acc s' then some (n + 1) else ok) ys
    | none => .jam ok

/-- `categorize_tenses` (`categ.c:352-390`).  When the text ends and `last_ok_token` is `NULL`,
`insert_marker_after` reads through it. -/
def tenseLoop (A : Dfa) : Nat → List Tok → List Tok → Except Crash (List Tok)
  | 0, _, _ => .error .diverge
  | _ + 1, l, [] => .ok l.reverse
  | n + 1, l, x :: r =>
    match scan A A.init 0 none (x :: r) with
    | .jam none => tenseLoop A n (x :: l) r
    | .atEnd none => .error .nullDeref
    | .jam (some k) | .atEnd (some k) =>
      tenseLoop A n (.marker .PRIVATE_END_TENSE :: (((x :: r).take k).reverse ++
        .marker .PRIVATE_START_TENSE :: l)) ((x :: r).drop k)

def tenses (A : Dfa) (ts : List Tok) : Except Crash (List Tok) := tenseLoop A (ts.length + 1) [] ts

/-! ## Connectives -/

/-- `y = x->prev; if (cmtest(y, s)) y = y->prev; ...; insert_marker_after(y, m)`, on the reversed left part, and
the same forwards with `next` and `insert_marker_before`. -/
def insOpt (m : Sel) : List Sel → List Tok → List Tok
  | [], l => .marker m :: l
  | _ :: ss, [] => insOpt m ss []
  | s :: ss, t :: l => if t.isSel s then t :: insOpt m ss l else insOpt m ss (t :: l)

/-- What is put before and after a word. -/
structure Rule where
  before : List Sel
  start : Sel
  after : Option (List Sel × Sel)

/-- The loop common to the simple connective passes. -/
def walk (rule : Tok → Option Rule) : Nat → List Tok → List Tok → Except Crash (List Tok)
  | 0, _, _ => .error .diverge
  | _ + 1, l, [] => .ok l.reverse
  | n + 1, l, x :: r =>
    match rule x with
    | none => walk rule n (x :: l) r
    | some ⟨b, s, none⟩ => walk rule n (x :: insOpt s b l) r
    | some ⟨b, s, some (a, e)⟩ => walk rule n (x :: insOpt s b l) (insOpt e a r)

def pass (rule : Tok → Option Rule) (ts : List Tok) : Except Crash (List Tok) :=
  walk rule (2 * ts.length + 1) [] ts

/-- `categorize_jek` (`categ.c:72-92`). -/
def jekRule (x : Tok) : Option Rule :=
  if x.isSel .JA then some ⟨[.SE, .NA], .PRIVATE_START_JEK, some ([.NAI], .PRIVATE_END_JEK)⟩ else none

/-- `categorize_gihek` (`categ.c:93-110`). -/
def gihekRule (x : Tok) : Option Rule :=
  if x.isSel .GIhA then some ⟨[.SE, .NA], .PRIVATE_START_GIHEK, none⟩ else none

/-- `categorize_ek` (`categ.c:111-128`). -/
def ekRule (x : Tok) : Option Rule :=
  if x.isSel .A then some ⟨[.SE, .NA], .PRIVATE_START_EK, none⟩ else none

/-- `categorize_guhek` (`categ.c:129-145`). -/
def guhekRule (x : Tok) : Option Rule :=
  if x.isSel .GUhA then some ⟨[.SE], .PRIVATE_START_GUHEK, none⟩ else none

/-- `categorize_joik` (`categ.c:146-177`). -/
def joikRule (x : Tok) : Option Rule :=
  if x.isSel .JOI then some ⟨[.SE], .PRIVATE_START_JOIK, some ([.NAI], .PRIVATE_END_JOIK)⟩
  else if x.isSel .BIhI then
    some ⟨[.SE, .GAhO], .PRIVATE_START_JOIK, some ([.NAI, .GAhO], .PRIVATE_END_JOIK)⟩
  else none

/-- The steps to behind the first marker `m`. -/
def findMk (m : Sel) : List Tok → Option Nat
  | [] => none
  | t :: r => if mkr m t then some 1 else (findMk m r).map (· + 1)

/-- `backup_over_jek_joik` (`categ.c:177-214`) on the reversed left part: `none` for the result 0, else the steps
to the node before the connective. -/
def backup (l : List Tok) : Except Crash (Option Nat) :=
  let over (s : Sel) (l : List Tok) : Except Crash (Option Nat) :=
    match findMk s l with
    | none => .error .assertFail
    | some k => if l.length ≤ k then .ok none else .ok (some (k + 1))
  match l with
  | [] => .ok none
  | x :: l =>
    if mkr .PRIVATE_END_JOIK x then over .PRIVATE_START_JOIK l
    else if mkr .PRIVATE_END_JEK x then over .PRIVATE_START_JEK l
    else .ok none

/-- The loop `seek_start_tense` (`categ.c:231-254`) on the reversed left part. -/
def seekTense : Nat → List Tok → Except Crash (List Tok)
  | 0, _ => .error .diverge
  | _ + 1, [] => .error .assertFail
  | n + 1, z :: l =>
    if mkr .PRIVATE_START_TENSE z then
      match backup l with
      | .error c => .error c
      | .ok none => .ok (z :: .marker .PRIVATE_START_GEK :: l)
      | .ok (some k) =>
        if headMkr .PRIVATE_END_TENSE (l.drop k) then
          match seekTense n (l.drop (k + 1)) with
          | .error c => .error c
          | .ok l' => .ok (z :: (l.take (k + 1) ++ l'))
        else .ok (z :: .marker .PRIVATE_START_GEK :: l)
    else
      match seekTense n l with
      | .error c => .error c
      | .ok l' => .ok (z :: l')

/-- `categ.c:256-267`: the marker goes before the start of the joik, if there is one. -/
def insJoik (l : List Tok) : List Tok :=
  match findMk .PRIVATE_START_JOIK l with
  | none => l
  | some k => l.take k ++ .marker .PRIVATE_START_GEK :: l.drop k

/-- `categorize_gek` (`categ.c:216-271`). -/
def gekLoop (l : List Tok) : List Tok → Except Crash (List Tok)
  | [] => .ok l.reverse
  | x :: r =>
    if x.isSel .GA then gekLoop (x :: insOpt .PRIVATE_START_GEK [.SE] l) r
    else if x.isSel .GI then
      if headMkr .PRIVATE_END_TENSE l then
        match seekTense (l.length + 1) l with
        | .error c => .error c
        | .ok l' => gekLoop (x :: l') r
      else
        match l with
        | [] => gekLoop [x] r
        | z :: l' =>
          if mkr .PRIVATE_END_JOIK z then gekLoop (x :: z :: insJoik l') r else gekLoop (x :: z :: l') r
    else gekLoop (x :: l) r

def gek (ts : List Tok) : Except Crash (List Tok) := gekLoop [] ts

/-! ## Looking ahead for bo and ke -/

/-- Passes that put a marker before `x` depending on its neighbours. -/
def markBefore (m : Sel) (p : List Tok → Tok → List Tok → Bool) (l : List Tok) : List Tok → List Tok
  | [] => l.reverse
  | x :: r => if p l x r then markBefore m p (x :: .marker m :: l) r else markBefore m p (x :: l) r

/-- `categorize_nahe` (`categ.c:273-282`). -/
def nahe (ts : List Tok) : List Tok :=
  markBefore .PRIVATE_NAhE_BO (fun _ x r => x.isSel .NAhE && headSel .BO r) [] ts

/-- `categorize_naku` (`categ.c:827-842`). -/
def naku (ts : List Tok) : List Tok :=
  markBefore .PRIVATE_NA_KU (fun _ x r => x.isSel .NA && headSel .KU r) [] ts

/-- `categorize_ijekjoik` (`categ.c:529-546`). -/
def ijekjoik (ts : List Tok) : List Tok :=
  markBefore .PRIVATE_I_JEKJOIK (fun l x r => x.isSel .I && !headMkr .PRIVATE_I_BO l &&
    (headMkr .PRIVATE_START_JEK r || headMkr .PRIVATE_START_JOIK r)) [] ts

/-- `straddle_jek` and `straddle_joik` (`categ.c:408-421`, `439-451`): steps to behind the connective, `none` for
`NULL`. -/
def straddle (s e : Sel) : List Tok → Except Crash (Option Nat)
  | [] => .ok none
  | t :: r =>
    if mkr s t then
      match findMk e r with
      | none => .error .diverge
      | some k => .ok (some (k + 1))
    else .ok none

/-- `if (cmtest(x, s)) x = x->next`. -/
def skip (s : Sel) (r : List Tok) : Nat := if headSel s r then 1 else 0

/-- `straddle_ek` and `straddle_gihek` (`categ.c:392-406`, `423-437`). -/
def straddleCo (s c : Sel) : List Tok → Except Crash (Option Nat)
  | [] => .ok none
  | t :: r =>
    if mkr s t then
      let k := skip .NA r
      let k := k + skip .SE (r.drop k)
      if headSel c (r.drop k) then .ok (some (1 + k + 1 + skip .NAI (r.drop (k + 1)))) else .error .assertFail
    else .ok none

/-- `enum BOKE_Lookahead` (`categ.c:284-289`). -/
inductive Boke
  | bo | ke | other
deriving DecidableEq, Repr

/-- `get_lookahead_result` (`categ.c:453-465`). -/
def bokeResult (r : List Tok) : Boke := if headSel .BO r then .bo else if headSel .KE r then .ke else .other

/-- `lookahead` (`categ.c:467-498`): the result and the steps to `*end`. -/
def lookahead : Nat → List Tok → Except Crash (Boke × Nat)
  | 0, _ => .error .diverge
  | n + 1, r =>
    if headMkr .PRIVATE_START_TENSE r then
      match findMk .PRIVATE_END_TENSE r.tail with
      | none => .error .diverge
      | some k =>
        let x := r.drop (k + 1)
        if headMkr .PRIVATE_START_JEK x || headMkr .PRIVATE_START_JOIK x then
          match (if headMkr .PRIVATE_START_JEK x then straddle .PRIVATE_START_JEK .PRIVATE_END_JEK x
              else straddle .PRIVATE_START_JOIK .PRIVATE_END_JOIK x) with
          | .error c => .error c
          | .ok none => .error .assertFail
          | .ok (some j) =>
            if headMkr .PRIVATE_START_TENSE (x.drop j) then
              (lookahead n (x.drop j)).map (fun p => (p.1, k + 1 + j + p.2))
            else .ok (.other, k + 1)
        else .ok (bokeResult x, k + 1)
    else .ok (bokeResult r, 0)

/-- The steps over a jek or joik, if there is one (`categ.c:507-511`). -/
def connective (r : List Tok) : Except Crash Nat :=
  match straddle .PRIVATE_START_JEK .PRIVATE_END_JEK r with
  | .error c => .error c
  | .ok (some k) => .ok k
  | .ok none =>
    match straddle .PRIVATE_START_JOIK .PRIVATE_END_JOIK r with
    | .error c => .error c
    | .ok (some k) => .ok k
    | .ok none => .ok 0

/-- `categorize_ibo` (`categ.c:500-527`). -/
def iboLoop : Nat → List Tok → List Tok → Except Crash (List Tok)
  | 0, _, _ => .error .diverge
  | _ + 1, l, [] => .ok l.reverse
  | n + 1, l, x :: r =>
    if x.isSel .I then
      match connective r with
      | .error c => .error c
      | .ok k =>
        match lookahead (r.length + 1) (r.drop k) with
        | .error c => .error c
        | .ok (.bo, i) =>
          iboLoop n ((r.take (k + i)).reverse ++ x :: .marker .PRIVATE_I_BO :: l) (r.drop (k + i))
        | .ok (_, i) => iboLoop n ((r.take (k + i)).reverse ++ x :: l) (r.drop (k + i))
    else iboLoop n (x :: l) r

def ibo (ts : List Tok) : Except Crash (List Tok) := iboLoop (ts.length + 1) [] ts

/-- The marker put before the connective (`categ.c:561-570` and the like). -/
def bokeMark (bo ke : Sel) : Boke → List Tok
  | .bo => [.marker bo]
  | .ke => [.marker ke]
  | .other => []

/-- `categorize_jek_kebo`, `categorize_ek_kebo`, `categorize_joik_kebo`, `categorize_gihek_kebo`
(`categ.c:548-656`).  `guard` is the test of the previous node at 555 and 609. -/
def keboLoop (s bo ke : Sel) (strad : List Tok → Except Crash (Option Nat)) (guard : Bool) :
    Nat → List Tok → List Tok → Except Crash (List Tok)
  | 0, _, _ => .error .diverge
  | _ + 1, l, [] => .ok l.reverse
  | n + 1, l, x :: r =>
    if mkr s x then
      if guard && (headSel .I l || headMkr .PRIVATE_END_TENSE l) then
        keboLoop s bo ke strad guard n (x :: l) r
      else
        match strad (x :: r) with
        | .error c => .error c
        | .ok none => .error .nullDeref
        | .ok (some k) =>
          match lookahead (r.length + 2) ((x :: r).drop k) with
          | .error c => .error c
          | .ok (b, i) =>
            keboLoop s bo ke strad guard n (((x :: r).take (k + i)).reverse ++ bokeMark bo ke b ++ l)
              ((x :: r).drop (k + i))
    else keboLoop s bo ke strad guard n (x :: l) r

def kebo (s bo ke : Sel) (strad : List Tok → Except Crash (Option Nat)) (guard : Bool) (ts : List Tok) :
    Except Crash (List Tok) := keboLoop s bo ke strad guard (ts.length + 1) [] ts

def jekKebo : List Tok → Except Crash (List Tok) :=
  kebo .PRIVATE_START_JEK .PRIVATE_JEK_BO .PRIVATE_JEK_KE (straddle .PRIVATE_START_JEK .PRIVATE_END_JEK) true

def ekKebo : List Tok → Except Crash (List Tok) :=
  kebo .PRIVATE_START_EK .PRIVATE_EK_BO .PRIVATE_EK_KE (straddleCo .PRIVATE_START_EK .A) false

def joikKebo : List Tok → Except Crash (List Tok) :=
  kebo .PRIVATE_START_JOIK .PRIVATE_JOIK_BO .PRIVATE_JOIK_KE (straddle .PRIVATE_START_JOIK .PRIVATE_END_JOIK) true

def gihekKebo : List Tok → Except Crash (List Tok) :=
  kebo .PRIVATE_START_GIHEK .PRIVATE_GIHEK_BO .PRIVATE_GIHEK_KE (straddleCo .PRIVATE_START_GIHEK .GIhA) false

/-! ## Numbers and the flag for free modifiers -/

/-- The nodes over which the number passes go back (`categ.c:667-692`). -/
def isNum : Tok → Bool
  | .cmavo s _ => s == .PA || s == .BU || s == .BY || s == .LAU || s == .TEI || s == .FOI
  | .bu _ => true
  | _ => false

/-- The steps back over numbers: `count`. -/
def numRun : List Tok → Nat
  | [] => 0
  | t :: l => if isNum t then numRun l + 1 else 0

/-- `categorize_number_mai`, `_roi`, `_moi` (`categ.c:658-794`). -/
def number (s m : Sel) (l : List Tok) : List Tok → List Tok
  | [] => l.reverse
  | x :: r =>
    if x.isSel s then
      let c := numRun l
      if 0 < c then number s m (x :: (l.take c ++ .marker m :: l.drop c)) r else number s m (x :: l) r
    else number s m (x :: l) r

/-- The tokens of the cases at `categ.c:804-811`. -/
def freeSel : Sel → Bool
  | .SEI | .SOI | .COI | .DOI | .PRIVATE_NUMBER_MAI | .TO | .XI => true
  | _ => false

/-- `mark_cmavo_before_free` (`categ.c:796-825`): the field `followed_by_free` of each node (`none` if the node is no
cmavo). -/
def markFree : List Tok → List (Option Bool)
  | [] => []
  | .cmavo _ _ :: r => some (match r with
      | .cmavo s _ :: _ => freeSel s
      | _ => false) :: markFree r
  | _ :: r => none :: markFree r

/-- `categorize_tokens` (`categ.c:845-866`) up to the flags. -/
def categorize (A : Dfa) (ts : List Tok) : Except Crash (List Tok) :=
  match tenses A ts with
  | .error c => .error c
  | .ok ts => match pass jekRule ts with
    | .error c => .error c
    | .ok ts => match pass gihekRule ts with
      | .error c => .error c
      | .ok ts => match pass ekRule ts with
        | .error c => .error c
        | .ok ts => match pass guhekRule ts with
          | .error c => .error c
          | .ok ts => match pass joikRule ts with
            | .error c => .error c
            | .ok ts => match gek ts with
              | .error c => .error c
              | .ok ts => match ibo ts with
                | .error c => .error c
                | .ok ts => match jekKebo (ijekjoik ts) with
                  | .error c => .error c
                  | .ok ts => match ekKebo ts with
                    | .error c => .error c
                    | .ok ts => match joikKebo ts with
                      | .error c => .error c
                      | .ok ts => match gihekKebo ts with
                        | .error c => .error c
                        | .ok ts =>
                          let ts := number .MAI .PRIVATE_NUMBER_MAI [] ts
                          let ts := number .ROI .PRIVATE_NUMBER_ROI [] ts
                          let ts := number .MOI .PRIVATE_NUMBER_MOI [] ts
                          .ok (naku (nahe ts))

end Jbo.Categ
