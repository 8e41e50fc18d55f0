/-!
# The elision monitor (`elide.c`)

With `-se` the parser gets its words through a buffer that holds some words that may be left out and
the word after them.  Bison's parser (patched by `add_trace_to_tabc.pl`) reports its shifts and
reductions, and the monitor finds out which of the words in the buffer could be omitted.

The grammar is not modelled: which words can be shifted in which state is a parameter (the table
`elitab`, made from the output of Bison), and the shifts and reductions come in any order that Bison
could produce, or in any order at all.  What is printed is modelled as data, not as text.
-/

namespace Jbo.Elide

/-- What a read or write can do wrong. -/
inductive Crash
  | bounds | unset
deriving DecidableEq, Repr

/-- The selma'o that `token_is_elidable` knows (`elide.c:170-230`). -/
inductive Sel
  | beho | cu | fehu | gehu | kei | kehe | ku | kuhe | kuho | lihu | loho | luhu | mehu | nuhu | tehu | tuhu | vau
  | dohu | sehu | toi | boi | veho | other
deriving DecidableEq, Repr

/-- The part of a `TreeNode` that matters here (`nodes.h`): for a cmavo its selma'o, the flag
`followed_by_free`, and whether there are indicators in its list; for a marker whether its token is
one of the four of `token_is_number_marker` (`elide.c:247-257`). -/
inductive Node
  | cmavo (s : Sel) (free : Bool) (ind : Bool)
  | marker (number : Bool)
  | other
deriving DecidableEq, Repr

/-- `TokenType` (`elide.h:14-18`); `yylloc` is one number.  `node = none` is the null pointer. -/
structure Tok where
  value : Nat
  node : Option Node
  loc : Nat
deriving DecidableEq, Repr

/-- What is taken from the grammar: `can_shift_in_state` (`elide.c:108-119`), the rules for subscripts
(`LO_SUBSCRIPT` to `HI_SUBSCRIPT`), the token `CU`, the tokens of the `switch` in `yylex`
(`elide.c:694-699`), and `PRIVATE_EOF_MARK`. -/
structure Grammar where
  canShift : Nat → Nat → Bool
  subscript : Nat → Bool
  cu : Nat
  paEtc : List Nat
  eofMark : Nat
  /-- The words at which the parser can go on after an error (`lex2.c:983-991`). -/
  resume : Tok → Bool

/-- `token_is_elidable` (`elide.c:162-239`): the result and `*is_boiveho`. -/
def isElidable (t : Option Node) : Bool × Bool :=
  match t with
  | some (.cmavo s free ind) =>
    match s with
    | .dohu | .sehu | .toi => (!ind, false)
    | .boi | .veho => (!ind, true)
    | .other => (false, false)
    | _ => (!free && !ind, false)
  | _ => (false, false)

/-- `token_is_number_marker` (`elide.c:241-267`). -/
def isMarker (t : Option Node) : Bool :=
  match t with
  | some (.marker b) => b
  | _ => false

/-- `OneBitFlags` (`elide.c:33-45`). -/
structure Flags where
  boiveho : Bool
  subBefore : Bool
  marker : Bool
deriving DecidableEq, Repr

/-- The words still to be read by `yylex1` (`lex2.c:1008-1113`), and `returned_EOF`.  (Bad words do not
get this far, `main.c:263,271`.) -/
structure Src where
  rest : List Tok
  ended : Bool
deriving DecidableEq, Repr

/-- `yylex1`: after the words the end mark, then zeros.  `yylloc` keeps its value there, which is 0 here. -/
def Src.next (G : Grammar) (s : Src) : Tok × Src :=
  if s.ended then (⟨0, none, 0⟩, s)
  else match s.rest with
    | t :: rest => (t, ⟨rest, false⟩)
    | [] => (⟨G.eofMark, none, 0⟩, ⟨[], true⟩)

/-- `tokbuf` (`elide.c:52-72`) and the two static flags (`elide.c:75-76`).  `max` is the length of the
three arrays; `none` is memory that was never written. -/
structure St where
  src : Src
  n : Nat
  rp : Nat
  sp : Nat
  buf : List (Option Tok)
  conf : List (List (Option Nat))
  flags : List (Option Flags)
  prev : Bool
  cur : Bool
deriving DecidableEq, Repr

def St.start (ws : List Tok) : St := ⟨⟨ws, false⟩, 0, 0, 0, [], [], [], false, false⟩

/-- Reading an entry of an array. -/
def load {α : Type} (l : List (Option α)) (i : Nat) : Except Crash α :=
  match l[i]? with
  | none => .error .bounds
  | some none => .error .unset
  | some (some a) => .ok a

/-- `set_conflict(k, j)` (`elide.c:82-90`). -/
def setConflict (s : St) (k j : Nat) : Except Crash St :=
  match s.conf[k]? with
  | none => .error .bounds
  | some row => match load row (j / 32) with
    | .error e => .error e
    | .ok w => .ok { s with conf := s.conf.set k (row.set (j / 32) (some (w ||| 1 <<< (j % 32)))) }

/-- `is_set(k, j)` (`elide.c:96-104`). -/
def isSet (s : St) (k j : Nat) : Except Crash Bool :=
  match s.conf[k]? with
  | none => .error .bounds
  | some row => match load row (j / 32) with
    | .error e => .error e
    | .ok w => .ok (w.testBit (j % 32))

/-- One row of `clear_conflicts` (`elide.c:130-132`): entries 0 to `k >> 5`. -/
def clearRow (row : List (Option Nat)) (k : Nat) : Except Crash (List (Option Nat)) :=
  if k / 32 < row.length then .ok (List.replicate (k / 32 + 1) (some 0) ++ row.drop (k / 32 + 1)) else .error .bounds

/-- `clear_conflicts` (`elide.c:125-134`) from row `k`, for `m` rows. -/
def clear (conf : List (List (Option Nat))) (k : Nat) : Nat → Except Crash (List (List (Option Nat)))
  | 0 => .ok conf
  | m + 1 => match conf[k]? with
    | none => .error .bounds
    | some row => match clearRow row k with
      | .error e => .error e
      | .ok row => clear (conf.set k row) (k + 1) m

/-- `grow_buffer` (`elide.c:140-156`): room for 32 more words; the rows that are there keep their length. -/
def grow (s : St) : St :=
  { s with
    buf := s.buf ++ List.replicate 32 none
    flags := s.flags ++ List.replicate 32 none
    conf := s.conf ++ List.replicate 32 (List.replicate ((s.buf.length + 32) / 32) none) }

/-- One turn of the loop of `yylex` (`elide.c:668-681`): the new state and whether there is more. -/
def readOne (G : Grammar) (s : St) : Except Crash (St × Bool) :=
  let s := if s.n = s.buf.length then grow s else s
  let (t, src) := s.src.next G
  if s.n < s.buf.length ∧ s.n < s.flags.length then
    let e := isElidable t.node
    .ok ({ s with
      src := src
      n := s.n + 1
      buf := s.buf.set s.n (some t)
      flags := s.flags.set s.n (some ⟨e.2, false, isMarker t.node⟩) }, e.1)
  else .error .bounds

/-- The loop (`elide.c:667-682`).  It ends: after the last word comes the end mark, which cannot be
left out.  `fuel` is the number of words that are left, plus one. -/
def refill (G : Grammar) : Nat → St → Except Crash St
  | 0, s => .ok s
  | fuel + 1, s => match readOne G s with
    | .error e => .error e
    | .ok (s, true) => refill G fuel s
    | .ok (s, false) => .ok s

/-- `yylex` (`elide.c:628-711`) with `show_elisions`. -/
def lex (G : Grammar) (s : St) : Except Crash (St × Tok) :=
  let s := { s with prev := s.cur }
  if s.rp < s.n then
    match load s.buf s.rp with
    | .error e => .error e
    | .ok t => .ok ({ s with sp := s.rp, rp := s.rp + 1 }, t)
  else
    match refill G (s.src.rest.length + 1) { s with rp := 0, n := 0 } with
    | .error e => .error e
    | .ok s => match clear s.conf 0 s.n with
      | .error e => .error e
      | .ok conf => match load s.buf 0 with
        | .error e => .error e
        | .ok t => .ok ({ s with
            conf := conf
            sp := s.rp
            rp := s.rp + 1
            cur := if s.rp + 1 = s.n then G.paEtc.contains t.value else s.cur }, t)

/-- `yylex` without `show_elisions` (`elide.c:638-645`). -/
def lexPlain (G : Grammar) (s : Src) : Src × Tok := ((s.next G).2, (s.next G).1)

/-- The largest `j < k` with a set bit (`elide.c:322-328`); `none` is -1. -/
def canShiftAt (set : Nat → Bool) : Nat → Option Nat
  | 0 => none
  | k + 1 => if set k then some k else canShiftAt set k

/-- `show_minimal_elidables` (`elide.c:316-367`): the patterns printed, each with its words from left to
right.  `later` is `later_indices`, the last one first; `n` is `tokbuf.n`. -/
def showMinimal (set : Nat → Nat → Bool) (n : Nat) (tok : Nat) (later : List Nat) (prev : Nat) : List (List Nat) :=
  match canShiftAt (set tok) tok with
  | none => if later.length < n - 1 then [later] else []
  | some c => (List.range' c (min tok prev - c)).flatMap fun i =>
      if _h : i < tok then showMinimal set n i (i :: later) c else []
termination_by tok

/-- What is printed when the last word in the buffer is shifted: the words that may be left out, the
table of the verbose report (`elide.c:373-397`), whether all of them can be omitted, and the minimal
patterns. -/
structure Report where
  words : List Tok
  hazards : List (List Bool)
  omitAll : Bool
  patterns : List (List Nat)
deriving DecidableEq, Repr

/-- Several entries of an array or bits of a row. -/
def collect {α : Type} (f : Nat → Except Crash α) : Nat → Except Crash (List α)
  | 0 => .ok []
  | k + 1 => match collect f k with
    | .error e => .error e
    | .ok l => match f k with
      | .error e => .error e
      | .ok a => .ok (l ++ [a])

/-- The condition of the fix-up for `boi` and `ve'o` (`elide.c:458-461`), with the reads of a lazy `&&`. -/
def retreats (s : St) : Except Crash Bool :=
  if s.n ≤ 1 then .ok false
  else match load s.flags (s.n - 2) with
    | .error e => .error e
    | .ok f => if !f.boiveho then .ok false
      else match load s.flags (s.n - 1) with
        | .error e => .error e
        | .ok g => if g.subBefore then .ok false
          else match load s.buf (s.n - 2) with
            | .error e => .error e
            | .ok t => match t.node with
              | some (.cmavo _ free _) => .ok free
              | some _ => .error .unset
              | none => .error .bounds

/-- The report (`elide.c:494-533`).  The table of hazards is modelled whether `-sev` is given or not. -/
def report (s : St) : Except Crash Report :=
  match collect (fun i => load s.buf i) (s.n - 1) with
  | .error e => .error e
  | .ok words => match collect (fun i => collect (isSet s i) i) s.n with
    | .error e => .error e
    | .ok haz => match collect (isSet s (s.n - 1)) s.n with
      | .error e => .error e
      | .ok last =>
        let any := last.contains true
        let set := fun k j => (haz.getD k []).getD j false
        .ok ⟨words, haz, !any && decide (1 < s.n), if any then showMinimal set s.n (s.n - 1) [] s.n else []⟩

/-- The loops of `elide_trace_shift` (`elide.c:539-565`) and `elide_trace_reduce` (`elide.c:608-615`): mark
the words from `i` on, `m` of them, that can be shifted in the state; `skip` is the case of `CU`. -/
def mark (G : Grammar) (st j : Nat) (skip : Nat → Bool) (i : Nat) : Nat → St → Except Crash St
  | 0, s => .ok s
  | m + 1, s => match load s.buf i with
    | .error e => .error e
    | .ok t =>
      if G.canShift st t.value && !skip i then
        match setConflict s i j with
        | .error e => .error e
        | .ok s => mark G st j skip (i + 1) m s
      else mark G st j skip (i + 1) m s

/-- `elide_trace_shift` (`elide.c:405-567`). -/
def shift (G : Grammar) (s : St) (st : Nat) : Except Crash (St × Option Report) :=
  let s := { s with sp := s.rp }
  if s.sp = s.n then
    match retreats s with
    | .error e => .error e
    | .ok back =>
      let s := if back then { s with n := s.n - 1 } else s
      if s.n = 0 then .error .bounds
      else match load s.flags 0 with
        | .error e => .error e
        | .ok f => match (if f.boiveho && s.prev then load s.flags (s.n - 1) else .ok ⟨false, false, false⟩) with
          | .error e => .error e
          | .ok g => match (if f.boiveho && s.prev && g.marker then setConflict s (s.n - 1) 0 else .ok s) with
            | .error e => .error e
            | .ok s => match report s with
              | .error e => .error e
              | .ok r => .ok (s, some r)
  else
    if s.rp < s.n then
      match (if s.sp = 0 then .error .bounds else load s.buf (s.sp - 1)) with
      | .error e => .error e
      | .ok t =>
        let skip := fun i => i == s.n - 1 && s.sp == s.n - 1 && t.value == G.cu
        match mark G st (s.sp - 1) skip s.rp (s.n - s.rp) s with
        | .error e => .error e
        | .ok s => .ok (s, none)
    else .ok (s, none)

/-- `elide_trace_reduce` (`elide.c:577-618`).  Writing a bit into memory that was never written leaves it so. -/
def reduce (G : Grammar) (s : St) (st rule : Nat) : Except Crash St :=
  if G.subscript rule && decide (s.flags.length ≤ s.sp) then .error .bounds
  else
    let s := if G.subscript rule then
        { s with flags := s.flags.set s.sp ((s.flags[s.sp]?.getD none).map fun f => { f with subBefore := true }) }
      else s
    if s.sp = s.rp then .ok s
    else mark G st s.sp (fun _ => false) s.rp (s.n - s.rp) s

/-- `error_advance(0)` (`lex2.c:974-1002`), called by three rules of the grammar (`rpc2x.y:606,615,624`): the
words before the next one at which the parser can go on are skipped. -/
def Src.advance (G : Grammar) (s : Src) : Src := { s with rest := s.rest.dropWhile (fun t => !G.resume t) }

/-- What happens to the monitor: the parser asks for a word, shifts, reduces, or skips words. -/
inductive Ev
  | lex
  | advance
  | shift (st : Nat)
  | reduce (st rule : Nat)
deriving DecidableEq, Repr

/-- What comes out: the words given to the parser and the reports. -/
inductive Out
  | word (t : Tok)
  | report (r : Report)
deriving DecidableEq, Repr

def step (G : Grammar) (s : St) : Ev → Except Crash (St × List Out)
  | .lex => match lex G s with
    | .error e => .error e
    | .ok (s, t) => .ok (s, [.word t])
  | .shift st => match shift G s st with
    | .error e => .error e
    | .ok (s, none) => .ok (s, [])
    | .ok (s, some r) => .ok (s, [.report r])
  | .reduce st rule => match reduce G s st rule with
    | .error e => .error e
    | .ok s => .ok (s, [])
  | .advance => .ok ({ s with src := s.src.advance G }, [])

def run (G : Grammar) : St → List Ev → Except Crash (St × List Out)
  | s, [] => .ok (s, [])
  | s, e :: es => match step G s e with
    | .error x => .error x
    | .ok (s, o) => match run G s es with
      | .error x => .error x
      | .ok (s, os) => .ok (s, o ++ os)

end Jbo.Elide
