import Verif.Token
import Verif.LujvoTable
/-!
# Making and splitting lujvo: `lujvofns.c`, `jvocuhadju.c`, `canonluj.c`

C strings are lists of characters; reading at the terminating NUL gives `'\x00'`.
-/

namespace Jbo.Lujvo

open Jbo

/-- `s[i]`, where the terminating NUL is readable. -/
def chr (s : Word) (i : Nat) : Char := s.getD i '\x00'

/-! ## `lujvofns.c` -/

/-- `attr_table` (`lujvofns.c:23-59`), entries 0x00-0x7f in octal groups of eight; all further
entries are 0. -/
def attrTable : List Nat :=
  [0, 0, 0, 0, 0, 0, 0, 0, 0, 0, 0, 0, 0, 0, 0, 0,
   0, 0, 0, 0, 0, 0, 0, 0, 0, 0, 0, 0, 0, 0, 0, 0,
   0, 0, 0, 0, 0, 0, 0, 0o10, 0, 0, 0, 0, 0, 0, 0, 0,
   0, 0, 0, 0, 0, 0, 0, 0, 0, 0, 0, 0, 0, 0, 0, 0,
   0o000, 0o202, 0o241, 0o321, 0o241, 0o202, 0o301, 0o241,
   0o200, 0o202, 0o261, 0o301, 0o201, 0o201, 0o201, 0o202,
   0o301, 0o200, 0o201, 0o321, 0o301, 0o202, 0o241, 0o200,
   0o301, 0o204, 0o261, 0, 0, 0, 0, 0,
   0o000, 0o002, 0o041, 0o121, 0o041, 0o002, 0o101, 0o041,
   0o000, 0o002, 0o061, 0o101, 0o001, 0o001, 0o001, 0o002,
   0o101, 0o000, 0o001, 0o121, 0o101, 0o002, 0o041, 0o000,
   0o101, 0o004, 0o061, 0, 0, 0, 0, 0]

/-- `attr_table[c & 0xff]`. -/
def attr (c : Char) : Nat := attrTable.getD c.toNat 0

/-- `is_consonant` (`lujvofns.c:61-63`), mask 0001. -/
def isC (c : Char) : Bool := attr c &&& 0o001 != 0

/-- `is_vowel` (`lujvofns.c:70-72`), mask 0002. -/
def isV (c : Char) : Bool := attr c &&& 0o002 != 0

/-- `is_voiced` (`lujvofns.c:74-76`), mask 0040. -/
def isVoiced (c : Char) : Bool := attr c &&& 0o040 != 0

/-- `is_unvoiced` (`lujvofns.c:78-80`), mask 0100. -/
def isUnvoiced (c : Char) : Bool := attr c &&& 0o100 != 0

/-- `is_sibilant` (`lujvofns.c:82-84`), mask 0020. -/
def isSibilant (c : Char) : Bool := attr c &&& 0o020 != 0

/-- `is_ccv` (`lujvofns.c:86-95`). -/
def isCcv (s : Word) : Bool := s.length ≥ 3 && isC (chr s 0) && isC (chr s 1) && isV (chr s 2)

/-- `is_cvv` (`lujvofns.c:97-107`). -/
def isCvv (s : Word) : Bool := s.length ≥ 3 && isC (chr s 0) && isV (chr s 1) && isV (chr s 2)

/-- `is_cvav` (`lujvofns.c:109-120`). -/
def isCvav (s : Word) : Bool :=
  s.length ≥ 4 && isC (chr s 0) && isV (chr s 1) && chr s 2 == '\'' && isV (chr s 3)

/-- `is_cvc` (`lujvofns.c:122-131`). -/
def isCvc (s : Word) : Bool := s.length ≥ 3 && isC (chr s 0) && isV (chr s 1) && isC (chr s 2)

/-- `is_cvccv` (`lujvofns.c:133-144`). -/
def isCvccv (s : Word) : Bool :=
  s.length ≥ 5 && isC (chr s 0) && isV (chr s 1) && isC (chr s 2) && isC (chr s 3) && isV (chr s 4)

/-- `is_cvccy` (`lujvofns.c:145-156`). -/
def isCvccy (s : Word) : Bool :=
  s.length ≥ 5 && isC (chr s 0) && isV (chr s 1) && isC (chr s 2) && isC (chr s 3) && chr s 4 == 'y'

/-- `is_ccvcv` (`lujvofns.c:157-168`). -/
def isCcvcv (s : Word) : Bool :=
  s.length ≥ 5 && isC (chr s 0) && isC (chr s 1) && isV (chr s 2) && isC (chr s 3) && isV (chr s 4)

/-- `is_ccvcy` (`lujvofns.c:169-180`). -/
def isCcvcy (s : Word) : Bool :=
  s.length ≥ 5 && isC (chr s 0) && isC (chr s 1) && isV (chr s 2) && isC (chr s 3) && chr s 4 == 'y'

/-- `!strncmp(s, p, n)` for a literal `p` of length `n`, when `s` is the characters `a`, `b`. -/
def pairIs (a b x y : Char) : Bool := a == x && b == y

/-- `is_pairok` on `s[0]`, `s[1]` (`lujvofns.c:181-194`). -/
def isPairok (a b : Char) : Bool :=
  let test1 := a != b
  let test2 := !((isVoiced a && isUnvoiced b) || (isVoiced b && isUnvoiced a))
  let test3 := !(isSibilant a && isSibilant b)
  let test4 := !pairIs a b 'c' 'x' && !pairIs a b 'k' 'x' && !pairIs a b 'x' 'c' &&
    !pairIs a b 'x' 'k' && !pairIs a b 'm' 'z'
  test1 && test2 && test3 && test4

/-- `strchr(set, c) != NULL`; the terminating NUL of the set is found too. -/
def strchr (set : Word) (c : Char) : Bool := set.contains c || c == '\x00'

/-- `is_initialpairok` on `s[0]`, `s[1]` (`lujvofns.c:196-223`). -/
def isInitialok (a b : Char) : Bool :=
  if ['b', 'f', 'g', 'k', 'm', 'p', 'v', 'x'].contains a then strchr ['l', 'r'] b
  else if ['c', 's'].contains a then strchr ['f', 'k', 'l', 'm', 'n', 'p', 'r', 't'] b
  else if a == 'd' then strchr ['j', 'r', 'z'] b
  else if ['j', 'z'].contains a then strchr ['b', 'd', 'g', 'm', 'v'] b
  else if a == 't' then strchr ['c', 'r', 's'] b
  else false

/-- `is_bad_triple` (`lujvofns.c:225-231`). -/
def isBadTriple (s : Word) : Bool :=
  chr s 0 == 'n' && ((chr s 1 == 't' && chr s 2 == 'c') || (chr s 1 == 't' && chr s 2 == 's') ||
    (chr s 1 == 'd' && chr s 2 == 'j') || (chr s 1 == 'd' && chr s 2 == 'z'))

/-- The main loop of `is_valid_lujvo` (`lujvofns.c:260-380`) at position `t`.  `finalCcv` is false
while the C variable `final_ccv` is still unassigned; reading it then is the outcome `uninit`. -/
def ivl (t : Word) (nrafsi : Nat) (startCvv hadRn finalCcv : Bool) : Except Crash Bool :=
  -- `nrafsi++; if (!*t) break;` and the final checks (`lujvofns.c:368-380`)
  let next (n : Nat) (sc hr fc : Bool) (h : 0 < n ∧ n ≤ t.length) : Except Crash Bool :=
    if t.drop n = [] then
      if sc then
        if nrafsi + 1 = 2 then
          if fc then .ok true else .error .uninit
        else .ok hr
      else .ok true
    else ivl (t.drop n) (nrafsi + 1) sc hr fc
  if h1 : t.length = 5 ∧ isCvccv t then
    if nrafsi = 0 then .ok false
    else if !isPairok (chr t 2) (chr t 3) then .ok false
    else next 5 startCvv hadRn finalCcv ⟨by omega, by omega⟩
  else if h2 : t.length = 5 ∧ isCcvcv t then
    if nrafsi = 0 then .ok false
    else if !isPairok (chr t 0) (chr t 1) then .ok false
    else next 5 startCvv hadRn finalCcv ⟨by omega, by omega⟩
  else if h3 : isCvccy t then
    if t.length = 5 then .ok false
    else if !isPairok (chr t 2) (chr t 3) then .ok false
    else next 5 startCvv hadRn finalCcv ⟨by omega, by simp [isCvccy] at h3; omega⟩
  else if h4 : isCcvcy t then
    if t.length = 5 then .ok false
    else if !isInitialok (chr t 0) (chr t 1) then .ok false
    else next 5 startCvv hadRn finalCcv ⟨by omega, by simp [isCcvcy] at h4; omega⟩
  else if h5 : isCvc t then
    if h6 : t.length < 6 then .ok false
    else if chr t 3 = 'y' then do
      let buf := chr t 2 :: t.drop 4
      let pairOk := isPairok (chr buf 0) (chr buf 1)
      let badTriple := isBadTriple buf
      let smabru ← if nrafsi = 0 then ivl buf 0 false false false else .ok false
      let needY := badTriple || (nrafsi == 0 && smabru)
      if pairOk && !needY then .ok false
      else next 4 startCvv hadRn finalCcv ⟨by omega, by omega⟩
    else do
      let pairOk := isPairok (chr t 2) (chr t 3)
      let badTriple := isBadTriple (t.drop 2)
      let smabru ← if nrafsi = 0 then ivl (t.drop 2) 0 false false false else .ok false
      let needY := badTriple || (nrafsi == 0 && smabru)
      if !pairOk || needY then .ok false
      else next 3 startCvv hadRn finalCcv ⟨by omega, by omega⟩
  else if h7 : isCvv t then
    if nrafsi = 0 then
      if h8 : t.length < 6 then .ok false
      else if (chr t 3 == 'r' && (isC (chr t 4) && chr t 4 != 'r')) ||
          (chr t 3 == 'n' && chr t 4 == 'r') then
        next 4 true true finalCcv ⟨by omega, by omega⟩
      else next 3 true hadRn finalCcv ⟨by omega, by omega⟩
    else next 3 startCvv hadRn finalCcv ⟨by omega, by simp [isCvv] at h7; omega⟩
  else if h9 : isCvav t then
    if nrafsi = 0 then
      if h10 : t.length < 7 then .ok false
      else if (chr t 4 == 'r' && (isC (chr t 5) && chr t 5 != 'r')) ||
          (chr t 4 == 'n' && chr t 5 == 'r') then
        next 5 true true finalCcv ⟨by omega, by omega⟩
      else next 4 true hadRn finalCcv ⟨by omega, by omega⟩
    else next 4 startCvv hadRn finalCcv ⟨by omega, by simp [isCvav] at h9; omega⟩
  else if h11 : isCcv t then
    if !isInitialok (chr t 0) (chr t 1) then .ok false
    else next 3 startCvv hadRn (finalCcv || t.length == 3) ⟨by omega, by simp [isCcv] at h11; omega⟩
  else .ok false
termination_by t.length
decreasing_by
  all_goals simp_wf
  all_goals omega

/-- `is_valid_lujvo` (`lujvofns.c:242-381`). -/
def isValidLujvo (t : Word) : Except Crash Bool := ivl t 0 false false false

/-! ## `jvocuhadju.c` -/

/-- `can_join` (`jvocuhadju.c:50-81`); the last character of an empty `s1` would be read in front of
the string, which does not happen with rafsi. -/
def canJoin (s1 s2 : Word) : Bool :=
  let e1 := s1.getLastD '\x00'
  let f2 := chr s2 0
  let test1 := isPairok e1 f2
  if isC (chr s2 1) then
    let test2 := isInitialok (chr s2 0) (chr s2 1)
    let test3 :=
      if e1 == 'n' then
        !pairIs (chr s2 0) (chr s2 1) 'd' 'j' && !pairIs (chr s2 0) (chr s2 1) 'd' 'z' &&
        !pairIs (chr s2 0) (chr s2 1) 't' 'c' && !pairIs (chr s2 0) (chr s2 1) 't' 's'
      else true
    test1 && test2 && test3
  else test1

/-- The option variables that influence the result (`jvocuhadju.c:23-26`). -/
structure Opts where
  uselong : Bool
  allowbrod : Bool
deriving DecidableEq, Repr

/-- `lookup_gismu` (`jvocuhadju.c:658-674`) together with the row of rafsi it selects. -/
def lookupGismu (w : Word) : Option (Word × List Word) := wordTable.find? (fun e => e.1 == w)

/-- The forms `r[i][0..nr[i]-1]` for one component (`jvocuhadju.c:735-768`). -/
def forms (o : Opts) (last : Bool) (w : Word) (short : List Word) : List Word :=
  if last then
    let rs := short.filter (fun x => isV (x.getLastD '\x00'))
    if (o.uselong || rs.isEmpty) && w.length == 5 then rs ++ [w] else rs
  else
    if (o.uselong || short.isEmpty) && w.length == 5 then
      if o.allowbrod || !(w.take 4 == ['b', 'r', 'o', 'd']) then short ++ [w.dropLast] else short
    else short

/-- `r[0]` has the shape CVV or CV'V. -/
def startsCv (r : Word) : Bool := isCvv r || isCvav r

/-- The hyphen `n` before `r`, otherwise `r` (`jvocuhadju.c:845-849`, `856-860`). -/
def rn (next : Word) : Char := if chr next 0 == 'r' then 'n' else 'r'

/-- `g[0]` after the first step (`jvocuhadju.c:843-862`). -/
def firstGlue : List Word → Option Char
  | r0 :: r1 :: rest =>
    if !rest.isEmpty && startsCv r0 then some (rn r1)
    else if rest.isEmpty && startsCv r0 && (!isCcv r1 || isCcvcv r1) then some (rn r1)
    else none
  | _ => none

/-- `g[i]` after the two loops that insert y (`jvocuhadju.c:866-877`).  Both loops treat each `i` on
its own and are done together here. -/
def yGlue (g : Option Char) (a b : Word) : Option Char :=
  let g := if g.isNone && !canJoin a b then some 'y' else g
  if a.length == 4 && chr a 2 != '\'' then some 'y' else g

/-- `g[i], g[i+1], ..., g[nt-2]` for the components from `i` on, where `g` is the value of `g[i]`
before the y loops. -/
def glueFrom (g : Option Char) : List Word → List (Option Char)
  | a :: b :: rest => yGlue g a b :: glueFrom none (b :: rest)
  | _ => []

/-- Concatenation of components and glue (`jvocuhadju.c:890-898`, `917-925`). -/
def glueWord : List Word → List (Option Char) → Word
  | [], _ => []
  | a :: rest, [] => a ++ glueWord rest []
  | a :: rest, g :: gs => a ++ g.toList ++ glueWord rest gs

/-- All glue characters, including the tosmabru test (`jvocuhadju.c:837-907`). -/
def glues (rs : List Word) : Except Crash (List (Option Char)) :=
  match rs, glueFrom (firstGlue rs) rs with
  | r0 :: rest, g0 :: gs =>
    if isCvc r0 && g0.isNone then do
      let temp := chr r0 2 :: glueWord rest gs
      let v ← isValidLujvo temp
      return (if v then some 'y' else g0) :: gs
    else .ok (g0 :: gs)
  | _, gs => .ok gs

/-- The rank `rr` of a component (`jvocuhadju.c:944-984`); `none` is the `exit(1)`. -/
def rank (r : Word) : Option Nat :=
  if isCvccv r then some 1
  else if isCcvcv r then some 3
  else if r.length == 4 && isC (chr r 0) && isV (chr r 1) && isC (chr r 2) && isC (chr r 3) then some 2
  else if r.length == 4 && isC (chr r 0) && isC (chr r 1) && isV (chr r 2) && isC (chr r 3) then some 4
  else if r.length == 4 && isC (chr r 0) && isV (chr r 1) && chr r 2 == '\'' && isV (chr r 3) then some 6
  else if r.length == 3 && isC (chr r 0) && isV (chr r 1) && isC (chr r 2) then some 5
  else if r.length == 3 && isC (chr r 0) && isC (chr r 1) && isV (chr r 2) then some 7
  else if r.length == 3 && isC (chr r 0) && isV (chr r 1) && isV (chr r 2) then some 8
  else none

/-- The counters `L, A, H, R, V` (`jvocuhadju.c:914`). -/
structure Counts where
  l : Int
  a : Int
  h : Int
  r : Int
  v : Int
deriving DecidableEq, Repr

/-- One round of the scoring loop for component `r` with glue `g` after it (`jvocuhadju.c:935-994`).-/
def countOne (k : Counts) (r : Word) (g : Option Char) : Except Crash Counts :=
  let l := k.l + r.length
  let a := k.a + (r.filter (· == '\'')).length
  let v := k.v + (r.filter (fun c => ['a', 'e', 'i', 'o', 'u'].contains c)).length
  let (h, l) := if g.isSome then (k.h + 1, l + 1) else (k.h, l)
  match rank r with
  | none => .error .exit1
  | some rr => .ok ⟨l, a, h, k.r + rr, v⟩

/-- The scoring loop (`jvocuhadju.c:934-994`). -/
def countAll : Counts → List Word → List (Option Char) → Except Crash Counts
  | k, [], _ => .ok k
  | k, r :: rs, [] => do countAll (← countOne k r none) rs []
  | k, r :: rs, g :: gs => do countAll (← countOne k r g) rs gs

/-- `Lujvo` (`jvocuhadju.c:676-680`); `brod` stands for `annotation == '!'`. -/
structure Form where
  word : Word
  score : Int
  brod : Bool
deriving DecidableEq, Repr

/-- The body of the main loop for one choice of components (`jvocuhadju.c:837-1000`). -/
def makeOne (rs : List Word) : Except Crash Form := do
  let gs ← glues rs
  let k ← countAll ⟨0, 0, 0, 0, 0⟩ rs gs
  return ⟨glueWord rs gs, 1000 * k.l - 500 * k.a + 100 * k.h - 10 * k.r - k.v,
    rs.any (fun r => r.length == 4 && r.take 4 == ['b', 'r', 'o', 'd'])⟩

/-- "Bump counter array" (`jvocuhadju.c:1007-1019`): counters and limits; `true` when `done`. -/
def bump : List Nat → List Nat → List Nat × Bool
  | c :: cs, n :: ns =>
    if c + 1 = n then let (cs', d) := bump cs ns; (0 :: cs', d) else ((c + 1) :: cs, false)
  | cs, _ => (cs, true)

/-- `r[i][c[i]]` for all `i`. -/
def choose (r : List (List Word)) (c : List Nat) : List Word :=
  List.zipWith (fun fs i => fs.getD i []) r c

/-- `MAX_LUJVO_COUNT` (`jvocuhadju.c:20`). -/
def maxCount : Nat := 65536

/-- The main loop (`jvocuhadju.c:836-1020`): the counter arrays it visits and `lujvo_limit_hit`;
`nl` forms have been stored before. -/
def visit (ns : List Nat) (c : List Nat) (nl : Nat) : List (List Nat) × Bool :=
  if _h : nl + 1 ≥ maxCount then ([c], true)
  else
    let (c', done) := bump c ns
    if done then ([c], false)
    else let (vs, lim) := visit ns c' (nl + 1); (c :: vs, lim)
termination_by maxCount - nl

/-- Run the loop body for each visited counter array in turn. -/
def makeAll (r : List (List Word)) : List (List Nat) → Except Crash (List Form)
  | [] => .ok []
  | c :: cs => do
    let f ← makeOne (choose r c)
    let fs ← makeAll r cs
    return f :: fs

/-- `tolower` and h to apostrophe (`jvocuhadju.c:721-725`). -/
def normChar (c : Char) : Char := if c.toLower = 'h' then '\'' else c.toLower

/-- The loop that reads the components (`jvocuhadju.c:718-771`): `t[i]` holds 6 bytes; an unknown
component is fatal. Returns the words and their forms. -/
def readComponents (o : Opts) : List Word → Except Crash (List (Word × List Word))
  | [] => .ok []
  | w :: ws =>
    if w.length > 5 then .error .outOfBounds
    else
      match lookupGismu (w.map normChar) with
      | none => .error .exit1
      | some (g, short) => do
        let rest ← readComponents o ws
        return (g, forms o ws.isEmpty g short) :: rest

/-- `makelujvo` up to the sorting (`jvocuhadju.c:699-1020`): the stored forms, in the order of
generation, and `lujvo_limit_hit`. `main` has already rejected 50 or more words
(`jvocuhadju.c:1101-1105`). -/
def makelujvo (o : Opts) (ws : List Word) : Except Crash (List Form × Bool) := do
  if ws.length ≥ 50 then .error .exit1
  let comps ← readComponents o ws
  if comps.any (fun p => p.2.isEmpty) then .error .exit1
  if ws.length < 2 then .error .exit1
  let r := comps.map (·.2)
  let (vs, lim) := visit (r.map List.length) (r.map (fun _ => 0)) 0
  let fs ← makeAll r vs
  return (fs, lim)

/-- `qsort` by score (`jvocuhadju.c:1022`): any permutation in ascending order. The order of forms with
equal score is up to the C library. -/
def SortedPerm (fs sorted : List Form) : Prop :=
  fs.Perm sorted ∧ sorted.Pairwise (fun a b => a.score ≤ b.score)

/-- The ties loop (`jvocuhadju.c:1030-1038`), after the head with score `s0`. -/
def annotTies (s0 : Int) (headBrod : Bool) : List Form → List (Char × Form)
  | [] => []
  | f :: fs =>
    let plain (f : Form) := (if f.brod then '!' else ' ', f)
    if f.score = s0 then (if headBrod then plain f else ('*', f)) :: annotTies s0 headBrod fs
    else plain f :: fs.map plain

/-- The annotations of the sorted list (`jvocuhadju.c:1024-1038`). -/
def annotate : List Form → List (Char × Form)
  | [] => []
  | f :: fs => (if f.brod then '!' else '*', f) :: annotTies f.score f.brod fs

/-- The lines that are printed, and the number of hidden forms (`jvocuhadju.c:1040-1063`); the
number formatting is left out. -/
def shown (showall : Bool) (l : List (Char × Form)) : List (Char × Form) × Nat :=
  if !showall && l.length > 8 then (l.take 8, l.length - 8) else (l, 0)

/-! ## `canonluj.c` -/

/-- `is_consonant` of `canonluj.c:32-36`; `strchr` also finds the NUL. -/
def cC (c : Char) : Bool := strchr ("bcdfgjklmnprstvxz".toList) c

/-- `is_vowel` of `canonluj.c:45-49`. -/
def cV (c : Char) : Bool := strchr ("aeiou".toList) c

/-- `contains_compound_consonant` (`canonluj.c:59-79`); positions behind the NUL cannot matter
because `cC` is asked first and then `y`.  -/
def hasCompound : Word → Bool
  | [] => false
  | p :: rest =>
    (cC p && (cC (chr rest 0) || (chr rest 0 == 'y' && cC (chr rest 1)))) || hasCompound rest

/-- `lookup_component` (`canonluj.c:104-116`): `bsearch` over the sorted table `r2g`. -/
def lookupComponent (x : Word) : Word :=
  match r2g.find? (fun e => e.1 == x) with
  | some e => e.2
  | none => ['?']

/-- `split_lujvo` (`canonluj.c:138-239`) at position `x`; `none` is NULL.  The result is given as
the list of components that C joins with `+`. -/
def splitLujvo (x : Word) : Option (List Word) :=
  -- `strip_leading_rafsi(&x, len, hy, ...)` (`canonluj.c:120-132`) and the next round
  let strip (len hy : Nat) (_h : 0 < len ∧ 5 < x.length) : Option (List Word) :=
    (splitLujvo (x.drop (len + hy))).map (fun r => lookupComponent (x.take len) :: r)
  if h2 : x.length ≤ 2 then none
  else if h4 : x.length ≤ 4 then some [lookupComponent x]
  else if h5 : x.length = 5 then some [x]
  else if chr x 3 == 'y' then strip 3 1 (by omega)
  else if chr x 4 == 'y' then strip 4 1 (by omega)
  else if chr x 5 == 'y' then strip 5 1 (by omega)
  else if chr x 6 == 'y' && chr x 3 == '\'' then strip 6 1 (by omega)
  else if !cC (chr x 0) then none
  else if cC (chr x 1) && cV (chr x 2) then strip 3 0 (by omega)
  else if cV (chr x 1) && cC (chr x 2) then strip 3 0 (by omega)
  else if cV (chr x 1) then
    if chr x 2 == '\'' then
      if cV (chr x 3) then
        if (chr x 4 == 'r' && cC (chr x 5)) || (chr x 4 == 'n' && chr x 5 == 'r') then
          strip 4 1 (by omega)
        else strip 4 0 (by omega)
      else none
    else
      if cV (chr x 2) then
        if (chr x 3 == 'r' && cC (chr x 4)) || (chr x 3 == 'n' && chr x 4 == 'r') then
          strip 3 1 (by omega)
        else strip 3 0 (by omega)
      else strip 3 0 (by omega)
  else none
termination_by x.length
decreasing_by simp_wf; omega

/-- The components joined with `+`, as the C code returns them. -/
def joinPlus : List Word → Word
  | [] => []
  | [a] => a
  | a :: rest => a ++ '+' :: joinPlus rest

/-- `canon_lujvo` (`canonluj.c:258-275`). -/
def canonLujvo (x : Word) : Option Word :=
  if x.contains '+' then some x
  else if x.length ≥ 2 && hasCompound x then (splitLujvo x).map joinPlus
  else none

end Jbo.Lujvo
