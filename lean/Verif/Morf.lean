import Verif.Bc
/-!
# The morphology scanner

Models `morf_scan` (`morf.c`) with its two front-end tables, which the build makes from `mk_fetab.pl`
and `mk_vfetab.pl`, on top of whatever tables `dfasyn` makes from `morf_nfa.in`.  The string is a list
of characters (bytes); pointers into it are positions counted from its beginning, `none` for `NULL`.
-/

namespace Jbo.Morf
open Jbo.Dfasyn

/-! ## The front-end tables -/

/-- `mapchar` (`morf.c:104-157`): letters go to 1 … 26, capitals with bit 7 set, the apostrophe to 30,
everything else to 31.  (The table has 256 entries; a `Char` beyond stands for nothing in C.) -/
def mapchar (c : Char) : Nat :=
  if 'a' ≤ c ∧ c ≤ 'z' then c.toNat - 96
  else if 'A' ≤ c ∧ c ≤ 'Z' then c.toNat - 64 + 128
  else if c = '\'' then 30
  else 31

/-- `vmapchar` (`morf.c:159-199`): comma 0, `y` 2, `aeiou` 3 … 7, everything else 1. -/
def vmapchar (c : Char) : Nat :=
  if c = ',' then 0
  else if c = 'y' ∨ c = 'Y' then 2
  else if c = 'a' ∨ c = 'A' then 3
  else if c = 'e' ∨ c = 'E' then 4
  else if c = 'i' ∨ c = 'I' then 5
  else if c = 'o' ∨ c = 'O' then 6
  else if c = 'u' ∨ c = 'U' then 7
  else 1

/-- `s2l` (`morf.c:64-74`). -/
def s2l : List Nat :=
  [0, 0, 3, 3, 3, 0, 3, 3, 0, 0, 3, 3, 3, 3, 1, 0, 3, 0, 2, 3, 3, 0, 3, 0, 3, 0, 3, 0, 0, 0, 0, 0]

/-- The letter that the Perl script writes for a number below 32 (`mk_fetab.pl:151-152`). -/
def letterOf (g : Nat) : Char := if g = 30 then '\'' else Char.ofNat (g + 96)

/-- The number of a letter, the other way round. -/
def num (c : Char) : Nat := if c = '\'' then 30 else c.toNat - 96

/-- `[...]` in a regular expression. -/
def isIn (set : List Nat) (g : Nat) : Bool := set.any (Nat.beq g)

/-- The sets of letters in the script. -/
def nums (s : String) : List Nat := s.toList.map num

def vowelSet : List Nat := [1, 5, 9, 15, 21]
/-- `[aeiou`]` -/
def vowelOrNone : List Nat := [1, 5, 9, 15, 21, 0]
/-- `[bcdfgjklmnprstvxz]` -/
def consSet : List Nat := [2, 3, 4, 6, 7, 10, 11, 12, 13, 14, 16, 18, 19, 20, 22, 24, 26]
/-- `[lmnr]` -/
def syllabic : List Nat := [12, 13, 14, 18]
/-- `[bdgvjz]` -/
def voiced : List Nat := [2, 4, 7, 22, 10, 26]
/-- `[ptkfcsx]` -/
def unvoiced : List Nat := [16, 20, 11, 6, 3, 19, 24]
/-- `[cjsz]` -/
def sibilant : List Nat := [3, 10, 19, 26]

/-- Pairs of letters as one number. -/
def pairs (s : List String) : List Nat :=
  s.map (fun x => match x.toList with | [a, b] => 32 * num a + num b | _ => 0)

/-- `(cx|kx|xc|xk|mz)` -/
def badPairs : List Nat := [120, 376, 771, 779, 442]
/-- `(dj|dz|tc|ts)` -/
def tripleTails : List Nat := [138, 154, 643, 659]
/-- The initial pairs (`mk_fetab.pl:247`). -/
def initialPairs : List Nat :=
  [524, 530, 204, 210, 76, 82, 716, 722, 112, 102, 116, 107, 109, 110, 108, 114, 322, 342, 324, 327, 333,
   624, 614, 628, 619, 621, 622, 620, 626, 834, 854, 836, 839, 845, 643, 658, 659, 364, 370, 138, 146, 154,
   236, 242, 428, 434, 780, 786]

/-- An entry of `inact` (`mk_fetab.pl:144-284`) for the three fields of the index: the token, the action
(0 clear, 1 shift, 2 freeze), `set` and `inh`. The conditions stand in the order of the script; `i`
is 0 for `V`, 1 for `n`, 2 for `r`, 3 for `C`; `n` is 14, `r` is 18, `l` is 12, `y` is 25. -/
def inact (i s g : Nat) : Nat × Nat × Bool × Bool :=
  let lm := isIn syllabic g
  if (i == 2 && s == 12 && g == 14) || (i == 1 && s == 12 && g == 18) then (14, 1, false, true)
  else if (i == 3 || i == 1) && s == 18 && (isIn consSet g && !(g == 18)) then
    (if lm then 14 else 13, 1, false, true)
  else if i == 2 && s == 14 && (isIn consSet g && !(g == 14)) then (if lm then 14 else 13, 1, false, true)
  else if i == 3 && s == 14 && g == 18 then (14, 1, false, true)
  else if isIn vowelSet g then (1, 0, false, false)
  else if g == 30 then (2, 0, false, false)
  else if g == 25 then (3, 2, false, false)
  else if i == 0 && isIn vowelOrNone s && g == 18 then (4, 1, true, false)
  else if i == 0 && isIn vowelOrNone s && g == 14 then (5, 1, true, false)
  else if i == 0 && isIn vowelOrNone s && isIn consSet g then (6, 1, true, false)
  else if i == 0 && s == 14 && g == 18 then (7, 1, false, true)
  else if isIn consSet s && s == g then (12, 1, false, true)
  else if isIn voiced s && isIn unvoiced g then (12, 1, false, true)
  else if isIn unvoiced s && isIn voiced g then (12, 1, false, true)
  else if isIn sibilant s && isIn sibilant g then (12, 1, false, true)
  else if i == 1 && isIn tripleTails (32 * s + g) then (15, 1, false, true)
  else if isIn badPairs (32 * s + g) then (12, 1, false, true)
  else if isIn initialPairs (32 * s + g) then (if lm then 9 else 8, 1, false, true)
  else if isIn consSet s && isIn consSet g then (if lm then 11 else 10, 1, false, true)
  else (0, 0, false, false)

/-- The sets are the sets of the script. -/
example : vowelSet = nums "aeiou" ∧ vowelOrNone = nums "aeiou`" ∧ consSet = nums "bcdfgjklmnprstvxz" ∧
    syllabic = nums "lmnr" ∧ voiced = nums "bdgvjz" ∧ unvoiced = nums "ptkfcsx" ∧ sibilant = nums "cjsz" ∧
    badPairs = pairs ["cx", "kx", "xc", "xk", "mz"] ∧ tripleTails = pairs ["dj", "dz", "tc", "ts"] ∧
    initialPairs = pairs ["pl", "pr", "fl", "fr", "bl", "br", "vl", "vr", "cp", "cf", "ct", "ck", "cm", "cn",
      "cl", "cr", "jb", "jv", "jd", "jg", "jm", "sp", "sf", "st", "sk", "sm", "sn", "sl", "sr", "zb", "zv",
      "zd", "zg", "zm", "tc", "tr", "ts", "kl", "kr", "dj", "dr", "dz", "gl", "gr", "ml", "mr", "xl", "xr"] := by
  decide +kernel

/-- An entry of `vcheck` (`mk_vfetab.pl:25-59`): the symbols are 0 comma, 1 `C`, 2 `y`, 3 … 7 `aeiou`. -/
def vcheck (i j k : Nat) : Nat :=
  if k == 0 then 0
  else if (j == 3 && k == 5) || (j == 3 && k == 7) || (j == 4 && k == 5) || (j == 6 && k == 5) then 16
  else if (j == 5 || j == 7) && Nat.ble 3 k then 17
  else if Nat.ble 3 j && Nat.ble 3 k then 18
  else if (j == 5 || j == 7) && k == 2 then 19
  else if j == 1 && k == 2 then 3
  else if (i == 1 || i == 2) && j == 2 && k == 2 then 20
  else if j == 1 && Nat.ble 3 k then 1
  else 0

/-! ## The loop -/

/-- The variables of the loop (`morf.c:210-255`).  `starts` and `cstarts` hold the positions stored in
`*buf_end` and `cstart`, last first; `vsm` is the three fields of the vowel register. -/
structure Vars where
  L : Nat
  S : Nat
  vsm : Nat × Nat × Nat
  lastAct : Nat
  inhibited : Bool
  initial : Bool
  upper : Bool
  starts : List Nat
  cstarts : List Nat
  p1 : Option Nat
  p2 : Option Nat
  hyph3 : Option Nat
  hyph4 : Option Nat
  state : Int
deriving DecidableEq, Repr

/-- The values before the loop (`morf.c:207-255`). -/
def Vars.start : Vars :=
  ⟨0, 0, (1, 1, 1), 0, false, true, false, [], [], none, none, none, none, 0⟩

/-- The attributes that the scanner asks for (`morf.c:327-339`). -/
def atS33 : Name := "AT_S3_3".toList
def atXS33 : Name := "AT_XS3_3".toList
def atS34 : Name := "AT_S3_4".toList
def atXS34 : Name := "AT_XS3_4".toList
def atUnknown : Name := "AT_UNKNOWN".toList

/-- The token for a letter (`morf.c:281-319`): the entry of `inact`, with vowels and `y` classified by
`vcheck`; two commas together (they never get here) would be unknown. -/
def token (L S G : Nat) (vsm : Nat × Nat × Nat) : Nat :=
  let tok := (inact L S G).1
  if tok = 1 then vcheck vsm.1 vsm.2.1 vsm.2.2
  else if tok = 3 then vcheck vsm.1 vsm.2.1 vsm.2.2
  else if vsm.1 = 0 ∧ vsm.2.1 = 0 then 0
  else tok

/-- The body of the loop for one letter that is not a comma (`morf.c:274-376`). -/
def letterStep (M : Generated) (v : Vars) (pos : Nat) (c : Char) : Except Crash Vars :=
  let vsm := (v.vsm.2.1, v.vsm.2.2, vmapchar c)
  let G := mapchar c % 32
  let e := inact v.L v.S G
  let act := e.2.1
  let inhibited := v.inhibited || e.2.2.2
  let tok := token v.L v.S G vsm
  if v.lastAct = 2 ∧ act = 1 ∧ 65536 ≤ v.cstarts.length then .error .bounds
  else match Bc.entry M.attrtab v.state with
  | .error x => .error x
  | .ok at_ => match nextState M.tab tok 3 v.state with
    | none => .error .recursion
    | some (.error x) => .error x
    | some (.ok ns) => .ok
      { L := if act = 0 then 0 else if act = 1 then s2l.getD v.S 0 else v.L
        S := if act = 0 then 0 else if act = 1 then G else v.S
        vsm := vsm
        lastAct := act
        inhibited := inhibited
        initial := false
        upper := v.upper || decide (128 ≤ mapchar c)
        starts := if (e.2.2.1 && !inhibited) || v.initial then pos :: v.starts else v.starts
        cstarts := if v.lastAct = 2 ∧ act = 1 then pos :: v.cstarts else v.cstarts
        p1 := some pos
        p2 := v.p1
        hyph3 := if at_ = atS33 ∨ at_ = atXS33 then v.p2 else v.hyph3
        hyph4 := if at_ = atS34 ∨ at_ = atXS34 then v.p2 else v.hyph4
        state := ns }

/-- The loop (`morf.c:264-380`). -/
def loop (M : Generated) : List Char → Nat → Vars → Except Crash Vars
  | [], _, v => .ok v
  | c :: rest, pos, v =>
    if c = ',' then loop M rest (pos + 1) v
    else match letterStep M v pos c with
      | .error x => .error x
      | .ok v' => if v'.state < 0 then .ok v' else loop M rest (pos + 1) v'

/-! ## The result -/

/-- `MorfType` (`morf.h:16-28`). -/
inductive MorfType
  | bogus | gismu | lujvo | fuivla3 | fuivla3Cvc | fuivla3x | fuivla3xCvc | fuivla4 | cmavos | cmene | badUppercase
deriving DecidableEq, Repr

/-- `enum processed_category` (`morf.c:42-54`) without the values that `morf_scan` never uses. -/
inductive Word
  | unknown | cmavos | cmavosEndCy | gismu | lujvo | culturalLujvo | fuivla3 | fuivla3Cvc | fuivla3x | fuivla3xCvc
  | fuivla4 | cmene | badTosmabru | culturalBadTosmabru | badSlinkui
deriving DecidableEq, Repr

/-- The names of the exit values that the scanner knows, and what it makes of them: the kind of word
and `decrement` (`morf.c:389-414`). -/
def exitTable : List (Name × Word × Bool) := [
  ("R_CMAVOS".toList, .cmavos, false), ("R_CMAVOS_END_CY".toList, .cmavosEndCy, false),
  ("R_GISMU_0".toList, .gismu, false), ("R_GISMU_1".toList, .gismu, true),
  ("R_LUJVO_0".toList, .lujvo, false), ("R_LUJVO_1".toList, .lujvo, true),
  ("R_CULTURAL_LUJVO_0".toList, .culturalLujvo, false), ("R_CULTURAL_LUJVO_1".toList, .culturalLujvo, true),
  ("R_STAGE3_0".toList, .fuivla3, false), ("R_STAGE3_1".toList, .fuivla3, true),
  ("R_STAGE3_1_CVC".toList, .fuivla3Cvc, true), ("R_X_STAGE3_0".toList, .fuivla3x, false),
  ("R_X_STAGE3_0_CVC".toList, .fuivla3xCvc, false), ("R_X_STAGE3_1".toList, .fuivla3x, true),
  ("R_X_STAGE3_1_CVC".toList, .fuivla3xCvc, true), ("R_STAGE4_0".toList, .fuivla4, false),
  ("R_STAGE4_1".toList, .fuivla4, true), ("R_CMENE".toList, .cmene, false),
  ("R_BAD_TOSMABRU".toList, .badTosmabru, true), ("R_CULTURAL_BAD_TOSMABRU".toList, .culturalBadTosmabru, true),
  ("R_BAD_SLINKUI".toList, .badSlinkui, false)]

def rUnknown : Name := "R_UNKNOWN".toList

/-- The kind of word and `decrement` for an exit value (`morf.c:381-414`). -/
def classify (x : Name) : Word × Bool :=
  match exitTable.find? (fun e => e.1 == x) with
  | some e => e.2
  | none => (.unknown, false)

/-- What the caller learns beyond the type: the union `morf_xtra` (`morf.h:33-45`), `none` where it
is not assigned. -/
inductive Xtra
  | none
  | stage3 (hyph : Option Nat)
  | cmene (a : Bc.Answer)
deriving DecidableEq, Repr

/-- What `morf_scan` gives back.  `starts` are the positions in the caller's array, in order;
`*buf_end` points to the last of them (in front of the array if there is none). -/
structure Result where
  type : MorfType
  starts : List Nat
  xtra : Xtra
deriving DecidableEq, Repr

/-- With a capital letter only names are allowed. -/
def small (upper : Bool) (t : MorfType) : MorfType := if upper then .badUppercase else t

/-- The rest of the function (`morf.c:415-487`, `682-684`) for the kind of word that was found.
`starts` and `cstarts` come last first. -/
def finish (B : Generated) (cultural : Bool) (s : List Char) (v : Vars) (w : Word) (decrement : Bool) :
    Except Crash Result :=
  let starts := v.starts.reverse
  let dec := if decrement then starts.dropLast else starts
  match w with
  | .cmavosEndCy => .ok ⟨small v.upper .cmavos, starts ++ v.cstarts.reverse, .none⟩
  | .cmavos => .ok ⟨small v.upper .cmavos, starts, .none⟩
  | .gismu => .ok ⟨small v.upper .gismu, dec, .none⟩
  | .lujvo => .ok ⟨small v.upper .lujvo, dec, .none⟩
  | .culturalLujvo => .ok ⟨small v.upper (if cultural then .lujvo else .bogus), dec, .none⟩
  | .fuivla3 => .ok ⟨small v.upper .fuivla3, dec, .stage3 v.hyph4⟩
  | .fuivla3Cvc => .ok ⟨small v.upper .fuivla3Cvc, dec, .stage3 v.hyph3⟩
  | .fuivla3x => .ok ⟨small v.upper .fuivla3x, dec, .stage3 v.hyph4⟩
  | .fuivla3xCvc => .ok ⟨small v.upper .fuivla3xCvc, dec, .stage3 v.hyph3⟩
  | .fuivla4 => .ok ⟨small v.upper .fuivla4, dec, .none⟩
  | .badTosmabru => .ok ⟨.bogus, dec, .none⟩
  | .culturalBadTosmabru => .ok ⟨.bogus, dec, .none⟩
  | .badSlinkui => .ok ⟨.bogus, dec, .none⟩
  | .cmene => match Bc.isBadCmene B s with
    | .error x => .error x
    | .ok a => .ok ⟨.cmene, starts.take 1, .cmene a⟩
  | .unknown => .ok ⟨.bogus, starts, .none⟩

/-- `morf_scan` (`morf.c:203-686`), not compiled with `TEST_MORF`. -/
def morfScan (M B : Generated) (cultural : Bool) (s : List Char) : Except Crash Result :=
  match loop M s 0 .start with
  | .error x => .error x
  | .ok v =>
    if v.state < 0 then .ok ⟨.bogus, v.starts.reverse, .none⟩
    else match Bc.entry M.exitval v.state with
      | .error x => .error x
      | .ok x =>
        let c := classify x
        finish B cultural s v c.1 c.2

end Jbo.Morf
