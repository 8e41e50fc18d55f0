import Verif.DfaPipeThm
/-!
# Names that the listener could cut in two

Models `is_bad_cmene` (`bccheck.c`) on top of whatever tables `dfasyn` makes from `bctables.in`.  The
string is a list of characters (bytes), positions are counted from its beginning.
-/

namespace Jbo.Bc
open Jbo.Dfasyn

/-- The letters that are neither vowels nor `y`, `d`, `l`, as the table lists them. -/
def otherConsonants : List Char := "bcfghjkmnpqrstvwxzBCFGHJKMNPQRSTVWXZ".toList

/-- `mapchar` (`bccheck.c:37-79`) with the numbers of `enum tokens` (`bccheck.c:16-19`). -/
def mapchar (c : Char) : Nat :=
  if c = 'a' ∨ c = 'A' then 0
  else if c = 'e' ∨ c = 'E' then 1
  else if c = 'i' ∨ c = 'I' then 2
  else if c = 'o' ∨ c = 'O' then 3
  else if c = 'u' ∨ c = 'U' then 4
  else if c = 'y' ∨ c = 'Y' then 5
  else if c = 'd' ∨ c = 'D' then 6
  else if c = 'l' ∨ c = 'L' then 7
  else if c ∈ otherConsonants then 8
  else if c = '\'' then 9
  else if c = ',' then 10
  else 11

/-- What the caller sees: the result, `*split`, and the two pointers if they are set. -/
structure Answer where
  bad : Bool
  split : Bool
  found : Option (Nat × Nat)
deriving DecidableEq, Repr

/-- The names of the exit values (`bccheck.c:21-26`) and of the attribute (`bccheck.c:28-31`). -/
def nOk : Name := "BC_CMENE_OK".toList
def nSplit : Name := "BC_CMENE_BAD_SPLIT".toList
def nNosplit : Name := "BC_CMENE_BAD_NOSPLIT".toList
def nNotComplete : Name := "BC_NOT_COMPLETE".toList
def nSeen : Name := "ATTR_SEEN_LD".toList
def nNone : Name := "ATTR_NONE".toList

/-- `a[i]` in C, where the index can be -1. -/
def entry (table : List Name) (i : Int) : Except Crash Name :=
  if i < 0 then .error .bounds
  else match table[i.toNat]? with
    | none => .error .bounds
    | some x => .ok x

/-- The loop (`bccheck.c:89-107`): `pos` is `p - word`, `cs`, `ns` (`none` while not assigned) and
`ladoi_1` (the same).  Returns `ns` and the two pointers.  An endless `next_state` cannot happen
(`nextState` returns `none` then; here that would be a crash). -/
def loop (G : Generated) : List Char → Nat → Int → Option Int → Option Nat →
    Except Crash (Option Int × Option (Nat × Nat))
  | [], _, _, ns, _ => .ok (ns, none)
  | c :: rest, pos, cs, ns, ladoi =>
    let mc := mapchar c
    if mc = 10 then loop G rest (pos + 1) cs ns ladoi
    else match nextState G.tab mc 3 cs with
      | none => .error .recursion
      | some (.error e) => .error e
      | some (.ok n) => match entry G.exitval n with
        | .error e => .error e
        | .ok res =>
          if res = nNosplit ∨ res = nSplit then match ladoi with
            | none => .error .uninit
            | some l => .ok (some n, some (l, pos))
          else match entry G.attrtab n with
            | .error e => .error e
            | .ok at_ => loop G rest (pos + 1) n (some n) (if at_ = nSeen then some pos else ladoi)

/-- `is_bad_cmene` (`bccheck.c:82-126`), all three pointers given. -/
def isBadCmene (G : Generated) (word : List Char) : Except Crash Answer :=
  match loop G word 0 0 none none with
  | .error e => .error e
  | .ok (none, _) => .error .uninit
  | .ok (some n, found) => match entry G.exitval n with
    | .error e => .error e
    | .ok res =>
      .ok ⟨!decide (res = nOk), decide (res = nSplit), found⟩

end Jbo.Bc
