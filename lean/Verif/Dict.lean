import Verif.Token

/-!
# Model of the dictionary compiler `smujajgau.c` and of the reader `dictaccs.c`

C strings are byte lists; the terminating NUL only appears in files and buffers.
Fixed work buffers of 65536 bytes are not modelled (lines are at most 65534 bytes, see
`fgets`; `preen`/`handle_mapping` may add a few bytes to a line of that length).
-/

namespace Jbo.Dict
open Jbo

abbrev Byte := UInt8
/-- A C string without its terminating NUL. -/
abbrev Str := List Byte

/-- `strcmp` (unsigned byte order, the terminating NUL sorts first). -/
def strcmp : Str → Str → Ordering
  | [], [] => .eq
  | [], _ :: _ => .lt
  | _ :: _, [] => .gt
  | a :: s, b :: t => if a < b then .lt else if b < a then .gt else strcmp s t

/-- `smujajgau.c:38-41` `Action`. -/
inductive Action
  | DEFINE | ERASE
deriving DecidableEq, Repr

/-- `smujajgau.c:47-54` `Trans`. -/
structure Trans where
  action : Action
  key : Str
  val : Str
  ord : Nat
deriving DecidableEq, Repr

/-- A call of `add_defn` (`smujajgau.c:111-129`) or `add_deletion` (`138-155`). -/
inductive Op
  | defn (key val : Str)
  | del (key : Str)
deriving DecidableEq, Repr

/-- The transaction created by one call, given the value of the counter `transord`
(`smujajgau.c:120-123`, `146-149`). -/
def Op.trans (i : Nat) : Op → Trans
  | .defn k v => { action := .DEFINE, key := k, val := v, ord := i }
  | .del k => { action := .ERASE, key := k, val := [], ord := i }

/-- The array built by `build_array` (`smujajgau.c:162-173`) after the given calls, the
counter starting at `i`: the linked list is in reverse order of creation and is copied
backwards, so the array is in order of creation. -/
def buildArray (i : Nat) : List Op → List Trans
  | [] => []
  | op :: ops => op.trans i :: buildArray (i + 1) ops

/-- `smujajgau.c:184-205` `sort_comparison`. -/
def sortComparison (a b : Trans) : Ordering :=
  match strcmp a.key b.key with
  | .eq => compare a.ord b.ord
  | r => r

/-- What the C library promises about `qsort(transac, ...)` (`smujajgau.c:212-216`): the
result is some permutation sorted by the comparison function.  Nothing is assumed about
the order of elements comparing equal. -/
def QSorted (input output : List Trans) : Prop :=
  output.Perm input ∧ output.Pairwise (fun a b => sortComparison a b ≠ .gt)

/-- `smujajgau.c:225-250` `rationalise_transactions`, on the array read from the top
(highest index) down: `t` is `transac[top]`, the span of equal keys below it is marked
`ERASE`; `t` keeps its action (if it is `ERASE`, assigning `ERASE` changes nothing). -/
def rationaliseDown : List Trans → List Trans
  | [] => []
  | t :: rest =>
    t :: ((rest.takeWhile (fun u => u.key == t.key)).map (fun u => { u with action := .ERASE }) ++
      rationaliseDown (rest.dropWhile (fun u => u.key == t.key)))
termination_by l => l.length
decreasing_by
  have := (List.dropWhile_suffix (p := fun u : Trans => u.key == t.key) (l := rest)).length_le
  simp; omega

/-- `smujajgau.c:225-250`, in array order. -/
def rationalise (l : List Trans) : List Trans := (rationaliseDown l.reverse).reverse

/-- `smujajgau.c:257-269` `compress_transactions`. -/
def compress (l : List Trans) : List Trans := l.filter (fun t => t.action == .DEFINE)

/-- `smujajgau.c:280-293` `put_long`. -/
def putLong (n : Nat) : List Byte :=
  [UInt8.ofNat (n / 2 ^ 24), UInt8.ofNat (n / 2 ^ 16), UInt8.ofNat (n / 2 ^ 8), UInt8.ofNat n]

/-- `smujajgau.c:323-330` `put_char`: only the low byte is written; a too big value merely
produces a message. -/
def putChar (n : Nat) : Byte := UInt8.ofNat n

/-- `smujajgau.c:344-352`: the table of lengths. -/
def lenTable : List (Str × Str) → List Byte
  | [] => []
  | e :: es => putChar e.1.length :: putChar e.2.length :: lenTable es

/-- `smujajgau.c:354-362`: the NUL terminated strings. -/
def blob : List (Str × Str) → List Byte
  | [] => []
  | e :: es => e.1 ++ 0 :: (e.2 ++ 0 :: blob es)

/-- The bytes written by `write_database` (`smujajgau.c:338-363`), leaving out the
histogram `wordlens` (see `writeDatabase`). -/
def fileBytes (es : List (Str × Str)) : List Byte :=
  putLong es.length ++ (lenTable es ++ blob es)

/-- `smujajgau.c:338-363` `write_database` including `++wordlens[len]` (`347`, `350`), an
array of `MKL = 256` counters: a longer key or value writes outside the array. -/
def writeDatabase (es : List (Str × Str)) : Except Crash (List Byte) :=
  if es.all (fun e => e.1.length < 256 && e.2.length < 256) then .ok (fileBytes es)
  else .error .outOfBounds

/-- `get_long` (`smujajgau.c:303-313`, `dictaccs.c:58-68`); `none` at end of file.
Simplification: the C code would continue with `EOF` as a number. -/
def getLong : List Byte → Option (Nat × List Byte)
  | a :: b :: c :: d :: r =>
    some (a.toNat * 2 ^ 24 + b.toNat * 2 ^ 16 + c.toNat * 2 ^ 8 + d.toNat, r)
  | _ => none

/-- The loop reading the length table (`smujajgau.c:388-393`, `dictaccs.c:96-101`). -/
def getLens : Nat → List Byte → Option (List (Nat × Nat) × List Byte)
  | 0, r => some ([], r)
  | n + 1, a :: b :: r =>
    match getLens n r with
    | some (ls, r') => some ((a.toNat, b.toNat) :: ls, r')
    | none => none
  | _ + 1, _ => none

/-- `dictaccs.c:141-148`: offsets of the key and value strings relative to `dict_base`. -/
def offsets (o : Nat) : List (Nat × Nat) → List (Nat × Nat)
  | [] => []
  | (k, v) :: ls => (o, o + k + 1) :: offsets (o + k + 1 + v + 1) ls

/-- The state set up by `dictaccs.c:77-151` `read_database`: the mapped string area and
the two pointers per entry. -/
structure Loaded where
  area : List Byte
  ptrs : List (Nat × Nat)
deriving DecidableEq, Repr

/-- `dictaccs.c:77-151` `read_database`.  A truncated header is `none`. -/
def load (file : List Byte) : Option Loaded :=
  match getLong file with
  | none => none
  | some (n, r) =>
    match getLens n r with
    | none => none
    | some (ls, area) => some { area := area, ptrs := offsets 0 ls }

/-- The C string starting at the head of a buffer; `none` when no NUL follows. -/
def cstr : List Byte → Option Str
  | [] => none
  | c :: r => if c = 0 then some [] else (cstr r).map (c :: ·)

/-- The bisection loop of `dict_lookup` (`dictaccs.c:196-207`); `cmp m` is
`strcmp(key, dict[m].key)`, the result is the index `m` at label `found`. -/
def bisect (cmp : Nat → Except Crash Ordering) (l h : Nat) : Except Crash (Option Nat) :=
  if l < h then
    let m := (h + l) / 2
    match cmp m with
    | .error e => .error e
    | .ok .eq => .ok (some m)
    | .ok r =>
      if m = l then .ok none
      else if r = .lt then bisect cmp l m else bisect cmp m h
  else .ok none
termination_by h - l
decreasing_by all_goals omega

/-- `strcmp(key, dict[m].key)`; reading past the end of the area is `outOfBounds`. -/
def Loaded.cmp (d : Loaded) (key : Str) (m : Nat) : Except Crash Ordering :=
  match d.ptrs[m]? with
  | none => .error .outOfBounds
  | some (k, _) =>
    match cstr (d.area.drop k) with
    | none => .error .outOfBounds
    | some s => .ok (strcmp key s)

/-- `dictaccs.c:180-211` `dict_lookup` (dictionary file present). -/
def Loaded.lookup (d : Loaded) (key : Str) : Except Crash (Option Str) :=
  match bisect (d.cmp key) 0 d.ptrs.length with
  | .error e => .error e
  | .ok none => .ok none
  | .ok (some m) =>
    match d.ptrs[m]? with
    | none => .error .outOfBounds
    | some (_, v) =>
      match cstr (d.area.drop v) with
      | none => .error .outOfBounds
      | some s => .ok (some s)

/-- `smujajgau.c:394-400`: the entries of an existing database file.  `none`: truncated
file (the C code would use stale buffer contents). -/
def readStrings : List (Nat × Nat) → List Byte → Option (List (Str × Str))
  | [], _ => some []
  | (k, v) :: ls, r =>
    if r.length < k + 1 + (v + 1) then none
    else
      match readStrings ls (r.drop (k + 1 + (v + 1))) with
      | none => none
      | some es => some (((r.take k).takeWhile (· != 0),
          ((r.drop (k + 1)).take v).takeWhile (· != 0)) :: es)

/-- `smujajgau.c:373-403` `read_database`: one `add_defn` per entry. -/
def readDatabase (file : List Byte) : Option (List Op) :=
  match getLong file with
  | none => none
  | some (n, r) =>
    match getLens n r with
    | none => none
    | some (ls, area) => (readStrings ls area).map (·.map fun e => Op.defn e.1 e.2)

/-- `smujajgau.c:412-422` `preen`. -/
def preen (s : Str) : List Op :=
  [.del (s ++ [0x6E]), .del (s ++ [0x76]), .del (s ++ [0x61]), .del (s ++ [0x74])]

/-- `isdigit` in the C locale. -/
def isDigit (c : Byte) : Bool := 0x30 ≤ c && c ≤ 0x39
/-- `isalpha` in the C locale. -/
def isAlpha (c : Byte) : Bool := (0x41 ≤ c && c ≤ 0x5A) || (0x61 ≤ c && c ≤ 0x7A)
/-- `isspace` in the C locale. -/
def isSpace (c : Byte) : Bool := c = 0x20 || (0x09 ≤ c && c ≤ 0x0D)

/-- `smujajgau.c:437-503` `handle_mapping`; `canon` stands for `canon_lujvo`.
An empty key reads `src[-1]` and uses the result (`441`).  The read of `src[len-2]` (`442`)
for one-character keys is ignored since its result is never used. -/
def handleMapping (canon : Str → Option Str) (src dest : Str) : Except Crash (List Op) :=
  match src.getLast? with
  | none => .error .outOfBounds
  | some last =>
    let definesPlace := isDigit last
    let first := (if definesPlace then preen src else []) ++ [.defn src dest]
    let base := src.takeWhile isAlpha
    if base.length ≥ 6 && definesPlace then
      match canon base with
      | some c => .ok (first ++ (preen (c ++ [last]) ++ [.defn (c ++ [last]) (0x40 :: src)]))
      | none => .ok first
    else .ok first

/-- `smujajgau.c:520-548`: one line, given as the C string `fgets` stored (not empty).
`none`: blank line, comment, or missing colon. -/
def splitLine (line : Str) : Option (Str × Str) :=
  let p := line.dropLast.dropWhile isSpace
  match p with
  | [] => none
  | c :: _ =>
    if c = 0x23 || c = 0x21 || c = 0x3B then none
    else
      match p.dropWhile (· != 0x3A) with
      | [] => none
      | _ :: r => some (p.takeWhile (· != 0x3A), r.takeWhile (· != 0x3A))

/-- `fgets(line, n + 1, f)`: up to `n` bytes, ending after a newline. -/
def fgets : Nat → List Byte → List Byte × List Byte
  | 0, r => ([], r)
  | _ + 1, [] => ([], [])
  | n + 1, c :: r =>
    if c = 0x0A then ([c], r)
    else
      let p := fgets n r
      (c :: p.1, p.2)

theorem fgets_length (n : Nat) (r : List Byte) (h : (fgets (n + 1) r).1 ≠ []) :
    (fgets (n + 1) r).2.length < r.length := by
  have aux : ∀ n r, (fgets n r).2.length ≤ r.length := by
    intro n
    induction n with
    | zero => intro r; simp [fgets]
    | succ n ih =>
      intro r
      cases r with
      | nil => simp [fgets]
      | cons c r =>
        simp only [fgets]; split
        · simp
        · have := ih r; simp; omega
  cases r with
  | nil => simp [fgets] at h
  | cons c r =>
    simp only [fgets]; split
    · simp
    · have := aux n r; simp; omega

/-- `smujajgau.c:511-551` `do_file`.  A line starting with a NUL byte makes
`line[strlen(line)-1]` an access before the buffer. -/
def doFile (canon : Str → Option Str) (inp : List Byte) : Except Crash (List Op) :=
  if _h : (fgets 65535 inp).1 = [] then .ok []
  else
    let line := (fgets 65535 inp).1.takeWhile (· != 0)
    if line = [] then .error .outOfBounds
    else
      match
        (match splitLine line with
          | none => .ok []
          | some (src, dest) => handleMapping canon src dest : Except Crash (List Op)) with
      | .error e => .error e
      | .ok ops =>
        match doFile canon (fgets 65535 inp).2 with
        | .error e => .error e
        | .ok rest => .ok (ops ++ rest)
termination_by inp.length
decreasing_by exact fgets_length 65534 inp _h

/-- The transactions gathered by `main` (`smujajgau.c:584-609`) from the old database (if
any) and the readable source files. -/
def gather (canon : Str → Option Str) (old : Option (List Byte)) (files : List (List Byte)) :
    Except Crash (List Op) :=
  let rec go : List (List Byte) → Except Crash (List Op)
    | [] => .ok []
    | f :: fs =>
      match doFile canon f, go fs with
      | .ok a, .ok b => .ok (a ++ b)
      | .error e, _ => .error e
      | _, .error e => .error e
  match old with
  | none => go files
  | some d =>
    match readDatabase d with
    | none => .error .uninit
    | some ops =>
      match go files with
      | .ok b => .ok (ops ++ b)
      | .error e => .error e

/-- The pairs left for writing after sorting, `rationalise_transactions` and
`compress_transactions` (`smujajgau.c:611-618`), given the sorted array. -/
def survivors (sorted : List Trans) : List (Str × Str) :=
  (compress (rationalise sorted)).map fun t => (t.key, t.val)

end Jbo.Dict
