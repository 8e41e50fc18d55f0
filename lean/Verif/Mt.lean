/-!
# The random number generator `rtg/mymt.c`

`unsigned long` is taken to have 64 bits.  Numbers are `Nat`; shifts to the left, products and sums are
reduced modulo `2^64`.  Every access to `state.state[625]` is checked; `none` is an access outside.
-/

namespace Jbo.Mt

/-- `state.state` (`mymt.c:70`). -/
abbrev Mem := Nat → Nat

def Mem.set (m : Mem) (i v : Nat) : Mem := fun j => if j = i then v else m j

/-- Reading and writing through a pointer into the array. -/
def rd (m : Mem) (i : Nat) : Option Nat := if i < 625 then some (m i) else none
def wr (m : Mem) (i v : Nat) : Option Mem := if i < 625 then some (m.set i v) else none

/-- The constants (`mymt.c:73-77`). -/
def M31 : Nat := 0x80000000
def M0 : Nat := 0x00000001
def M300 : Nat := 0x7fffffff
def K : Nat := 0x9908b0df
def C1 : Nat := 0x9d2c5680
def C2 : Nat := 0xefc60000

/-- The macros (`mymt.c:49-52`). -/
def msb (u : Nat) : Nat := u &&& M31
def lsb (u : Nat) : Nat := u &&& M0
def lo (u : Nat) : Nat := u &&& M300
def mix (u v : Nat) : Nat := msb u ||| lo v

/-- `struct mt_state` (`mymt.c:54-71`) without the constants; `next` is an index. -/
structure St where
  left : Int
  next : Nat
  keep : Nat
  mem : Mem

/-- `k*x + 1` (`mymt.c:99`, `102`). -/
def lcg (x : Nat) : Nat := (69069 * x + 1) % 2 ^ 64

/-- The loop of `seedmt` (`mymt.c:97-103`): `n` more entries from index `s`. -/
def seedLoop : Nat → Nat → Nat → Mem → Option Mem
  | 0, _, _, m => some m
  | n + 1, s, x, m =>
    let y := x &&& 0xffff0000
    let x := lcg x
    let y := y ||| (x &&& 0xffff0000) >>> 16
    match wr m s y with
    | none => none
    | some m => seedLoop n (s + 1) (lcg x) m

/-- `seedmt` (`mymt.c:90-104`); the other fields stay as they are. -/
def seedmt (st : St) (seed : Nat) : Option St :=
  match wr st.mem 0 seed with
  | none => none
  | some m =>
    match seedLoop 623 1 seed m with
    | none => none
    | some m => some { st with left := 0, mem := m }

/-- The registers of `reloadmt`. -/
structure Regs where
  mem : Mem
  p0 : Nat
  p2 : Nat
  pM : Nat
  a : Nat
  b : Nat
  c : Nat

/-- `mymt.c:125-131` and `160-166`: the value of `a` and `b`, then a new `a`. -/
def halfA (r : Regs) : Option Regs :=
  let p := mix r.a r.b >>> 1
  match rd r.mem r.p2 with
  | none => none
  | some a =>
    let q := if lsb r.b ≠ 0 then K else 0
    let x := r.c ^^^ p ^^^ q
    match rd r.mem r.pM with
    | none => none
    | some c =>
      match wr r.mem r.p0 x with
      | none => none
      | some m => some ⟨m, r.p0 + 1, r.p2 + 1, r.pM + 1, a, r.b, c⟩

/-- `mymt.c:132-138` and `153-159`: the value of `b` and `a`, then a new `b`. -/
def halfB (r : Regs) : Option Regs :=
  let q := mix r.b r.a >>> 1
  match rd r.mem r.p2 with
  | none => none
  | some b =>
    let s := if lsb r.a ≠ 0 then K else 0
    let y := r.c ^^^ q ^^^ s
    match rd r.mem r.pM with
    | none => none
    | some c =>
      match wr r.mem r.p0 y with
      | none => none
      | some m => some ⟨m, r.p0 + 1, r.p2 + 1, r.pM + 1, r.a, b, c⟩

/-- The first loop (`mymt.c:124-139`). -/
def loop1 : Nat → Regs → Option Regs
  | 0, r => some r
  | n + 1, r => match halfA r with
    | none => none
    | some r => match halfB r with
      | none => none
      | some r => loop1 n r

/-- The second loop (`mymt.c:152-167`). -/
def loop2 : Nat → Regs → Option Regs
  | 0, r => some r
  | n + 1, r => match halfB r with
    | none => none
    | some r => match halfA r with
      | none => none
      | some r => loop2 n r

/-- Between the loops (`mymt.c:140-149`). -/
def middle (r : Regs) : Option Regs :=
  let p := mix r.a r.b >>> 1
  match rd r.mem r.p2 with
  | none => none
  | some a =>
    let q := if lsb r.b ≠ 0 then K else 0
    let x := r.c ^^^ p ^^^ q
    match wr r.mem r.p0 x with
    | none => none
    | some m =>
      match rd m 0 with
      | none => none
      | some c =>
        match wr m 624 c with
        | none => none
        | some m => some ⟨m, r.p0 + 1, r.p2 + 1, 1, a, r.b, c⟩

/-- The array part of `reloadmt` (`mymt.c:120-170`). -/
def reloadMem (m : Mem) : Option Mem :=
  match rd m 0, rd m 1, rd m 397 with
  | some a, some b, some c =>
    match loop1 113 ⟨m, 0, 2, 398, a, b, c⟩ with
    | none => none
    | some r => match middle r with
      | none => none
      | some r => match loop2 198 r with
        | none => none
        | some r => wr r.mem 623 (r.c ^^^ (mix r.b r.a >>> 1) ^^^ (if lsb r.a ≠ 0 then K else 0))
  | _, _, _ => none

/-- `reloadmt` (`mymt.c:109-181`). -/
def reloadmt (st : St) : Option St :=
  match reloadMem st.mem with
  | none => none
  | some m => some { st with mem := m, left := 623, next := 0 }

/-- A shift to the left of an `unsigned long`. -/
def shl (y k : Nat) : Nat := (y <<< k) % 2 ^ 64

/-- The tempering of one value (`mymt.c:202-209`). -/
def temper64 (y : Nat) : Nat :=
  let y := y ^^^ (y >>> 11)
  let y := y ^^^ (shl y 7 &&& C1)
  let y := y ^^^ (shl y 15 &&& C2)
  y ^^^ (y >>> 18)

/-- `getmt` (`mymt.c:187-214`): the returned value and the new state. -/
def getmt (st : St) : Option (Nat × St) :=
  let left := st.left - 1
  match (if left < 0 then (reloadmt st).map (fun s => (s, (623 : Int))) else some (st, left)) with
  | none => none
  | some (st, left) =>
    if left % 2 = 0 then some (st.keep, { st with left := left })
    else
      match rd st.mem st.next, rd st.mem (st.next + 1) with
      | some y0, some y1 =>
        some (temper64 y0, { st with next := st.next + 2, left := left, keep := temper64 y1 })
      | _, _ => none

/-- `n` calls of `getmt`, the values in order (the loop of `main`, `mymt.c:234-238`). -/
def calls : Nat → St → Option (List Nat × St)
  | 0, st => some ([], st)
  | n + 1, st => match getmt st with
    | none => none
    | some (y, st) => match calls n st with
      | none => none
      | some (ys, st) => some (y :: ys, st)

end Jbo.Mt
