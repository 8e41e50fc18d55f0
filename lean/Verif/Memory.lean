import Verif.Token

/-!
# Model of `memory.c` (allocation statistics)

Addresses are natural numbers chosen by the system allocator.  `live` is the memory content
that matters: for every live block the `unsigned long` stored in the 8 bytes before it.
The counters are 64-bit unsigned.  Clients overwriting the header are not modelled.
-/

namespace Jbo.Memory
open Jbo

/-- Arithmetic of `unsigned long` (64 bit). -/
def wrap (n : Nat) : Nat := n % 2 ^ 64

/-- `memory.c:14-15` and the headers of live blocks. -/
structure State where
  live : List (Nat × Nat) := []
  inUse : Nat := 0
  maxUse : Nat := 0
deriving DecidableEq, Repr

/-- A call together with the address the C library returned (`none`: out of memory). -/
inductive Call
  | malloc (n : Nat) (res : Option Nat)
  | realloc (old n : Nat) (res : Option Nat)
  | free (p : Nat)
deriving DecidableEq, Repr

/-- The header stored in front of block `p` (`memory.c:50-51`, `79-82`); reading it for a
block that is not live is outside the C semantics. -/
def header (s : State) (p : Nat) : Option Nat := s.live.lookup p

/-- `memory.c:28-30`, `55-57`. -/
def bump (maxUse inUse : Nat) : Nat := if inUse > maxUse then inUse else maxUse

/-- `memory.c:21-86`: `Malloc`, `Realloc`, `Free`.  A failed allocation is dereferenced. -/
def step (s : State) : Call → Except Crash State
  | .malloc n res =>
    let u := wrap (s.inUse + n)
    let m := bump s.maxUse u
    match res with
    | none => .error .nullDeref
    | some p => .ok { live := (p, n) :: s.live, inUse := u, maxUse := m }
  | .realloc old n res =>
    match header s old with
    | none => .error .outOfBounds
    | some x =>
      let u := wrap (wrap (s.inUse + 2 ^ 64 - x) + n)
      let m := bump s.maxUse u
      match res with
      | none => .error .nullDeref
      | some p => .ok { live := (p, n) :: s.live.filter (fun b => b.1 != old), inUse := u, maxUse := m }
  | .free p =>
    match header s p with
    | none => .error .outOfBounds
    | some x => .ok { s with live := s.live.filter (fun b => b.1 != p), inUse := wrap (s.inUse + 2 ^ 64 - x) }

/-- A history of calls. -/
def run (s : State) : List Call → Except Crash State
  | [] => .ok s
  | c :: cs =>
    match step s c with
    | .ok s' => run s' cs
    | .error e => .error e

end Jbo.Memory
