import Verif.Make
/-!
# Specification: where a node starts
-/

namespace Jbo.Make.Spec
open Jbo.Terms

mutual
/-- Where the first word of a tree starts; BAhE and indicators do not count. -/
def firstAt (pos : Nat → Nat × Nat) : Node → Option (Nat × Nat)
  | .nt _ t cs => if t = .augmented then firstWord pos cs else firstAll pos cs
  | x => some (pos x.id)
def firstAll (pos : Nat → Nat × Nat) : List Node → Option (Nat × Nat)
  | [] => none
  | c :: cs => (firstAt pos c).orElse fun _ => firstAll pos cs
def firstWord (pos : Nat → Nat × Nat) : List Node → Option (Nat × Nat)
  | [] => none
  | c :: cs => if c.isSel .BAhE then firstWord pos cs else firstAt pos c
end

/-- The start of a node: line 0 and column 0 if there is no word. -/
def start (pos : Nat → Nat × Nat) (x : Node) : Nat × Nat := (firstAt pos x).getD (0, 0)

end Jbo.Make.Spec
