import Verif.Dict

/-! # Specification of the dictionary (only the vocabulary `Op`, `Str` is shared) -/

namespace Jbo.DictSpec
open Jbo Dict

/-- The key a definition or deletion is about. -/
def keyOf : Op → Str
  | .defn k _ => k
  | .del k => k

/-- What a user expects of key `k` after a history: the last operation on `k` decides. -/
def latest (ops : List Op) (k : Str) : Option Str :=
  match ops.reverse.find? (fun op => keyOf op == k) with
  | some (.defn _ v) => some v
  | _ => none

/-- The string fits the one-byte length field and contains no NUL. -/
def Fits (s : Str) : Prop := s.length < 256 ∧ (0 : Byte) ∉ s

/-- All strings of an operation fit. -/
def OpFits : Op → Prop
  | .defn k v => Fits k ∧ Fits v
  | .del _ => True

end Jbo.DictSpec
