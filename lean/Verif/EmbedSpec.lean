import Verif.Embed
/-!
# What the sources say
-/

namespace Jbo.Embed
open Jbo Dict

/-- A line that is a comment. -/
def Comment (l : Str) : Prop :=
  ∃ blanks rest, l = blanks ++ 0x23 :: rest ∧ ∀ c ∈ blanks, c = 0x20 ∨ c = 0x09

/-- A line that gives the word `k` the meaning `v`: `k:v` or `k:v:...`. -/
def Defines (l k v : Str) : Prop :=
  ¬ Comment l ∧ k ≠ [] ∧ v ≠ [] ∧ 0x3A ∉ k ∧ 0x3A ∉ v ∧
    ∃ rest, l = k ++ 0x3A :: v ++ rest ∧ ∀ c, rest.head? = some c → c = 0x3A

/-- The last line about a word gives it the meaning `v`. -/
def LastSays (ls : List Str) (k v : Str) : Prop :=
  ∃ pre l post, ls = pre ++ l :: post ∧ Defines l k v ∧ ∀ m ∈ post, ∀ w, ¬ Defines m k w

/-- No line is about the word. -/
def Silent (ls : List Str) (k : Str) : Prop := ∀ l ∈ ls, ∀ v, ¬ Defines l k v

/-- Words and meanings that can be written as C strings by the script. -/
def Clean (ls : List Str) : Prop :=
  ∀ l ∈ ls, ∀ k v, Defines l k v → 0x22 ∉ k ∧ 0x5C ∉ k ∧ 0x5C ∉ v

end Jbo.Embed
