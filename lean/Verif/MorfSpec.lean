import Verif.Morf
import Verif.BcSpec
/-!
# What the morphology scanner promises
-/

namespace Jbo.Morf

/-- The word is one brivla, perhaps with cmavo before it. -/
def Brivla (t : MorfType) : Prop :=
  t = .gismu ∨ t = .lujvo ∨ t = .fuivla3 ∨ t = .fuivla3Cvc ∨ t = .fuivla3x ∨ t = .fuivla3xCvc ∨ t = .fuivla4

instance (t : MorfType) : Decidable (Brivla t) := inferInstanceAs (Decidable (_ ∨ _))

/-- The pointers when `n` characters are put before the word. -/
def Xtra.moved (n : Nat) : Xtra → Xtra
  | .none => .none
  | .stage3 h => .stage3 (h.map (· + n))
  | .cmene a => .cmene ⟨a.bad, a.split, a.found.map (fun p => (p.1 + n, p.2 + n))⟩

/-- Nothing but commas. -/
def Silent (s : List Char) : Prop := ∀ c ∈ s, c = ','

/-- The positions of consecutive pieces, the first of which is at `k`. -/
def offsets : Nat → List (List Char) → List Nat
  | _, [] => []
  | k, p :: ps => k :: offsets (k + p.length) ps

/-- The positions `st` divide the word into the pieces `ps`, each of which begins with something other than
a comma; before the first one there are at most commas. -/
def CutInto (s : List Char) (st : List Nat) (ps : List (List Char)) : Prop :=
  ∃ lead, Silent lead ∧ s = lead ++ ps.flatten ∧ (∀ p ∈ ps, ∃ c t, p = c :: t ∧ c ≠ ',') ∧ st = offsets lead.length ps

/-- A `y` that is a vowel by itself (after a consonant, or at the beginning), and another one after it. -/
def DoubleY (s : List Char) : Prop := ∃ u v, s = u ++ 'y' :: 'y' :: v ∧ Bc.LoneY u

/-- The word has a capital letter. -/
def Caps (s : List Char) : Prop := ∃ c ∈ s, 'A' ≤ c ∧ c ≤ 'Z'

instance (s : List Char) : Decidable (Caps s) := inferInstanceAs (Decidable (∃ c ∈ s, _))

/-- The word without its commas. -/
def bare (s : List Char) : List Char := s.filter (· ≠ ',')

/-- The position in `s` of letter number `k`. -/
def atLetter (s : List Char) (k : Nat) : Nat := (Bc.position s k).getD 0

def Xtra.relocated (s : List Char) : Xtra → Xtra
  | .none => .none
  | .stage3 h => .stage3 (h.map (atLetter s))
  | .cmene a => .cmene ⟨a.bad, a.split, a.found.map (fun p => (atLetter s p.1, atLetter s p.2))⟩

/-- A result for the word without commas, as a result for the word. -/
def relocated (s : List Char) : Except Dfasyn.Crash Result → Except Dfasyn.Crash Result
  | .error e => .error e
  | .ok r => .ok ⟨r.type, r.starts.map (atLetter s), r.xtra.relocated s⟩

/-- What capital letters do to the type of a word. -/
inductive Capital : MorfType → MorfType → Prop
  | cmene : Capital .cmene .cmene
  | bogus : Capital .bogus .bogus
  | bad (t) : t ≠ .cmene → Capital t .badUppercase

end Jbo.Morf
