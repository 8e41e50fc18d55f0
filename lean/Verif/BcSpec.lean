/-!
# What a bad name is

Commas and case do not matter.  Nothing here mentions tokens or automata.
-/

namespace Jbo.Bc

def Vowel (c : Char) : Prop := c ∈ ['a', 'e', 'i', 'o', 'u']
def Consonant (c : Char) : Prop :=
  c ∈ ['b', 'c', 'd', 'f', 'g', 'h', 'j', 'k', 'l', 'm', 'n', 'p', 'q', 'r', 's', 't', 'v', 'w', 'x', 'z']

instance (c : Char) : Decidable (Vowel c) := inferInstanceAs (Decidable (_ ∈ _))
instance (c : Char) : Decidable (Consonant c) := inferInstanceAs (Decidable (_ ∈ _))

/-- The letters of a name: no commas, small letters. -/
def letters (word : List Char) : List Char := (word.filter (· ≠ ',')).map Char.toLower

/-- A `y` that is a vowel by itself: it follows a consonant or begins the name. -/
def LoneY (u : List Char) : Prop := u = [] ∨ ∃ v c, u = v ++ [c] ∧ Consonant c

/-- The text can begin a name: only letters and apostrophes; an apostrophe stands between vowels (`y`
included); after a lone `y` comes no vowel. -/
structure Shaped (s : List Char) : Prop where
  chars : ∀ c ∈ s, Vowel c ∨ Consonant c ∨ c = 'y' ∨ c = '\''
  before : ∀ u v, s = u ++ '\'' :: v → ∃ u' c, u = u' ++ [c] ∧ (Vowel c ∨ c = 'y')
  after : ∀ u c v, s = u ++ '\'' :: c :: v → Vowel c ∨ c = 'y'
  lone : ∀ u c v, s = u ++ 'y' :: c :: v → LoneY u → ¬ (Vowel c ∨ c = 'y')

/-- A word ends just before here, so that `la`, `lai` or `doi` would be heard as a word: at the
beginning and after vowels. -/
def BreakBefore (u : List Char) : Prop :=
  u = [] ∨ (∃ v c, u = v ++ [c] ∧ Vowel c) ∨ (∃ v, u = v ++ ['y'] ∧ ¬ LoneY v)

/-- The listener could put a break here although there is none: after a lone `y`. -/
def WeakBreakBefore (u : List Char) : Prop := ∃ v, u = v ++ ['y'] ∧ LoneY v

/-- `s` ends in a trap: `la`, `lai` or `doi` at position `i`, then a consonant or an apostrophe. -/
def Trap (brk : List Char → Prop) (s : List Char) (i : Nat) : Prop :=
  ∃ u x f, s = u ++ x ++ [f] ∧ u.length = i ∧ brk u ∧ (x = ['l', 'a'] ∨ x = ['l', 'a', 'i'] ∨ x = ['d', 'o', 'i']) ∧
    (Consonant f ∨ f = '\'')

/-- The name ends as a name must. -/
def EndsInConsonant (s : List Char) : Prop := ∃ u c, s = u ++ [c] ∧ Consonant c

/-- The position in the word of letter number `k` (commas do not count as letters). -/
def position (word : List Char) (k : Nat) : Option Nat :=
  ((List.range word.length).filter (fun p => word[p]? ≠ some ','))[k]?

/-- No beginning of `s` that is shorter than `n` letters ends in a trap. -/
def NoTrap (s : List Char) (n : Nat) : Prop :=
  ∀ p, p <+: s → p.length < n → ∀ i, ¬ Trap BreakBefore p i ∧ ¬ Trap WeakBreakBefore p i

/-- What can happen: a variable is read that was never set, a table is read outside its bounds, or
there is an answer. -/
inductive Outcome
  | unset | outside
  | says (bad cut : Bool) (found : Option (Nat × Nat))
deriving DecidableEq, Repr

/-- What the test must say.  `bad`, the flag that says that the name can be cut at the trap, and the
positions of the trap and of the letter after it; or that the memory accesses have no meaning.  The
first event counts: the first trap, or the first letter that no name can have there. -/
inductive Says (word : List Char) : Outcome → Prop
  | nothing : letters word = [] → Says word .unset
  | shapeless (p) : p <+: letters word → ¬ Shaped p → NoTrap (letters word) p.length → Says word .outside
  | cut (p i l t) : p <+: letters word → Shaped p → NoTrap (letters word) p.length → Trap BreakBefore p i →
      position word i = some l → position word (p.length - 1) = some t →
      Says word (.says true true (some (l, t)))
  | weak (p i l t) : p <+: letters word → Shaped p → NoTrap (letters word) p.length → Trap WeakBreakBefore p i →
      position word i = some l → position word (p.length - 1) = some t →
      Says word (.says true false (some (l, t)))
  | good : Shaped (letters word) → NoTrap (letters word) ((letters word).length + 1) →
      EndsInConsonant (letters word) → Says word (.says false false none)
  | noEnd : letters word ≠ [] → Shaped (letters word) → NoTrap (letters word) ((letters word).length + 1) →
      ¬ EndsInConsonant (letters word) → Says word (.says true false none)

end Jbo.Bc
