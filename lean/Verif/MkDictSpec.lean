import Verif.MkDict
/-!
# Word lists
-/

namespace Jbo.MkDict
open Jbo Dict Embed

/-- An entry of the list of gismu. -/
structure Gismu where
  word : Str
  rafsi : List Str
  eng : Str
deriving DecidableEq, Repr

def Blanks (s : Str) : Prop := ∀ c ∈ s, c = 0x20 ∨ c = 0x09
def NoBlank (s : Str) : Prop := ∀ c ∈ s, c ≠ 0x20 ∧ c ≠ 0x09

/-- Words with blanks around them and between them. -/
inductive Spaced : List Str → Str → Prop
  | nil (b : Str) : Blanks b → Spaced [] b
  | cons (b r s : Str) (rs : List Str) : Blanks b → r ≠ [] → NoBlank r →
      (rs = [] ∨ ∃ c, s.head? = some c ∧ (c = 0x20 ∨ c = 0x09)) → Spaced rs s → Spaced (r :: rs) (b ++ r ++ s)

/-- A line of the list: the word in columns 0 to 5, its rafsi in 6 to 17, the meaning from 19 to 38. -/
def Laid (g : Gismu) (l : Str) : Prop :=
  ∃ pad area x sp rest, l = g.word ++ pad ++ area ++ x :: (g.eng ++ sp ++ rest) ∧
    Blanks pad ∧ (g.word ++ pad).length = 6 ∧ Spaced g.rafsi area ∧ area.length = 12 ∧
    (∀ c ∈ sp, c = 0x20) ∧ (g.eng ++ sp).length ≤ 20 ∧ (rest = [] ∨ (g.eng ++ sp).length = 20)

/-- Text that can stand in a source of the dictionary and in a C string. -/
def Plain (s : Str) : Prop := ∀ c ∈ s, c ≠ 0x3A ∧ c ≠ 0x22 ∧ c ≠ 0x5C ∧ c ≠ 0x0A

/-- An entry without odd characters. -/
structure Gismu.Good (g : Gismu) : Prop where
  word_ne : g.word ≠ []
  word_ok : NoBlank g.word ∧ Plain g.word
  word_head : ∀ c, g.word.head? = some c → c ≠ 0x23 ∧ c ≠ 0x25 ∧ c ≠ 0x40 ∧ c ≠ 0x2B
  rafsi_ok : ∀ r ∈ g.rafsi, Plain r
  eng_ne : g.eng ≠ []
  eng_end : g.eng.getLast? ≠ some 0x20
  eng_ok : Plain g.eng

/-- A list of gismu, one on each line. -/
inductive Listed : List Gismu → List Str → Prop
  | nil : Listed [] []
  | cons {g l gs ls} : g.Good ∧ Laid g l → Listed gs ls → Listed (g :: gs) (l :: ls)

/-- The forms a gismu takes in a lujvo before its last part: its rafsi, and the word without its last letter. -/
def Gismu.Has (g : Gismu) (r : Str) : Prop := r ∈ g.rafsi ∨ (g.word.length = 5 ∧ r = g.word.take 4)

instance (g : Gismu) (r : Str) : Decidable (g.Has r) := by unfold Gismu.Has; infer_instance

/-- The last entry with a property. -/
def lastWith (p : Gismu → Prop) [DecidablePred p] (gs : List Gismu) : Option Gismu :=
  gs.reverse.find? (fun g => decide (p g))

/-- An entry of the list of cmavo. -/
structure Cmavo where
  word : Str
  selmaho : Str
  eng : Str
deriving DecidableEq, Repr

/-- A word in a column, perhaps with a pause written before it. -/
def Field (w f : Str) : Prop :=
  ∃ b dot sp, f = b ++ dot ++ w ++ sp ∧ Blanks b ∧ (dot = [] ∨ dot = [0x2E]) ∧ Blanks sp

/-- A line of the list: the cmavo in columns 0 to 9, its selma'o in 10 to 15, the meaning from 20 to 59. -/
def CLaid (c : Cmavo) (l : Str) : Prop :=
  ∃ f1 f2 x sp rest, l = f1 ++ f2 ++ x ++ (c.eng ++ sp ++ rest) ∧
    f1.length = 10 ∧ Field c.word f1 ∧ f2.length = 6 ∧ Field c.selmaho f2 ∧ x.length = 4 ∧
    Blanks sp ∧ (c.eng ++ sp).length ≤ 40 ∧ (rest = [] ∨ (c.eng ++ sp).length = 40)

/-- An entry without odd characters. -/
structure Cmavo.Good (c : Cmavo) : Prop where
  word_ne : c.word ≠ []
  word_ok : NoBlank c.word ∧ Plain c.word
  word_dot : c.word.head? ≠ some 0x2E
  word_head : ∀ d, c.word.head? = some d → d ≠ 0x23 ∧ d ≠ 0x25 ∧ d ≠ 0x40 ∧ d ≠ 0x2B
  sel_ne : c.selmaho ≠ []
  sel_ok : NoBlank c.selmaho ∧ Plain c.selmaho
  sel_dot : c.selmaho.head? ≠ some 0x2E
  eng_ne : c.eng ≠ []
  eng_end : ∀ d, c.eng.getLast? = some d → d ≠ 0x20 ∧ d ≠ 0x09
  eng_ok : Plain c.eng

/-- A list of cmavo, one on each line. -/
inductive CListed : List Cmavo → List Str → Prop
  | nil : CListed [] []
  | cons {c l cs ls} : c.Good ∧ CLaid c l → CListed cs ls → CListed (c :: cs) (l :: ls)

/-- The last line with a cmavo. -/
def lastCmavo (w : Str) (cs : List Cmavo) : Option Cmavo := cs.reverse.find? (fun c => decide (c.word = w))

end Jbo.MkDict
