import Verif.Connect
import Verif.GramOcc
/-!
# What connectives mean

A logical connective joins two parts.  Its pattern has four letters: whether the whole is true when both parts
are true, only the first, only the second, none (*The Complete Lojban Language*, 14.1-14.3).
-/

namespace Jbo.Connect.Spec
open Jbo.Terms Jbo.Terms.Spec Jbo.Gram

/-- The four functions: or, and, if and only if, whether or not. -/
def meaning : Tr → Option (Bool → Bool → Bool)
  | .a => some fun x y => x || y
  | .e => some fun x y => x && y
  | .o => some fun x y => x == y
  | .u => some fun x _ => x
  | .q => none

/-- A part is negated or not, the parts are exchanged or not (`se`; the other words of SE have no meaning here, they
count as `se`). -/
def built (f : Bool → Bool → Bool) (neg1 conv neg2 : Bool) (x y : Bool) : Bool :=
  let x' := if neg1 then !x else x
  let y' := if neg2 then !y else y
  if conv then f y' x' else f x' y'

def letter (b : Bool) : String := if b then "T" else "F"

/-- The pattern; a question has its own. -/
def shown (f : Option (Bool → Bool → Bool)) (neg1 conv neg2 : Bool) : String :=
  match f with
  | some f => letter (built f neg1 conv neg2 true true) ++ letter (built f neg1 conv neg2 true false) ++
      letter (built f neg1 conv neg2 false true) ++ letter (built f neg1 conv neg2 false false)
  | none => "QQQQ"

/-- The words: connectives of sumti, of tanru and sentences, of bridi tails, forethought ones of tanru and of
all others. -/
def keys : Sel → List (String × Tr)
  | .A => [("a", .a), ("e", .e), ("o", .o), ("u", .u), ("ji", .q)]
  | .JA => [("ja", .a), ("je", .e), ("jo", .o), ("ju", .u), ("je'i", .q)]
  | .GIhA => [("gi'a", .a), ("gi'e", .e), ("gi'o", .o), ("gi'u", .u), ("gi'i", .q)]
  | .GUhA => [("gu'a", .a), ("gu'e", .e), ("gu'o", .o), ("gu'u", .u), ("gu'i", .q)]
  | .GA => [("ga", .a), ("ge", .e), ("go", .o), ("gu", .u), ("ge'i", .q)]
  | _ => []

/-- The nodes of afterthought and forethought connectives and their selma'o. -/
def afters : List (NT × Sel) := [(.ek, .A), (.jek, .JA), (.jekOptKe, .JA), (.jekOptKebo, .JA), (.gihek, .GIhA)]
def fores : List (NT × Sel) := [(.gek, .GA), (.guhek, .GUhA)]

/-- A word that may be there or not. -/
inductive Opt (s : Sel) : List Node → Option String → Prop
  | out : Opt s [] none
  | put {c i w} : Word c i s w → Opt s [c] (some w)

/-- Words of freemodifiers. -/
def Free (ds : List Node) : Prop := ds = [] ∨ ∃ i cs, ds = [.nt i .freeSeq cs]

/-- What is to be hung on nodes because of the node `x` with the ancestors `anc`; `neg` tells which words of NA
negate. -/
inductive Told (neg : String → Bool) : List Node → Node → Ev → Prop
  /-- `[na] [se] e [nai]` -/
  | after {anc i t s a b k j w d na se nai m} : (t, s) ∈ afters → Opt .NA a na → Opt .SE b se → Word k j s w → Opt .NAI d nai →
      (w, m) ∈ keys s →
      Told neg anc (.nt i t (a ++ b ++ k :: d)) (.truth i .after (shown (meaning m) (na.any neg) se.isSome nai.isSome))
  /-- `[se] ge [nai] … gi [nai] …`: the node itself and the `gi` get it -/
  | fore {anc p v ds i t s b k j w d z g h gi gd gz se nai nai' m n pos} : (t, s) ∈ fores →
      .nt i t (b ++ k :: d ++ z) ∈ ds → kids ds .gik = [.nt g .gik (gi :: gd ++ gz)] →
      Opt .SE b se → Word k j s w → Opt .NAI d nai → Free z →
      Word gi h .GI "gi" → Opt .NAI gd nai' → Free gz → (w, m) ∈ keys s → (n, pos) ∈ [(i, Pos.ge), (g, Pos.gi)] →
      Told neg (.nt p v ds :: anc) (.nt i t (b ++ k :: d ++ z)) (.truth n pos (shown (meaning m) nai.isSome se.isSome nai'.isSome))
  /-- `joi gi … gi [nai] …` -/
  | joi {anc p v ds i jj js k j z g h gi gd gz nai' n pos} :
      .nt i .gek (.nt jj .joik js :: k :: z) ∈ ds → kids ds .gik = [.nt g .gik (gi :: gd ++ gz)] →
      Word k j .GI "gi" → Free z → Word gi h .GI "gi" → Opt .NAI gd nai' → Free gz → (n, pos) ∈ [(i, Pos.geJoik), (g, Pos.giJoik)] →
      Told neg (.nt p v ds :: anc) (.nt i .gek (.nt jj .joik js :: k :: z)) (.joined n pos jj false nai'.isSome)
  /-- a tense with `gi [nai] … gi [nai] …` -/
  | tense {anc p v ds i jj js g1 h1 gi1 gd1 gz1 g h gi gd gz nai nai' n pos} :
      .nt i .gek [.nt jj .stag js, .nt g1 .gik (gi1 :: gd1 ++ gz1)] ∈ ds → kids ds .gik = [.nt g .gik (gi :: gd ++ gz)] →
      Word gi1 h1 .GI "gi" → Opt .NAI gd1 nai → Free gz1 → Word gi h .GI "gi" → Opt .NAI gd nai' → Free gz →
      (n, pos) ∈ [(i, Pos.geStag), (g, Pos.giStag)] →
      Told neg (.nt p v ds :: anc) (.nt i .gek [.nt jj .stag js, .nt g1 .gik (gi1 :: gd1 ++ gz1)])
        (.joined n pos jj nai.isSome nai'.isSome)

/-- The only word of NA that negates is `na`; `ja'a` affirms. -/
def naNegates (w : String) : Bool := w = "na"

/-- A text in which no afterthought connective has `ja'a`. -/
def NoJaha (top : Node) : Prop :=
  ∀ anc i t s cs c j, Occ top anc (.nt i t cs) → (t, s) ∈ afters → c ∈ cs → ¬ Word c j .NA "ja'a"

end Jbo.Connect.Spec
