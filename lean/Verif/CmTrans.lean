/-!
# `cm_translate.c`: glosses of words that are not in the dictionary of `cmafihe`

The dictionary is a function.  The static buffers of 65536 bytes are words of any length here; `CmTransThm` bounds what is written to them.
-/

namespace Jbo.CmTrans

abbrev Word := List Char

/-- `append_trans` (`cm_translate.c:40-57`). -/
def appendTrans (trans : Option Word) (result : Word) (initial : Bool) : Word :=
  match trans with
  | some t => if initial then t else result ++ ['-'] ++ t
  | none => if initial then ['?'] else result ++ ['-', '?']

/-- The switch on the conversion (`cm_translate.c:75-88`). -/
def ordinal : Nat → Word
  | 2 => "2nd conv-".toList
  | 3 => "3rd conv-".toList
  | 4 => "4th conv-".toList
  | 5 => "5th conv-".toList
  | _ => []

/-- `translate_comp` (`cm_translate.c:62-101`): the translation and the conversion that it leaves. -/
def translateComp (d : Word → Option Word) (w : Word) (conv : Nat) : Option Word × Nat :=
  if conv ≠ 0 then
    match d (w ++ [Char.ofNat ('0'.toNat + conv)]) with
    | none => (some (ordinal conv ++ (d w).getD "??".toList), conv)
    | some t => (some t, 0)
  else (d w, 0)

/-- The tests for `sel`, `ter`, `vel`, `xel` (`cm_translate.c:160-167`, `208-215`). -/
def convOf (w : Word) : Option Nat :=
  if "sel".toList.isPrefixOf w then some 2
  else if "ter".toList.isPrefixOf w then some 3
  else if "vel".toList.isPrefixOf w then some 4
  else if "xel".toList.isPrefixOf w then some 5
  else none

/-- `strchr("aeiou", w[i])`: the end of the word counts as found. -/
def vowelAt (w : Word) (i : Nat) : Bool :=
  match w[i]? with
  | none => true
  | some c => "aeiou".toList.contains c

/-- `w[i] && (w[i] == 'r' || (w[i] == 'n' && w[i+1] == 'r'))` (`cm_translate.c:199-201`, `224-226`). -/
def glueAt (w : Word) (i : Nat) : Bool := w[i]? == some 'r' || (w[i]? == some 'n' && w[i + 1]? == some 'r')

/-- The loop of `translate_lujvo` (`cm_translate.c:122-236`).  The first argument bounds the number of rounds. -/
def lujvoLoop (d : Word → Option Word) : Nat → Word → Word → Bool → Nat → Option Word
  | 0, _, _, _, _ => none
  | fuel + 1, w, result, initial, conv =>
    let next (w' result' : Word) (conv' : Nat) : Option Word := if w' = [] then some result' else lujvoLoop d fuel w' result' false conv'
    let look (n : Nat) : Word × Nat :=
      let (t, c) := translateComp d ('%' :: w.take n) conv
      (appendTrans t result initial, c)
    if w.length = 5 then some (appendTrans (translateComp d w conv).1 result initial)
    else if w.length < 5 then
      let t := (translateComp d ('%' :: w) conv).1
      some (result ++ (if initial then [] else ['-']) ++ t.getD ['?'])
    else if w.findIdx? (· == 'y') = some 3 then
      match convOf w with
      | some c => next (w.drop 4) result c
      | none => next (w.drop 4) (look 3).1 (look 3).2
    else if w.findIdx? (· == 'y') = some 4 then next (w.drop 5) (look 4).1 (look 4).2
    else if w[2]? = some '\'' then
      next (w.drop (if vowelAt w 1 && vowelAt w 3 && initial && glueAt w 4 then 5 else 4)) (look 4).1 (look 4).2
    else
      let w' := w.drop (if vowelAt w 1 && vowelAt w 2 && initial && glueAt w 3 then 4 else 3)
      match convOf w with
      | some c => next w' result c
      | none => next w' (look 3).1 (look 3).2

/-- `translate_lujvo` (`cm_translate.c:107-238`).  With enough rounds the default is not used (`lujvo_ends`). -/
def translateLujvo (d : Word → Option Word) (w : Word) : Word := (lujvoLoop d (w.length + 1) w [] true 0).getD []

/-- `is_consonant` (`cm_translate.c:242-246`). -/
def isConsonant (c : Char) : Bool := "bcdfgjklmnprstvxz".toList.contains c

/-- `is_consonant_not_r` (`cm_translate.c:250-254`). -/
def isConsonantNotR (c : Char) : Bool := "bcdfgjklmnpstvxz".toList.contains c

/-- The test for a hyphen at `i` (`cm_translate.c:286-303`). -/
def hyphenAt (w : Word) (i : Nat) : Bool :=
  match w[i - 1]?, w[i]?, w[i + 1]? with
  | some a, some h, some b =>
    (isConsonantNotR a && h == 'r' && isConsonantNotR b) ||
    (isConsonant a && isConsonant b &&
      ((a == 'n' && b == 'r' && h == 'l') || (a == 'r' && b == 'n' && h == 'l') || h == 'n'))
  | _, _, _ => false

/-- The loop over the word (`cm_translate.c:285-304`): `i` runs from 1 to `len - 3`. -/
def findHyphen (w : Word) : Option Nat := (List.range' 1 (w.length - 3)).find? (hyphenAt w)

/-- `translate_unknown` (`cm_translate.c:262-322`). -/
def translateUnknown (d : Word → Option Word) (w : Word) : Word :=
  match findHyphen w with
  | some h => translateLujvo d (w.take h) ++ "-[".toList ++ w.drop (h + 1) ++ "]".toList
  | none => translateLujvo d w

end Jbo.CmTrans
