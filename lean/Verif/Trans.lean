import Verif.Lujvo

/-!
# Glossing words: `translate.c`

The dictionary (`dict_lookup`) and the classification of words (`morf_scan`) are parameters.  Texts are lists of
characters without NUL.  Not modelled: the limit of 65536 bytes of the text buffers, the reuse of the 64 buffers of
`GETBUF`, and the messages about defects of the dictionary.
-/

namespace Jbo.Trans

open Jbo

/-- Undefined behaviour that ends the model, and a recursion without end. -/
inductive Crash
  | overflow
  | outOfBounds
  | nullDeref
  | diverge
deriving DecidableEq, Repr

deriving instance DecidableEq for Except

/-- `TransContext` (`functions.h:131-136`). -/
inductive Ctx
  | noun
  | verb
  | qual
  | tag
deriving DecidableEq, Repr

/-! ## Components of a lujvo -/

/-- `Component` (`translate.c:30-35`); `places` are the entries 1 to 5 of the array, entry 0 is never written. -/
structure Comp where
  start : Nat
  pureStart : Nat
  text : Word
  places : List Nat
deriving DecidableEq, Repr

/-- `places[i]`; entry 0 is never written, entries from 6 on do not exist. -/
def Comp.place (c : Comp) (i : Int) : Except Crash Nat :=
  if 1 ≤ i ∧ i ≤ 5 then .ok (c.places.getD (i.toNat - 1) 0) else .error .outOfBounds

/-- The test at `translate.c:762-765`. -/
def convOf (w : Word) : Nat :=
  if w = ['s', 'e'] then 2
  else if w = ['t', 'e'] then 3
  else if w = ['v', 'e'] then 4
  else if w = ['x', 'e'] then 5
  else 0

/-- Exchange of `places[1]` and `places[k]` (`translate.c:767-769`, `conversion.c:151-153`). -/
def exchange (ps : List Nat) (k : Nat) : List Nat := (ps.set 0 (ps.getD (k - 1) 0)).set (k - 1) (ps.getD 0 0)

/-- `split_into_comps` (`translate.c:742-787`), the loop at 758.  The first argument is the text up to `p`, reversed; a
component has 6 bytes of text, the array has 32 components.  An exchange before there is a component (`nc = 0`)
works on the uninitialised `comp[0]`, which is overwritten later or not counted. -/
def splitLoop (rev : Word) (comp : List Comp) : Except Crash (List Comp) :=
  match rev with
  | [] => .ok comp
  | x :: xs =>
    let q := ((x :: xs).takeWhile (· != '+')).reverse
    let rest := (x :: xs).dropWhile (· != '+')
    let p := rest.length - 1
    if 0 < convOf q then
      match comp with
      | [] => splitLoop rest.tail []
      | c :: cs => splitLoop rest.tail ({ c with places := exchange c.places (convOf q), start := p } :: cs)
    else if 32 < comp.length + 1 then .error .overflow
    else if 6 < q.length + 1 then .error .overflow
    else splitLoop rest.tail (⟨p, p, q, [1, 2, 3, 4, 5]⟩ :: comp)
termination_by rev.length
decreasing_by
  all_goals
    have h : ((x :: xs).dropWhile (· != '+')).length ≤ (x :: xs).length := (List.dropWhile_sublist _).length_le
    simp only [List.length_tail, List.length_cons] at *
    omega

/-- `split_into_comps` from its beginning. -/
def splitComps (canon : Word) : Except Crash (List Comp) := splitLoop canon.reverse []

/-! ## English endings -/

/-- `isspace` in the C locale. -/
def isSpace (c : Char) : Bool := c == ' ' || c == '\t' || c == '\n' || c == '\x0b' || c == '\x0c' || c == '\r'

/-- `strncmp(y, p, strlen(p)) == 0`. -/
def hasPrefix (p : String) (y : Word) : Bool := p.toList.isPrefixOf y

/-- `starts_with_preposition` (`translate.c:298-313`). -/
def startsPrep (x : Word) : Bool :=
  let y := x.dropWhile isSpace
  hasPrefix "in" y || hasPrefix "at" y || hasPrefix "with" y || hasPrefix "through" y

/-- `basic_trans` (`translate.c:314-331`). -/
def basicTrans : Word → Word
  | [] => []
  | [c] => [c]
  | c :: d :: r => if c != '*' || !isSpace d then c :: basicTrans (d :: r) else basicTrans (d :: r)

/-- `is_ok_after_star` (`translate.c:332-335`); `none` is the NUL. -/
def okAfterStar : Option Char → Bool
  | none => true
  | some c => isSpace c || c == '/'

/-- The first star (`strchr`), if what follows it is right: head and rest (`translate.c:347-356`, `386-395`, `423-432`). -/
def splitStar (x : Word) : Option (Word × Word) :=
  match x.dropWhile (· != '*') with
  | [] => none
  | _ :: r => if okAfterStar r.head? then some (x.takeWhile (· != '*'), r) else none

theorem splitStar_shorter {x h r : Word} (e : splitStar x = some (h, r)) : h.length < x.length ∧ r.length < x.length := by
  have hs := congrArg List.length (List.takeWhile_append_dropWhile (p := (· != '*')) (l := x))
  unfold splitStar at e
  split at e
  · cases e
  · rename_i c r' hd
    split at e
    · cases e
      rw [List.length_append, hd, List.length_cons] at hs
      omega
    · cases e

/-- The last letters, from the end. -/
def lastIs (x : Word) (c : Char) : Bool := x.getLast? == some c

/-- The letter before the last, if there are two. -/
def beforeLast (x : Word) : Option Char := x.dropLast.getLast?

/-- `make_plural` without a star (`translate.c:365-376`). -/
def pluralPlain (x : Word) : Word :=
  if lastIs x 's' || lastIs x 'z' || lastIs x 'x' then x ++ "(es)".toList
  else if lastIs x 'h' && beforeLast x == some 'c' then x ++ "(es)".toList
  else if lastIs x 'y' && (match beforeLast x with
    | none => false
    | some c => "bcdfghjklmnpqrstvwxz".toList.contains c) then x ++ "(ies)".toList
  else x ++ "(s)".toList

/-- `make_plural` (`translate.c:337-379`). -/
def makePlural (x : Word) : Word :=
  match _e : splitStar x with
  | some (h, r) => makePlural h ++ (if r.contains '*' then makePlural r else r)
  | none => pluralPlain x
termination_by x.length
decreasing_by all_goals have := splitStar_shorter _e; omega

/-- `append_er` without a star (`translate.c:407-413`). -/
def erPlain (x : Word) : Word := if lastIs x 'e' then x ++ "-r(s)".toList else x ++ "-er(s)".toList

/-- `append_er` (`translate.c:380-416`). -/
def appendEr (x : Word) : Word :=
  match _e : splitStar x with
  | some (h, r) => appendEr h ++ (if startsPrep r then [] else " of".toList) ++ (if r.contains '*' then appendEr r else r)
  | none => erPlain x
termination_by x.length
decreasing_by all_goals have := splitStar_shorter _e; omega

/-- `append_ing` without a star (`translate.c:442-451`). -/
def ingPlain (x : Word) : Word :=
  if lastIs x 'e' && (match beforeLast x with
    | none => false
    | some c => !"aeiou".toList.contains c) then x.dropLast ++ "-ing".toList
  else x ++ "-ing".toList

/-- `append_ing` (`translate.c:417-454`). -/
def appendIng (x : Word) : Word :=
  match _e : splitStar x with
  | some (h, r) => appendIng h ++ (if r.contains '*' then appendIng r else r)
  | none => ingPlain x
termination_by x.length
decreasing_by all_goals have := splitStar_shorter _e; omega

/-- `wordclass` (`translate.c:533`). -/
inductive Class
  | discrete
  | substance
  | actor
  | property
  | reverse
  | idiomatic
deriving DecidableEq, Repr

/-- `translate.c:540-566`. -/
def classOf (c : Char) : Option Class :=
  if c = 'D' ∨ c = 'E' then some .discrete
  else if c = 'S' then some .substance
  else if c = 'A' then some .actor
  else if c = 'P' then some .property
  else if c = 'R' then some .reverse
  else if c = 'I' then some .idiomatic
  else none

/-- `translate.c:570-691`: the gloss of class `k` for the word `w1` and the noun form `w1n` (empty if there is none). -/
def glossIn (k : Class) (ctx : Ctx) (w1 w1n : Word) : Word :=
  match k, ctx with
  | .discrete, .noun => makePlural w1
  | .discrete, .verb => if w1n ≠ [] then "being ".toList ++ w1n else "being ".toList ++ makePlural w1
  | .discrete, .qual => basicTrans w1 ++ "-ish".toList
  | .discrete, .tag => if w1n ≠ [] then w1n else makePlural w1
  | .substance, .noun => basicTrans w1
  | .substance, .verb => if w1n ≠ [] then "being ".toList ++ w1n else "being ".toList ++ w1
  | .substance, .qual => w1 ++ "-ish".toList
  | .substance, .tag => if w1n ≠ [] then w1n else w1
  | .actor, .noun => appendEr w1
  | .actor, .tag => appendEr w1
  | .actor, .verb => appendIng w1
  | .actor, .qual => appendIng w1
  | .property, .noun => w1 ++ " thing(s)".toList
  | .property, .verb => "being ".toList ++ w1
  | .property, .qual => w1
  | .property, .tag => w1 ++ " thing(s)".toList
  | .reverse, .noun => "thing(s) ".toList ++ w1
  | .reverse, .verb => "being ".toList ++ w1
  | .reverse, .qual => w1
  | .reverse, .tag => "thing(s) ".toList ++ w1
  | .idiomatic, .noun => "thing(s) ".toList ++ appendIng w1
  | .idiomatic, .tag => "thing(s) ".toList ++ appendIng w1
  | .idiomatic, .verb => appendIng w1
  | .idiomatic, .qual => appendIng w1

/-- `fix_trans_in_context` (`translate.c:531-704`); `none` is the null pointer.  For an empty `trans` the code looks at a
stale byte behind the NUL; the model takes it not to be `;`. -/
def fixTrans (trans : Word) (ctx : Ctx) (w1n : Word) : Option Word :=
  match trans with
  | k :: ';' :: w1 => match classOf k with
    | some c => some (glossIn c ctx w1 w1n)
    | none => none
  | _ => some trans

/-! ## Lookup -/

/-- `"%1d"`. -/
def digits (n : Int) : Word := (toString n).toList

/-- `ctx_suffix` (`translate.c:925`). -/
def suffixOf : Ctx → Char
  | .noun => 'n'
  | .verb => 'v'
  | .qual => 'q'
  | .tag => 't'

/-- `translate.c:717-728`. -/
def ctxOf (c : Char) : Ctx :=
  if c = 'v' then .verb else if c = 'q' then .qual else if c = 't' then .tag else .noun

/-- What `morf_scan` says (`translate.c:144-195`): nothing known, no way, a lujvo, a fu'ivla of stage 3 with the position of
its hyphen, a name. -/
inductive Morf
  | giveUp
  | hopeless
  | lujvo
  | fuivla (hyph : Nat)
  | cmene
deriving DecidableEq, Repr

/-- `adv_translate` as it is called from below. -/
abbrev Adv := Word → Int → Ctx → Except Crash Word

/-- `*p - '0'`. -/
def digitOf (c : Char) : Int := (c.toNat : Int) - 48

/-- `subst_base_in_pattern` (`translate.c:705-741`).  A `%` without two more letters makes the code run past the end. -/
def substBase (adv : Adv) (base : Word) : Word → Except Crash Word
  | [] => .ok []
  | '%' :: d :: k :: r =>
    match adv base (digitOf d) (ctxOf k) with
    | .error e => .error e
    | .ok t => match substBase adv base r with
      | .error e => .error e
      | .ok u => .ok (t ++ u)
  | '%' :: _ => .error .outOfBounds
  | c :: r => match substBase adv base r with
    | .error e => .error e
    | .ok u => .ok (c :: u)

/-- The test for `@` (`translate.c:828`, `961`), with what follows. -/
def atSign : Word → Option Word
  | [] => none
  | c :: r => if c = '@' then some r else none

/-- The cut at `translate.c:800-814`: generic part, specific part and place.  A component that was never written is read
out of bounds here. -/
def templateCut (suffix : Bool) (gather : Nat) (orig : Word) (comp : List Comp) (place : Int) :
    Except Crash (Word × Word × Nat) :=
  if suffix then
    if comp.length < gather then .error .outOfBounds
    else match comp[comp.length - gather]? with
      | none => .error .outOfBounds
      | some c => match c.place place with
        | .error e => .error e
        | .ok n => .ok (orig.drop c.pureStart, orig.take c.start, n)
  else match comp[gather]?, comp[gather - 1]? with
    | some c, some d => match d.place place with
      | .error e => .error e
      | .ok n => .ok (orig.take (c.start + 1), orig.drop (c.start + 1), n)
    | _, _ => .error .outOfBounds

/-- `lookup_template_match` (`translate.c:788-850`). -/
def template (dict : Word → Option Word) (adv : Adv) (prec : Nat) (suffix : Bool) (gather : Nat) (orig : Word)
    (comp : List Comp) (place : Int) (ctx : Ctx) : Except Crash (Option Word) :=
  match templateCut suffix gather orig comp place with
  | .error e => .error e
  | .ok (generic, specific, n) =>
    let key := '*' :: digits prec ++ generic ++ digits n
    let found := match dict (key ++ [suffixOf ctx]) with
      | some t => some (t, true)
      | none => match dict key with
        | some t => some (t, false)
        | none => none
    match found with
    | none => .ok none
    | some (trans, full) => match atSign trans with
      | some r => match adv specific (digitOf (r.headD '\x00')) ctx with
        | .error e => .error e
        | .ok t => .ok (some t)
      | none => match substBase adv specific trans with
        | .error e => .error e
        | .ok subst =>
          if full then .ok (some subst)
          else .ok (fixTrans subst ctx ((dict (key ++ ['n'])).getD []))

/-- The loop over `gather` (`translate.c:901-911`). -/
def gathers (dict : Word → Option Word) (adv : Adv) (prec : Nat) (suffix : Bool) (orig : Word) (comp : List Comp)
    (place : Int) (ctx : Ctx) : List Nat → Except Crash (Option Word)
  | [] => .ok none
  | g :: gs => match template dict adv prec suffix g orig comp place ctx with
    | .error e => .error e
    | .ok none => .ok none
    | .ok (some t) => if t ≠ ['-'] then .ok (some t) else gathers dict adv prec suffix orig comp place ctx gs

/-- The loops over `prec` and `suffix` (`translate.c:899-900`). -/
def precs (dict : Word → Option Word) (adv : Adv) (orig : Word) (comp : List Comp) (place : Int) (ctx : Ctx) :
    List (Nat × Bool) → Except Crash (Option Word)
  | [] => .ok none
  | (prec, suffix) :: r => match gathers dict adv prec suffix orig comp place ctx [1, 2] with
    | .error e => .error e
    | .ok none => precs dict adv orig comp place ctx r
    | .ok (some t) => .ok (some t)

/-- The order of precedence and side. -/
def precOrder : List (Nat × Bool) :=
  [(5, true), (5, false), (4, true), (4, false), (3, true), (3, false), (2, true), (2, false), (1, true), (1, false),
    (0, true), (0, false)]

/-- `attempt_pattern_match` (`translate.c:851-918`).  The canonical form lies in a static buffer which a nested call may
overwrite; the model keeps it.  The code looks at it again only behind a template that gave `-`. -/
def attemptPattern (dict : Word → Option Word) (adv : Adv) (w : Word) (place : Int) (ctx : Ctx) :
    Except Crash (Option Word) :=
  match Lujvo.canonLujvo w with
  | none => .ok none
  | some canon =>
    if !canon.contains '+' then .ok none
    else match splitComps canon with
      | .error e => .error e
      | .ok [c] => match c.place place with
        | .error e => .error e
        | .ok n => match adv c.text n ctx with
          | .error e => .error e
          | .ok t => .ok (some t)
      | .ok comp => precs dict adv canon comp place ctx precOrder

/-- The loop of `translate_lujvo` (`translate.c:80-90`). -/
def lujvoParts (adv : Adv) (place : Int) : List Comp → Except Crash (List Word)
  | [] => .ok []
  | c :: cs =>
    match c.place (if cs = [] then place else 1) with
    | .error e => .error e
    | .ok n => match adv c.text n (if cs = [] then .noun else .qual) with
      | .error e => .error e
      | .ok t => match lujvoParts adv place cs with
        | .error e => .error e
        | .ok ts => .ok (t :: ts)

/-- `translate_lujvo` (`translate.c:58-94`). -/
def transLujvo (adv : Adv) (w : Word) (place : Int) : Except Crash (Option Word) :=
  match Lujvo.canonLujvo w with
  | none => .ok (some ['?'])
  | some canon => match splitComps canon with
    | .error e => .error e
    | .ok comp =>
      if comp.length < 2 then .ok none
      else match lujvoParts adv place comp with
        | .error e => .error e
        | .ok ts => .ok (some (['-'].intercalate ts))

/-- The loop of `translate_fuivla_prefix` (`translate.c:107-117`). -/
def prefixParts (adv : Adv) (ctx : Ctx) : List Comp → Except Crash (List Word)
  | [] => .ok []
  | c :: cs =>
    match c.place 1 with
    | .error e => .error e
    | .ok n => match adv c.text n (if cs = [] then ctx else .qual) with
      | .error e => .error e
      | .ok t => match prefixParts adv ctx cs with
        | .error e => .error e
        | .ok ts => .ok (t :: ts)

/-- `translate_fuivla_prefix` (`translate.c:95-119`): `strcpy` from a null pointer if there is no canonical form. -/
def fuivlaPrefix (adv : Adv) (w : Word) (ctx : Ctx) : Except Crash Word :=
  match Lujvo.canonLujvo w with
  | none => .error .nullDeref
  | some canon => match splitComps canon with
    | .error e => .error e
    | .ok comp => match prefixParts adv ctx comp with
      | .error e => .error e
      | .ok ts => .ok (['-'].intercalate ts)

/-- `translate.c:174-177`: the text from the first letter behind the hyphen. -/
def behindHyphen (w : Word) : Word := ((w.dropWhile (· == ',')).drop 1).dropWhile (· == ',')

/-- `translate_unknown` (`translate.c:120-197`). -/
def transUnknown (morf : Word → Morf) (adv : Adv) (w : Word) (place : Int) (ctx : Ctx) : Except Crash (Option Word) :=
  if w.contains '+' then transLujvo adv w place
  else match morf w with
    | .giveUp => .ok none
    | .hopeless => .ok (some ['?'])
    | .lujvo => transLujvo adv w place
    | .fuivla h => match fuivlaPrefix adv ((w.take h).filter (· != ',')) ctx with
      | .error e => .error e
      | .ok t => .ok (some (t ++ "-[".toList ++ behindHyphen (w.drop h) ++ "]".toList))
    | .cmene => .ok (some "[NAME]".toList)

/-- `isalpha` in the C locale. -/
def isAlpha (c : Char) : Bool := ('a' ≤ c && c ≤ 'z') || ('A' ≤ c && c ≤ 'Z')

/-- `isdigit`. -/
def isDigit (c : Char) : Bool := '0' ≤ c && c ≤ '9'

/-- The lookups at `translate.c:938-953`; `translate_pattern` always gives NULL (`translate.c:463`). -/
def direct (dict : Word → Option Word) (w : Word) (place : Int) (ctx : Ctx) : Option Word :=
  match dict (w ++ digits place ++ [suffixOf ctx]) with
  | some t => some t
  | none => dict (w ++ digits place)

/-- `adv_translate` (`translate.c:919-1032`).  The first argument bounds the depth of the recursion. -/
def adv (dict : Word → Option Word) (morf : Word → Morf) : Nat → Adv
  | 0, _, _, _ => .error .diverge
  | n + 1, w, place0, ctx0 =>
    let place := if place0 = 0 then 1 else place0
    let ctx := if place0 = 0 then Ctx.verb else ctx0
    match direct dict w place ctx with
    | some trans => match atSign trans with
      | some r => match r.dropWhile isAlpha with
        | d :: _ => if isDigit d then adv dict morf n (r.takeWhile isAlpha) (digitOf d) ctx else .ok "??".toList
        | [] => .ok "??".toList
      | none => match fixTrans trans ctx ((dict (w ++ digits place ++ ['n'])).getD []) with
        | some t => .ok t
        | none => .error .nullDeref
    | none => match dict w with
      | some t => .ok (t ++ "??".toList)
      | none => match attemptPattern dict (adv dict morf n) w place ctx with
        | .error e => .error e
        | .ok (some t) => .ok t
        | .ok none => match transUnknown morf (adv dict morf n) w place ctx with
          | .error e => .error e
          | .ok (some t) => .ok (t ++ "??".toList)
          | .ok none => .ok "??".toList

/-! ## `conversion.c` -/

/-- The types of nodes that `compute_tu2_conv` tells apart (`conversion.c:142-210`); a conversion with its word. -/
inductive Kind
  | se (w : Word)
  | pass
  | jai
  | selbri4
  | selbri3
  | selbri2
  | other
deriving DecidableEq, Repr

/-- `lookup_converted_place` (`conversion.c:28-47`); `none` is the failed assertion. -/
def convertedPlace (w : Word) : Option Nat :=
  if w = ['s', 'e'] then some 2
  else if w = ['t', 'e'] then some 3
  else if w = ['v', 'e'] then some 4
  else if w = ['x', 'e'] then some 5
  else none

/-- The loop of `compute_tu2_conv` (`conversion.c:141-211`) along the ancestors of the node, from the inside to the
outside; the result is `places[1]`.  `none` is a failed assertion, or a step past the root.  `places[1] = 0` for jai. -/
def walk : List Kind → List Nat → Option Nat
  | [], _ => none
  | .se w :: r, ps => match convertedPlace w with
    | some p => walk r (exchange ps p)
    | none => none
  | .pass :: r, ps => walk r ps
  | .selbri3 :: r, ps => walk r ps
  | .jai :: r, ps => walk r (ps.set 0 0)
  | .selbri4 :: r, ps => match r with
    | .selbri3 :: .selbri3 :: _ => some (ps.getD 0 0)
    | .selbri3 :: [] => none
    | [] => none
    | _ => walk r ps
  | .selbri2 :: _, ps => some (ps.getD 0 0)
  | .other :: _, _ => none

/-- `compute_tu2_conv` (`conversion.c:120-213`) for a node without a conversion. -/
def tu2Conv (up : List Kind) : Option Nat := walk up [1, 2, 3, 4, 5]

end Jbo.Trans
