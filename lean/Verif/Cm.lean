/-!
# cmafihe: glossing clusters of cmavo, and the output in blocks

Models `cm_gather.c` and `cm_output.c`.  Texts are lists of characters without NUL.  A write past the end of a buffer
and a read before its beginning end the model with a `Crash`.
-/

namespace Jbo.Cm

/-- Undefined behaviour that ends the model. -/
inductive Crash
  | overflow
  | outOfBounds
  | diverge
deriving DecidableEq, Repr

deriving instance DecidableEq for Except

/-- A lookup, as `translate` and `translate_selmao`: `none` for the null pointer. -/
abbrev Fn := List Char → Except Crash (Option (List Char))

/-! ## `cm_gather.c` -/

/-- `strchr("aeiuo'", c)` and `strchr("aeiou'", c)` (`cm_gather.c:196`, `205`), for `c` not NUL. -/
def vowelish (c : Char) : Bool := c == 'a' || c == 'e' || c == 'i' || c == 'o' || c == 'u' || c == '\''

/-- `translate_selmao` (`cm_gather.c:136-142`): `strcpy` and `strcat` into 64 bytes. -/
def translateSelmao (dict : List Char → Option (List Char)) : Fn := fun x =>
  if 64 < x.length + 2 then .error .overflow else .ok (dict ('+' :: x))

/-- The text may be cut after `k` letters: at its end, or before a letter that is no vowel. -/
def cutAt (s : List Char) (k : Nat) : Bool :=
  match s[k]? with
  | none => true
  | some c => !vowelish c

/-- The loop over `e` (`cm_gather.c:167-198`), with `k = e - pbuf`.  `pre` is what lies before `pbuf` in `buf`, reversed.
The steps `e--` of 194-196 that do not leave the inner loop are taken together with the outer loop. -/
def seek (f : Fn) (pre s : List Char) : Nat → Except Crash (Option (Nat × List Char))
  | 0 =>
    if cutAt s 0 then .ok none
    else if pre.all vowelish then .error .outOfBounds
    else .ok none
  | k + 1 =>
    if cutAt s (k + 1) then
      match f (s.take (k + 1)) with
      | .error c => .error c
      | .ok (some t) => .ok (some (k + 1, t))
      | .ok none => seek f pre s k
    else seek f pre s k

/-- The text after `if (bufout[0]) strcat(bufout, " "); strcat(bufout, t)` (`cm_gather.c:181-184`, `199-202`). -/
def glue (out t : List Char) : List Char :=
  match out with
  | [] => t
  | _ => out ++ ' ' :: t

/-- The same with the size of `bufout`, 65536 bytes. -/
def cat (out t : List Char) : Except Crash (List Char) :=
  if 65536 < (glue out t).length + 1 then .error .overflow else .ok (glue out t)

/-- `if (*pbuf == '.') ++pbuf` (`cm_gather.c:207`): the dot and the rest. -/
def skipDot : List Char → List Char × List Char
  | '.' :: r => (['.'], r)
  | r => ([], r)

/-- The outer loop (`cm_gather.c:166-212`).  The first argument bounds the rounds. -/
def frag (f : Fn) : Nat → List Char → List Char → List Char → Except Crash (List Char)
  | 0, _, _, _ => .error .diverge
  | _ + 1, _, [], out => .ok out
  | n + 1, pre, c :: r, out =>
    match seek f pre (c :: r) (r.length + 1) with
    | .error e => .error e
    | .ok (some (k, t)) =>
      match cat out t with
      | .error e => .error e
      | .ok out => frag f n (((c :: r).take k).reverse ++ pre) ((c :: r).drop k) out
    | .ok none =>
      match cat out ['?'] with
      | .error e => .error e
      | .ok out =>
        let v := r.takeWhile vowelish
        let d := skipDot (r.dropWhile vowelish)
        frag f n (d.1.reverse ++ (v.reverse ++ c :: pre)) d.2 out

/-- `try_cmavo_fragment` (`cm_gather.c:146-216`). -/
def tryFragment (f : Fn) (lojban : List Char) : Except Crash (List Char) :=
  if 65536 < lojban.length + 1 then .error .overflow
  else
    let d := skipDot lojban
    frag f (lojban.length + 1) d.1.reverse d.2 []

/-- `toktype` and the text of a node (`cm_gather.c:14-29`). -/
inductive Node
  | cmavo (w : List Char)
  | brivla (w : List Char)
  | cmene (w : List Char)
  | newline
  | paren (w : List Char)
deriving DecidableEq, Repr

/-- The calls that `do_output` makes (`cm_gather.c:275-287`). -/
inductive Ev
  | item (lojban trans selmao : List Char)
  | newline
  | paren (text : List Char)
deriving DecidableEq, Repr

/-- `do_trans` (`cm_gather.c:220-267`) and `do_output` (`cm_gather.c:271-288`) for one node.  `dict` is `translate`,
`unknown` is `translate_unknown`; neither is modelled here. -/
def doNode (dict unknown : List Char → Option (List Char)) : Node → Except Crash Ev
  | .cmavo w =>
    let x := (skipDot w).2
    match dict x with
    | some t =>
      if 32 < x.length + 2 then .error .overflow
      else .ok (.item w t ((dict ('+' :: x)).getD []))
    | none =>
      match tryFragment (fun x => .ok (dict x)) w with
      | .error c => .error c
      | .ok t => match tryFragment (translateSelmao dict) w with
        | .error c => .error c
        | .ok s => .ok (.item w t s)
  | .brivla w =>
    .ok (.item w (match dict w with
      | some t => t
      | none => match unknown w with
        | some t => t
        | none => ['?']) "BRIVLA".toList)
  | .cmene w => .ok (.item w [] "CMENE".toList)
  | .newline => .ok .newline
  | .paren w => .ok (.paren w)

/-! ## `cm_output.c`, format `OF_TEXTBLK` -/

/-- The static buffers (`cm_output.c:28-29`) and what has been printed. -/
structure St where
  l0 : List Char
  l1 : List Char
  l2 : List Char
  used : Nat
  out : List Char
deriving DecidableEq, Repr

/-- `start_output` (`cm_output.c:110-113`). -/
def start : St := ⟨[], [], [], 0, []⟩

/-- `block_newline` (`cm_output.c:33-44`). -/
def blockNewline (s : St) : St :=
  ⟨[], [], [], 0, if 0 < s.used then s.out ++ s.l0 ++ ['\n'] ++ s.l1 ++ ['\n'] ++ s.l2 ++ ['\n', '\n'] else s.out⟩

/-- `append_content` (`cm_output.c:48-62`); a row of `lines` has 512 bytes. -/
def appendContent (buf x : List Char) (mlen : Nat) : Except Crash (List Char) :=
  let r := buf ++ x ++ List.replicate (mlen - x.length) ' '
  if 512 < r.length + 1 then .error .overflow else .ok r

/-- `do_block` (`cm_output.c:66-87`); `width` is a signed number. -/
def doBlock (width : Int) (s : St) (a1 a2 a3 : List Char) : Except Crash St :=
  let ml := if a1.length > a2.length then a1.length else a2.length
  let ml := if ml > a3.length then ml else a3.length
  let s := if ((ml + s.used + 1 : Nat) : Int) > width then blockNewline s else s
  match appendContent s.l0 a1 (ml + 1) with
  | .error c => .error c
  | .ok r0 => match appendContent s.l1 a2 (ml + 1) with
    | .error c => .error c
    | .ok r1 => match appendContent s.l2 a3 (ml + 1) with
      | .error c => .error c
      | .ok r2 => .ok ⟨r0, r1, r2, s.used + (ml + 1), s.out⟩

/-- `output`, `output_newline` and `output_paren` (`cm_output.c:168-170`, `190-193`, `209-213`). -/
def ev (width : Int) (s : St) : Ev → Except Crash St
  | .item lojban trans selmao => doBlock width s lojban selmao trans
  | .newline =>
    let s := blockNewline s
    .ok { s with out := s.out ++ ['\n'] }
  | .paren text =>
    match doBlock width s ['('] ['('] ['('] with
    | .error c => .error c
    | .ok s => match doBlock width s text [] [] with
      | .error c => .error c
      | .ok s => doBlock width s [')'] [')'] [')']

/-- `do_output`'s loop (`cm_gather.c:275-287`). -/
def evs (width : Int) (s : St) : List Ev → Except Crash St
  | [] => .ok s
  | e :: es => match ev width s e with
    | .error c => .error c
    | .ok s => evs width s es

/-- The whole output, up to `end_output` (`cm_output.c:134-136`). -/
def textBlocks (width : Int) (es : List Ev) : Except Crash (List Char) :=
  match evs width start es with
  | .error c => .error c
  | .ok s => .ok (blockNewline s).out

end Jbo.Cm
