/-!
# `uncom`: comments are taken out of the grammar

`uncom.l` with the semantics of `flex`: the longest match, among equals the first rule.  Characters stand
for bytes; `.` and `\n` together match any character.
-/

namespace Jbo.Uncom

/-- `[A-Zh]` (`uncom.l:31`). -/
def inName (c : Char) : Bool := ('A' ≤ c && c ≤ 'Z') || c == 'h'

/-- The rule `uncom.l:31` at the beginning of the input: the name and what is left. -/
def marker (s : List Char) : Option (List Char × List Char) :=
  match s with
  | '/' :: '*' :: ' ' :: 'E' :: 'T' :: ' ' :: r =>
    match r.takeWhile inName, r.dropWhile inName with
    | [], _ => none
    | n, ' ' :: '*' :: '/' :: r' => some (n, r')
    | _, _ => none
  | _ => none

/-- The rule `uncom.l:30`: what is left. -/
def errorMark (s : List Char) : Option (List Char) :=
  match s with
  | '/' :: '*' :: ' ' :: 'e' :: 'r' :: 'r' :: 'o' :: 'r' :: ' ' :: '*' :: '/' :: r => some r
  | _ => none

/-- The rule that is taken (`uncom.l:29-37`): what it echoes, the new depth and what is left.  Depth 0 is the
state `INITIAL`.  `none` at the end of the input. -/
def rule : Nat → List Char → Option (List Char × Nat × List Char)
  | 0, s =>
    match errorMark s with
    | some r => some ("/* error */".toList, 0, r)
    | none => match marker s with
      | some (x, r) => some ("/* ET ".toList ++ x ++ " */".toList, 0, r)
      | none => match s with
        | '/' :: '*' :: r => some ([], 1, r)
        | c :: r => some ([c], 0, r)
        | [] => none
  | d + 1, s =>
    match s with
    | '/' :: '*' :: r => some ([], d + 2, r)
    | '*' :: '/' :: r => some ([], d, r)
    | _ :: r => some ([], d + 1, r)
    | [] => none

/-- `yylex` with the output it echoes; the first argument bounds the number of rules applied. -/
def lex : Nat → Nat → List Char → List Char
  | 0, _, _ => []
  | n + 1, d, s => match rule d s with
    | none => []
    | some (o, d', r) => o ++ lex n d' r

/-- `main` (`uncom.l:41-44`): each rule takes at least one character, so there are enough turns. -/
def uncom (s : List Char) : List Char := lex s.length 0 s

end Jbo.Uncom
