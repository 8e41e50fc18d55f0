/-!
# Tokens

Shared vocabulary for the models of `erasure.c`, `lex2.c` and `categ.c`:
selma'o / parser token codes, lexer tokens and the ways a C run can go wrong.
-/

namespace Jbo

/-- Words are C strings without the terminating NUL. -/
abbrev Word := List Char

/-- The `%token` declarations of `rpc2x.y` (lines 31-190): selma'o names and private
marker tokens.  C uses the integers Bison assigns; only their distinctness matters. -/
inductive Sel
  | GARBAGE | A | BAhE | BAI | BE | BEhO | BEI | BIhE | BIhI | BO | BOI | BRIVLA | BU | BY |
    CAhA | CAI | CEhE | CEI | CMENE | CO | COI | CU | CUhE | DAhO | DOhU | DOI | FA | FAhA |
    FAhO | FEhE | FEhU | FIhO | FOI | FUhA | FUhE | FUhO | GA | GAhO | GEhU | GI | GIhA | GOhA
    | GOI | GUhA | I | JA | JAI | JOhI | JOI | KE | KEhE | KEI | KI | KOhA | KUhE | KUhO | KU
    | LA | LAhE | LAU | LE | LEhU | LI | LIhU | LOhO | LOhU | LU | LUhU | MAhO | MAI | ME |
    MEhU | MOhE | MOhI | MOI | NA | NAhE | NAhU | NAI | NIhE | NIhO | NOI | NU | NUhA | NUhI |
    NUhU | PA | PEhA | PEhE | PEhO | POhA | PU | RAhO | ROI | SA | SE | SEhU | SEI | SI | SOI
    | SU | TAhE | TEhU | TEI | TO | TOI | TUhE | TUhU | UI | VA | VAU | VEhA | VEhO | VEI |
    VIhA | VUhO | VUhU | XI | Y | ZAhO | ZEhA | ZEI | ZI | ZIhE | ZO | ZOhU | ZOI |
    PRIVATE_START_EK | PRIVATE_START_GIHEK | PRIVATE_START_GUHEK | PRIVATE_START_JEK |
    PRIVATE_END_JEK | PRIVATE_START_JOIK | PRIVATE_END_JOIK | PRIVATE_START_GEK |
    PRIVATE_START_BAI | PRIVATE_EK_KE | PRIVATE_EK_BO | PRIVATE_JEK_KE | PRIVATE_JEK_BO |
    PRIVATE_JOIK_KE | PRIVATE_JOIK_BO | PRIVATE_I_JEKJOIK | PRIVATE_I_BO | PRIVATE_GIHEK_KE |
    PRIVATE_GIHEK_BO | PRIVATE_NAhE_BO | PRIVATE_NAhE_time | PRIVATE_NAhE_space |
    PRIVATE_NAhE_CAhA | PRIVATE_NA_KU | PRIVATE_NUMBER_MAI | PRIVATE_NUMBER_MOI |
    PRIVATE_NUMBER_ROI | PRIVATE_START_TENSE | PRIVATE_END_TENSE | PRIVATE_EOF_MARK |
    IMPOSSIBLE_TOKEN
deriving DecidableEq, Repr

/-- A lexer token: `struct treenode` (`nodes.h:368-398`) restricted to the lexer node kinds
`N_MARKER .. N_BROKEN_ERASURE` (`nodes.h:18-31`) and the payload the token passes read.
Simplified: line/column/eol counters are not kept here (see `Lex1`). -/
inductive Tok
  | marker (m : Sel)
  | garbage (w : Word)
  | cmavo (sel : Sel) (w : Word)
  | zoi (form term text : Word)
  | zo (text : Word)
  | lohu (text : Word)
  | zei (parts : List Word)
  | bu (w : Word)
  | brivla (w : Word)
  | cmene (w : Word)
  | broken (defects : Nat)
deriving DecidableEq, Repr

/-- The `type` field of a node (`nodes.h:18-31`; `N_NONTERM` never occurs in the token list). -/
inductive Kind
  | marker | garbage | cmavo | zoi | zo | lohu | zei | bu | brivla | cmene | broken
deriving DecidableEq, Repr

/-- `x->type`. -/
def Tok.kind : Tok → Kind
  | .marker _ => .marker
  | .garbage _ => .garbage
  | .cmavo _ _ => .cmavo
  | .zoi _ _ _ => .zoi
  | .zo _ => .zo
  | .lohu _ => .lohu
  | .zei _ => .zei
  | .bu _ => .bu
  | .brivla _ => .brivla
  | .cmene _ => .cmene
  | .broken _ => .broken

/-- `x->type == N_CMAVO && x->data.cmavo.selmao == s` (the `cmtest` idiom, `categ.c:52-61`). -/
def Tok.isSel (s : Sel) : Tok → Bool
  | .cmavo s' _ => s' == s
  | _ => false

/-- Ways in which a run of the C code does not return normally. -/
inductive Crash
  | exit1        -- the code calls `exit(1)` after printing a message
  | assertFail   -- a failed `assert`, or `abort()`
  | nullDeref    -- a NULL pointer is dereferenced
  | outOfBounds  -- an array is indexed outside its bounds
  | uninit       -- an uninitialised variable is read
  | diverge      -- the loop never ends
deriving DecidableEq, Repr

deriving instance DecidableEq for Except

end Jbo
