/-!
# The symbols of the grammar `rpc2x.y`

Made by a script from `rpc2x.y`; the names of the non-terminals are written without underscores.
-/

namespace Jbo.Terms

/-- The non-terminals of `rpc2x.y` (in `nonterm.h`, written by `action.perl:142-159`), and AUGMENTED
(`action.perl:140`). -/
inductive NT
  | chunks | text | textNoText1 | text1 | text1a | text1b | text1c | paragraphs | paragraph | iOptFreeSeq
  | statement | innerStatement | statement1 | iJoikJek | statement2 | iJjStagBo | statement3 | fragment
  | prenex | sentence | noCuSentence | observativeSentence | subsentence | bridiTail | gihekStagKe | bridiTail1
  | bridiTail2 | gihekStagBo | bridiTail3 | mainSelbri | tailTerms | gekSentence | terms | terms1 | terms2
  | term | termPlainSumti | termPlacedSumti | termTaggedSumti | taggedTermset | termFloatingTense
  | termFloatingNegate | termOther | termset | termsetStart | termsetBody | sumti | sumti1 | joikEkKe | keSumti
  | sumti2 | sumti3 | joikEkStagBo | sumti4 | sumti5 | sumti5a | sumti5b | sumti6 | laheSumti6 | naheBoSumti6
  | nameSumti6 | sumtiTail | sumtiTail1 | sumtiTail1a | relativeClauses | relativeClauseSeq | relativeClause
  | termRelativeClause | fullRelativeClause | selbri | selbri1 | selbri2 | selbri3 | selbri4 | joikStagKe
  | keSelbri3 | selbri5 | joikJekStagBo | selbri6 | tanruUnit | tanruUnit1 | tanruUnit2 | keSelbri3Tu2
  | numberMoiTu2 | seTu2 | jaiTagTu2 | jaiTu2 | naheTu2 | abstraction | nuNaiSeq | linkargs | links
  | quantifier | mex | mexRp | mexInfix | mex1 | mex2 | mex2Seq | rpExpression | operator | keOperator
  | operator1 | operator2 | mexOperator | operand | keOperand | operand1 | operand2 | operand3 | number
  | innerNumber | lerfuString | lerfuWord | ek | gihek | jek | jekOptKe | jekOptKebo | joik | joikOptKe
  | joikOptKebo | gek | guhek | gik | tag | ctag | complexTenseModal | stag | simpleTenseModal | seBai | bai1
  | time | zehaPuNai | timeOffset | timeOffsetSeq | space | spaceOffset | spaceOffsetSeq | spaceInterval
  | spaceIntProps | spaceIntProp | intervalProperty | intervalPropertySeq | freeSeq | free | metalinguistic
  | metalinguisticMainSelbri | reciprocity | freeVocative | utteranceOrdinal | parenthetical | subscript
  | vocative | coiNaiSeq | indicators | indicatorSeq | indicator | naiSeq | cmeneSeq | nihoSeqFreeSeq | nihoSeq
  | augmented
deriving DecidableEq, Repr

/-- The selma'o that are terminals of `rpc2x.y`, and BAhE, whose words the lexer takes out of the text
(`lex2.c:825-900`). -/
inductive Sel
  | A | BAI | BE | BEI | BEhO | BIhE | BIhI | BO | BOI | BY | CAI | CAhA | CEI | CEhE | CO | COI | CU | CUhE
  | DAhO | DOI | DOhU | FA | FAhA | FEhE | FEhU | FIhO | FOI | FUhA | FUhE | FUhO | GA | GAhO | GEhU | GI
  | GIhA | GOI | GOhA | GUhA | I | JA | JAI | JOI | JOhI | KE | KEI | KEhE | KI | KOhA | KU | KUhE | KUhO | LA
  | LAU | LAhE | LE | LI | LIhU | LOhO | LU | LUhU | MAI | MAhO | ME | MEhU | MOI | MOhE | MOhI | NA | NAI
  | NAhE | NAhU | NIhE | NIhO | NOI | NU | NUhA | NUhI | NUhU | PA | PEhE | PEhO | PU | RAhO | ROI | SE | SEI
  | SEhU | SOI | TAhE | TEI | TEhU | TO | TOI | TUhE | TUhU | UI | VA | VAU | VEI | VEhA | VEhO | VIhA | VUhO
  | VUhU | XI | Y | ZAhO | ZEhA | ZI | ZIhE | ZOhU | BAhE
deriving DecidableEq, Repr

end Jbo.Terms
