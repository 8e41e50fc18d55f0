import Verif.GramSyms
/-!
# The rules of the grammar `rpc2x.y`

Made by a script from `rpc2x.y`, in the order of the file; each rule has the number of its line.  As in
`action.perl:73-81` and `107-119`, the tokens that the categoriser puts in as markers (`PRIVATE_…`) make no child
and are left out here: so there are more trees here than the parser builds, and what holds for all of them
holds for those of the parser.  `.e s` is a terminator that was left out (`/* ET … */`).  The rules for syntax
errors are left out: after an error the passes over the tree do not run (`main.c:295`).
-/

namespace Jbo.Gram
open Jbo.Terms

/-- A symbol on the right side of a rule: a non-terminal, a selma'o, a terminator left out, a brivla, a
zei-lujvo, a name, quotation or letter made with `bu`, and the token that no text contains. -/
inductive Item
  | n (t : NT)
  | t (s : Sel)
  | e (s : Sel)
  | brivla
  | zei
  | leaf
  | never
deriving DecidableEq, Repr

/-- A rule: the line in `rpc2x.y`, the left side and the right side. -/
structure Rule where
  line : Nat
  lhs : NT
  rhs : List Item
deriving DecidableEq, Repr

/-- `rpc2x.y:240-320`. -/
def rules0 : List Rule := [
  ⟨240, .chunks, [.n .text]⟩,
  ⟨243, .chunks, [.n .chunks, .n .text]⟩,
  ⟨252, .text, [.n .naiSeq, .n .cmeneSeq, .n .freeSeq, .n .joikOptKe, .n .freeSeq, .n .text1]⟩,
  ⟨253, .text, [.n .naiSeq, .n .cmeneSeq, .n .freeSeq, .n .jekOptKe, .n .freeSeq, .n .text1]⟩,
  ⟨254, .text, [.n .naiSeq, .n .cmeneSeq, .n .freeSeq, .n .joikOptKe, .n .text1]⟩,
  ⟨255, .text, [.n .naiSeq, .n .cmeneSeq, .n .freeSeq, .n .jekOptKe, .n .text1]⟩,
  ⟨256, .text, [.n .naiSeq, .n .cmeneSeq, .n .freeSeq, .n .text1]⟩,
  ⟨258, .text, [.n .naiSeq, .n .cmeneSeq, .n .joikOptKe, .n .freeSeq, .n .text1]⟩,
  ⟨259, .text, [.n .naiSeq, .n .cmeneSeq, .n .jekOptKe, .n .freeSeq, .n .text1]⟩,
  ⟨260, .text, [.n .naiSeq, .n .cmeneSeq, .n .joikOptKe, .n .text1]⟩,
  ⟨261, .text, [.n .naiSeq, .n .cmeneSeq, .n .jekOptKe, .n .text1]⟩,
  ⟨262, .text, [.n .naiSeq, .n .cmeneSeq, .n .text1]⟩,
  ⟨264, .text, [.n .naiSeq, .n .indicators, .n .freeSeq, .n .joikOptKe, .n .freeSeq, .n .text1]⟩,
  ⟨265, .text, [.n .naiSeq, .n .indicators, .n .freeSeq, .n .jekOptKe, .n .freeSeq, .n .text1]⟩,
  ⟨266, .text, [.n .naiSeq, .n .indicators, .n .freeSeq, .n .joikOptKe, .n .text1]⟩,
  ⟨267, .text, [.n .naiSeq, .n .indicators, .n .freeSeq, .n .jekOptKe, .n .text1]⟩,
  ⟨268, .text, [.n .naiSeq, .n .indicators, .n .freeSeq, .n .text1]⟩,
  ⟨270, .text, [.n .naiSeq, .n .indicators, .n .joikOptKe, .n .freeSeq, .n .text1]⟩,
  ⟨271, .text, [.n .naiSeq, .n .indicators, .n .jekOptKe, .n .freeSeq, .n .text1]⟩,
  ⟨272, .text, [.n .naiSeq, .n .indicators, .n .joikOptKe, .n .text1]⟩,
  ⟨273, .text, [.n .naiSeq, .n .indicators, .n .jekOptKe, .n .text1]⟩,
  ⟨274, .text, [.n .naiSeq, .n .indicators, .n .text1]⟩,
  ⟨276, .text, [.n .naiSeq, .n .freeSeq, .n .joikOptKe, .n .freeSeq, .n .text1]⟩,
  ⟨277, .text, [.n .naiSeq, .n .freeSeq, .n .jekOptKe, .n .freeSeq, .n .text1]⟩,
  ⟨278, .text, [.n .naiSeq, .n .freeSeq, .n .joikOptKe, .n .text1]⟩,
  ⟨279, .text, [.n .naiSeq, .n .freeSeq, .n .jekOptKe, .n .text1]⟩,
  ⟨280, .text, [.n .naiSeq, .n .freeSeq, .n .text1]⟩,
  ⟨282, .text, [.n .naiSeq, .n .joikOptKe, .n .freeSeq, .n .text1]⟩,
  ⟨283, .text, [.n .naiSeq, .n .jekOptKe, .n .freeSeq, .n .text1]⟩,
  ⟨284, .text, [.n .naiSeq, .n .joikOptKe, .n .text1]⟩,
  ⟨285, .text, [.n .naiSeq, .n .jekOptKe, .n .text1]⟩,
  ⟨286, .text, [.n .naiSeq, .n .text1]⟩,
  ⟨288, .text, [.n .cmeneSeq, .n .freeSeq, .n .joikOptKe, .n .freeSeq, .n .text1]⟩,
  ⟨289, .text, [.n .cmeneSeq, .n .freeSeq, .n .jekOptKe, .n .freeSeq, .n .text1]⟩,
  ⟨290, .text, [.n .cmeneSeq, .n .freeSeq, .n .joikOptKe, .n .text1]⟩,
  ⟨291, .text, [.n .cmeneSeq, .n .freeSeq, .n .jekOptKe, .n .text1]⟩,
  ⟨292, .text, [.n .cmeneSeq, .n .freeSeq, .n .text1]⟩,
  ⟨294, .text, [.n .cmeneSeq, .n .joikOptKe, .n .freeSeq, .n .text1]⟩,
  ⟨295, .text, [.n .cmeneSeq, .n .jekOptKe, .n .freeSeq, .n .text1]⟩,
  ⟨296, .text, [.n .cmeneSeq, .n .joikOptKe, .n .text1]⟩,
  ⟨297, .text, [.n .cmeneSeq, .n .jekOptKe, .n .text1]⟩,
  ⟨298, .text, [.n .cmeneSeq, .n .text1]⟩,
  ⟨300, .text, [.n .indicators, .n .freeSeq, .n .joikOptKe, .n .freeSeq, .n .text1]⟩,
  ⟨301, .text, [.n .indicators, .n .freeSeq, .n .jekOptKe, .n .freeSeq, .n .text1]⟩,
  ⟨302, .text, [.n .indicators, .n .freeSeq, .n .joikOptKe, .n .text1]⟩,
  ⟨303, .text, [.n .indicators, .n .freeSeq, .n .jekOptKe, .n .text1]⟩,
  ⟨304, .text, [.n .indicators, .n .freeSeq, .n .text1]⟩,
  ⟨306, .text, [.n .indicators, .n .joikOptKe, .n .freeSeq, .n .text1]⟩,
  ⟨307, .text, [.n .indicators, .n .jekOptKe, .n .freeSeq, .n .text1]⟩,
  ⟨308, .text, [.n .indicators, .n .joikOptKe, .n .text1]⟩,
  ⟨309, .text, [.n .indicators, .n .jekOptKe, .n .text1]⟩,
  ⟨310, .text, [.n .indicators, .n .text1]⟩,
  ⟨312, .text, [.n .freeSeq, .n .joikOptKe, .n .freeSeq, .n .text1]⟩,
  ⟨313, .text, [.n .freeSeq, .n .jekOptKe, .n .freeSeq, .n .text1]⟩,
  ⟨314, .text, [.n .freeSeq, .n .joikOptKe, .n .text1]⟩,
  ⟨315, .text, [.n .freeSeq, .n .jekOptKe, .n .text1]⟩,
  ⟨316, .text, [.n .freeSeq, .n .text1]⟩,
  ⟨318, .text, [.n .joikOptKe, .n .freeSeq, .n .text1]⟩,
  ⟨319, .text, [.n .jekOptKe, .n .freeSeq, .n .text1]⟩,
  ⟨320, .text, [.n .joikOptKe, .n .text1]⟩]

/-- `rpc2x.y:321-397`. -/
def rules1 : List Rule := [
  ⟨321, .text, [.n .jekOptKe, .n .text1]⟩,
  ⟨322, .text, [.n .text1]⟩,
  ⟨329, .textNoText1, [.n .naiSeq, .n .cmeneSeq, .n .freeSeq, .n .joikOptKe, .n .freeSeq]⟩,
  ⟨330, .textNoText1, [.n .naiSeq, .n .cmeneSeq, .n .freeSeq, .n .jekOptKe, .n .freeSeq]⟩,
  ⟨331, .textNoText1, [.n .naiSeq, .n .cmeneSeq, .n .freeSeq, .n .joikOptKe]⟩,
  ⟨332, .textNoText1, [.n .naiSeq, .n .cmeneSeq, .n .freeSeq, .n .jekOptKe]⟩,
  ⟨333, .textNoText1, [.n .naiSeq, .n .cmeneSeq, .n .freeSeq]⟩,
  ⟨335, .textNoText1, [.n .naiSeq, .n .cmeneSeq, .n .joikOptKe, .n .freeSeq]⟩,
  ⟨336, .textNoText1, [.n .naiSeq, .n .cmeneSeq, .n .jekOptKe, .n .freeSeq]⟩,
  ⟨337, .textNoText1, [.n .naiSeq, .n .cmeneSeq, .n .joikOptKe]⟩,
  ⟨338, .textNoText1, [.n .naiSeq, .n .cmeneSeq, .n .jekOptKe]⟩,
  ⟨339, .textNoText1, [.n .naiSeq, .n .cmeneSeq]⟩,
  ⟨341, .textNoText1, [.n .naiSeq, .n .indicators, .n .freeSeq, .n .joikOptKe, .n .freeSeq]⟩,
  ⟨342, .textNoText1, [.n .naiSeq, .n .indicators, .n .freeSeq, .n .jekOptKe, .n .freeSeq]⟩,
  ⟨343, .textNoText1, [.n .naiSeq, .n .indicators, .n .freeSeq, .n .joikOptKe]⟩,
  ⟨344, .textNoText1, [.n .naiSeq, .n .indicators, .n .freeSeq, .n .jekOptKe]⟩,
  ⟨345, .textNoText1, [.n .naiSeq, .n .indicators, .n .freeSeq]⟩,
  ⟨347, .textNoText1, [.n .naiSeq, .n .indicators, .n .joikOptKe, .n .freeSeq]⟩,
  ⟨348, .textNoText1, [.n .naiSeq, .n .indicators, .n .jekOptKe, .n .freeSeq]⟩,
  ⟨349, .textNoText1, [.n .naiSeq, .n .indicators, .n .joikOptKe]⟩,
  ⟨350, .textNoText1, [.n .naiSeq, .n .indicators, .n .jekOptKe]⟩,
  ⟨351, .textNoText1, [.n .naiSeq, .n .indicators]⟩,
  ⟨353, .textNoText1, [.n .naiSeq, .n .freeSeq, .n .joikOptKe, .n .freeSeq]⟩,
  ⟨354, .textNoText1, [.n .naiSeq, .n .freeSeq, .n .jekOptKe, .n .freeSeq]⟩,
  ⟨355, .textNoText1, [.n .naiSeq, .n .freeSeq, .n .joikOptKe]⟩,
  ⟨356, .textNoText1, [.n .naiSeq, .n .freeSeq, .n .jekOptKe]⟩,
  ⟨357, .textNoText1, [.n .naiSeq, .n .freeSeq]⟩,
  ⟨359, .textNoText1, [.n .naiSeq, .n .joikOptKe, .n .freeSeq]⟩,
  ⟨360, .textNoText1, [.n .naiSeq, .n .jekOptKe, .n .freeSeq]⟩,
  ⟨361, .textNoText1, [.n .naiSeq, .n .joikOptKe]⟩,
  ⟨362, .textNoText1, [.n .naiSeq, .n .jekOptKe]⟩,
  ⟨363, .textNoText1, [.n .naiSeq]⟩,
  ⟨365, .textNoText1, [.n .cmeneSeq, .n .freeSeq, .n .joikOptKe, .n .freeSeq]⟩,
  ⟨366, .textNoText1, [.n .cmeneSeq, .n .freeSeq, .n .jekOptKe, .n .freeSeq]⟩,
  ⟨367, .textNoText1, [.n .cmeneSeq, .n .freeSeq, .n .joikOptKe]⟩,
  ⟨368, .textNoText1, [.n .cmeneSeq, .n .freeSeq, .n .jekOptKe]⟩,
  ⟨369, .textNoText1, [.n .cmeneSeq, .n .freeSeq]⟩,
  ⟨371, .textNoText1, [.n .cmeneSeq, .n .joikOptKe, .n .freeSeq]⟩,
  ⟨372, .textNoText1, [.n .cmeneSeq, .n .jekOptKe, .n .freeSeq]⟩,
  ⟨373, .textNoText1, [.n .cmeneSeq, .n .joikOptKe]⟩,
  ⟨374, .textNoText1, [.n .cmeneSeq, .n .jekOptKe]⟩,
  ⟨375, .textNoText1, [.n .cmeneSeq]⟩,
  ⟨377, .textNoText1, [.n .indicators, .n .freeSeq, .n .joikOptKe, .n .freeSeq]⟩,
  ⟨378, .textNoText1, [.n .indicators, .n .freeSeq, .n .jekOptKe, .n .freeSeq]⟩,
  ⟨379, .textNoText1, [.n .indicators, .n .freeSeq, .n .joikOptKe]⟩,
  ⟨380, .textNoText1, [.n .indicators, .n .freeSeq, .n .jekOptKe]⟩,
  ⟨381, .textNoText1, [.n .indicators, .n .freeSeq]⟩,
  ⟨383, .textNoText1, [.n .indicators, .n .joikOptKe, .n .freeSeq]⟩,
  ⟨384, .textNoText1, [.n .indicators, .n .jekOptKe, .n .freeSeq]⟩,
  ⟨385, .textNoText1, [.n .indicators, .n .joikOptKe]⟩,
  ⟨386, .textNoText1, [.n .indicators, .n .jekOptKe]⟩,
  ⟨387, .textNoText1, [.n .indicators]⟩,
  ⟨389, .textNoText1, [.n .freeSeq, .n .joikOptKe, .n .freeSeq]⟩,
  ⟨390, .textNoText1, [.n .freeSeq, .n .jekOptKe, .n .freeSeq]⟩,
  ⟨391, .textNoText1, [.n .freeSeq, .n .joikOptKe]⟩,
  ⟨392, .textNoText1, [.n .freeSeq, .n .jekOptKe]⟩,
  ⟨393, .textNoText1, [.n .freeSeq]⟩,
  ⟨395, .textNoText1, [.n .joikOptKe, .n .freeSeq]⟩,
  ⟨396, .textNoText1, [.n .jekOptKe, .n .freeSeq]⟩,
  ⟨397, .textNoText1, [.n .joikOptKe]⟩]

/-- `rpc2x.y:398-521`. -/
def rules2 : List Rule := [
  ⟨398, .textNoText1, [.n .jekOptKe]⟩,
  ⟨407, .text1, [.n .text1a, .n .paragraphs]⟩,
  ⟨408, .text1, [.n .text1a]⟩,
  ⟨409, .text1, [.n .paragraphs]⟩,
  ⟨410, .text1, []⟩,
  ⟨413, .text1a, [.n .text1b]⟩,
  ⟨414, .text1a, [.n .nihoSeqFreeSeq]⟩,
  ⟨417, .text1b, [.n .text1c]⟩,
  ⟨418, .text1b, [.n .text1b, .n .text1c]⟩,
  ⟨424, .text1c, [.t .I, .n .joik, .n .stag, .t .BO, .n .freeSeq]⟩,
  ⟨425, .text1c, [.t .I, .n .jek, .n .stag, .t .BO, .n .freeSeq]⟩,
  ⟨426, .text1c, [.t .I, .n .stag, .t .BO, .n .freeSeq]⟩,
  ⟨427, .text1c, [.t .I, .n .joik, .n .stag, .t .BO]⟩,
  ⟨428, .text1c, [.t .I, .n .jek, .n .stag, .t .BO]⟩,
  ⟨429, .text1c, [.t .I, .n .stag, .t .BO]⟩,
  ⟨430, .text1c, [.t .I, .n .joik, .t .BO, .n .freeSeq]⟩,
  ⟨431, .text1c, [.t .I, .n .jek, .t .BO, .n .freeSeq]⟩,
  ⟨432, .text1c, [.t .I, .t .BO, .n .freeSeq]⟩,
  ⟨433, .text1c, [.t .I, .n .joik, .t .BO]⟩,
  ⟨434, .text1c, [.t .I, .n .jek, .t .BO]⟩,
  ⟨435, .text1c, [.t .I, .t .BO]⟩,
  ⟨436, .text1c, [.t .I, .n .joikOptKe, .n .freeSeq]⟩,
  ⟨437, .text1c, [.t .I, .n .jekOptKe, .n .freeSeq]⟩,
  ⟨438, .text1c, [.t .I, .n .freeSeq]⟩,
  ⟨439, .text1c, [.t .I, .n .joikOptKe]⟩,
  ⟨440, .text1c, [.t .I, .n .jekOptKe]⟩,
  ⟨441, .text1c, [.t .I]⟩,
  ⟨456, .paragraphs, [.n .paragraph]⟩,
  ⟨457, .paragraphs, [.n .paragraphs, .n .nihoSeqFreeSeq, .n .paragraph]⟩,
  ⟨460, .paragraph, [.n .statement]⟩,
  ⟨461, .paragraph, [.n .fragment]⟩,
  ⟨463, .paragraph, [.n .paragraph, .n .iOptFreeSeq, .n .statement]⟩,
  ⟨464, .paragraph, [.n .paragraph, .n .iOptFreeSeq, .n .fragment]⟩,
  ⟨466, .paragraph, [.n .paragraph, .n .iOptFreeSeq]⟩,
  ⟨470, .iOptFreeSeq, [.t .I]⟩,
  ⟨471, .iOptFreeSeq, [.t .I, .n .freeSeq]⟩,
  ⟨478, .statement, [.n .innerStatement]⟩,
  ⟨481, .innerStatement, [.n .statement1]⟩,
  ⟨482, .innerStatement, [.n .prenex, .n .innerStatement]⟩,
  ⟨489, .statement1, [.n .statement2]⟩,
  ⟨490, .statement1, [.n .statement1, .n .iJoikJek, .n .statement2]⟩,
  ⟨491, .statement1, [.n .statement1, .n .iJoikJek]⟩,
  ⟨494, .iJoikJek, [.t .I, .n .joikOptKe, .n .freeSeq]⟩,
  ⟨495, .iJoikJek, [.t .I, .n .joikOptKe]⟩,
  ⟨496, .iJoikJek, [.t .I, .n .jekOptKe, .n .freeSeq]⟩,
  ⟨497, .iJoikJek, [.t .I, .n .jekOptKe]⟩,
  ⟨505, .statement2, [.n .statement3]⟩,
  ⟨506, .statement2, [.n .statement3, .n .iJjStagBo]⟩,
  ⟨507, .statement2, [.n .statement3, .n .iJjStagBo, .n .statement2]⟩,
  ⟨511, .iJjStagBo, [.t .I, .n .joik, .n .stag, .t .BO, .n .freeSeq]⟩,
  ⟨512, .iJjStagBo, [.t .I, .n .joik, .n .stag, .t .BO]⟩,
  ⟨513, .iJjStagBo, [.t .I, .n .joik, .t .BO, .n .freeSeq]⟩,
  ⟨514, .iJjStagBo, [.t .I, .n .joik, .t .BO]⟩,
  ⟨515, .iJjStagBo, [.t .I, .n .jek, .n .stag, .t .BO, .n .freeSeq]⟩,
  ⟨516, .iJjStagBo, [.t .I, .n .jek, .n .stag, .t .BO]⟩,
  ⟨517, .iJjStagBo, [.t .I, .n .jek, .t .BO, .n .freeSeq]⟩,
  ⟨518, .iJjStagBo, [.t .I, .n .jek, .t .BO]⟩,
  ⟨519, .iJjStagBo, [.t .I, .n .stag, .t .BO, .n .freeSeq]⟩,
  ⟨520, .iJjStagBo, [.t .I, .n .stag, .t .BO]⟩,
  ⟨521, .iJjStagBo, [.t .I, .t .BO, .n .freeSeq]⟩]

/-- `rpc2x.y:522-694`. -/
def rules3 : List Rule := [
  ⟨522, .iJjStagBo, [.t .I, .t .BO]⟩,
  ⟨529, .statement3, [.n .sentence]⟩,
  ⟨531, .statement3, [.n .tag, .t .TUhE, .n .freeSeq, .n .text1, .t .TUhU, .n .freeSeq]⟩,
  ⟨532, .statement3, [.n .tag, .t .TUhE, .n .freeSeq, .n .text1, .t .TUhU]⟩,
  ⟨533, .statement3, [.n .tag, .t .TUhE, .n .freeSeq, .n .text1, .e .TUhU]⟩,
  ⟨535, .statement3, [.n .tag, .t .TUhE, .n .text1, .t .TUhU, .n .freeSeq]⟩,
  ⟨536, .statement3, [.n .tag, .t .TUhE, .n .text1, .t .TUhU]⟩,
  ⟨537, .statement3, [.n .tag, .t .TUhE, .n .text1, .e .TUhU]⟩,
  ⟨539, .statement3, [.t .TUhE, .n .freeSeq, .n .text1, .t .TUhU, .n .freeSeq]⟩,
  ⟨540, .statement3, [.t .TUhE, .n .freeSeq, .n .text1, .t .TUhU]⟩,
  ⟨541, .statement3, [.t .TUhE, .n .freeSeq, .n .text1, .e .TUhU]⟩,
  ⟨543, .statement3, [.t .TUhE, .n .text1, .t .TUhU, .n .freeSeq]⟩,
  ⟨544, .statement3, [.t .TUhE, .n .text1, .t .TUhU]⟩,
  ⟨545, .statement3, [.t .TUhE, .n .text1, .e .TUhU]⟩,
  ⟨553, .fragment, [.n .ek, .n .freeSeq]⟩,
  ⟨554, .fragment, [.n .ek]⟩,
  ⟨555, .fragment, [.n .gihek, .n .freeSeq]⟩,
  ⟨556, .fragment, [.n .gihek]⟩,
  ⟨557, .fragment, [.n .quantifier]⟩,
  ⟨558, .fragment, [.t .NA, .n .freeSeq]⟩,
  ⟨559, .fragment, [.t .NA]⟩,
  ⟨560, .fragment, [.n .terms, .t .VAU, .n .freeSeq]⟩,
  ⟨561, .fragment, [.n .terms, .t .VAU]⟩,
  ⟨562, .fragment, [.n .terms, .e .VAU]⟩,
  ⟨563, .fragment, [.n .prenex]⟩,
  ⟨564, .fragment, [.n .relativeClauses]⟩,
  ⟨565, .fragment, [.n .links]⟩,
  ⟨566, .fragment, [.n .linkargs]⟩,
  ⟨573, .prenex, [.n .terms, .t .ZOhU, .n .freeSeq]⟩,
  ⟨574, .prenex, [.n .terms, .t .ZOhU]⟩,
  ⟨594, .sentence, [.n .terms, .t .CU, .n .freeSeq, .n .bridiTail]⟩,
  ⟨595, .sentence, [.n .terms, .t .CU, .n .bridiTail]⟩,
  ⟨596, .sentence, [.n .noCuSentence]⟩,
  ⟨597, .sentence, [.n .observativeSentence]⟩,
  ⟨636, .noCuSentence, [.never]⟩,
  ⟨637, .noCuSentence, [.n .terms, .e .CU, .n .bridiTail]⟩,
  ⟨641, .observativeSentence, [.n .bridiTail]⟩,
  ⟨649, .subsentence, [.n .sentence]⟩,
  ⟨650, .subsentence, [.n .prenex, .n .subsentence]⟩,
  ⟨659, .bridiTail, [.n .bridiTail1]⟩,
  ⟨660, .bridiTail, [.n .bridiTail1, .n .gihekStagKe, .t .KE, .n .freeSeq, .n .bridiTail, .t .KEhE, .n .freeSeq, .n .tailTerms]⟩,
  ⟨661, .bridiTail, [.n .bridiTail1, .n .gihekStagKe, .t .KE, .n .freeSeq, .n .bridiTail, .t .KEhE, .n .freeSeq, .e .VAU]⟩,
  ⟨662, .bridiTail, [.n .bridiTail1, .n .gihekStagKe, .t .KE, .n .freeSeq, .n .bridiTail, .t .KEhE, .n .tailTerms]⟩,
  ⟨663, .bridiTail, [.n .bridiTail1, .n .gihekStagKe, .t .KE, .n .freeSeq, .n .bridiTail, .t .KEhE, .e .VAU]⟩,
  ⟨664, .bridiTail, [.n .bridiTail1, .n .gihekStagKe, .t .KE, .n .freeSeq, .n .bridiTail, .e .KEhE, .n .tailTerms]⟩,
  ⟨665, .bridiTail, [.n .bridiTail1, .n .gihekStagKe, .t .KE, .n .freeSeq, .n .bridiTail, .e .KEhE, .e .VAU]⟩,
  ⟨667, .bridiTail, [.n .bridiTail1, .n .gihekStagKe, .t .KE, .n .bridiTail, .t .KEhE, .n .freeSeq, .n .tailTerms]⟩,
  ⟨668, .bridiTail, [.n .bridiTail1, .n .gihekStagKe, .t .KE, .n .bridiTail, .t .KEhE, .n .freeSeq, .e .VAU]⟩,
  ⟨669, .bridiTail, [.n .bridiTail1, .n .gihekStagKe, .t .KE, .n .bridiTail, .t .KEhE, .n .tailTerms]⟩,
  ⟨670, .bridiTail, [.n .bridiTail1, .n .gihekStagKe, .t .KE, .n .bridiTail, .t .KEhE, .e .VAU]⟩,
  ⟨671, .bridiTail, [.n .bridiTail1, .n .gihekStagKe, .t .KE, .n .bridiTail, .e .KEhE, .n .tailTerms]⟩,
  ⟨672, .bridiTail, [.n .bridiTail1, .n .gihekStagKe, .t .KE, .n .bridiTail, .e .VAU]⟩,
  ⟨675, .gihekStagKe, [.n .gihek, .n .stag]⟩,
  ⟨676, .gihekStagKe, [.n .gihek]⟩,
  ⟨683, .bridiTail1, [.n .bridiTail2]⟩,
  ⟨684, .bridiTail1, [.n .bridiTail1, .n .gihek, .n .freeSeq, .n .bridiTail2, .n .tailTerms]⟩,
  ⟨685, .bridiTail1, [.n .bridiTail1, .n .gihek, .n .freeSeq, .n .bridiTail2, .e .VAU]⟩,
  ⟨686, .bridiTail1, [.n .bridiTail1, .n .gihek, .n .bridiTail2, .n .tailTerms]⟩,
  ⟨687, .bridiTail1, [.n .bridiTail1, .n .gihek, .n .bridiTail2, .e .VAU]⟩,
  ⟨694, .bridiTail2, [.n .bridiTail3]⟩]

/-- `rpc2x.y:695-833`. -/
def rules4 : List Rule := [
  ⟨695, .bridiTail2, [.n .bridiTail2, .n .gihekStagBo, .n .bridiTail2, .n .tailTerms]⟩,
  ⟨696, .bridiTail2, [.n .bridiTail2, .n .gihekStagBo, .n .bridiTail2, .e .VAU]⟩,
  ⟨699, .gihekStagBo, [.n .gihek, .n .stag, .t .BO, .n .freeSeq]⟩,
  ⟨700, .gihekStagBo, [.n .gihek, .n .stag, .t .BO]⟩,
  ⟨701, .gihekStagBo, [.n .gihek, .t .BO, .n .freeSeq]⟩,
  ⟨702, .gihekStagBo, [.n .gihek, .t .BO]⟩,
  ⟨710, .bridiTail3, [.n .mainSelbri, .n .tailTerms]⟩,
  ⟨711, .bridiTail3, [.n .mainSelbri, .e .VAU]⟩,
  ⟨712, .bridiTail3, [.n .gekSentence]⟩,
  ⟨715, .mainSelbri, [.n .selbri]⟩,
  ⟨721, .tailTerms, [.n .terms, .t .VAU, .n .freeSeq]⟩,
  ⟨722, .tailTerms, [.n .terms, .t .VAU]⟩,
  ⟨723, .tailTerms, [.n .terms, .e .VAU]⟩,
  ⟨724, .tailTerms, [.t .VAU, .n .freeSeq]⟩,
  ⟨725, .tailTerms, [.t .VAU]⟩,
  ⟨733, .gekSentence, [.n .gek, .n .subsentence, .n .gik, .n .subsentence, .n .tailTerms]⟩,
  ⟨734, .gekSentence, [.n .gek, .n .subsentence, .n .gik, .n .subsentence, .e .VAU]⟩,
  ⟨736, .gekSentence, [.n .tag, .t .KE, .n .freeSeq, .n .gekSentence, .t .KEhE, .n .freeSeq]⟩,
  ⟨737, .gekSentence, [.n .tag, .t .KE, .n .freeSeq, .n .gekSentence, .t .KEhE]⟩,
  ⟨738, .gekSentence, [.n .tag, .t .KE, .n .freeSeq, .n .gekSentence, .e .KEhE]⟩,
  ⟨740, .gekSentence, [.n .tag, .t .KE, .n .gekSentence, .t .KEhE, .n .freeSeq]⟩,
  ⟨741, .gekSentence, [.n .tag, .t .KE, .n .gekSentence, .t .KEhE]⟩,
  ⟨742, .gekSentence, [.n .tag, .t .KE, .n .gekSentence, .e .KEhE]⟩,
  ⟨744, .gekSentence, [.t .KE, .n .freeSeq, .n .gekSentence, .t .KEhE, .n .freeSeq]⟩,
  ⟨745, .gekSentence, [.t .KE, .n .freeSeq, .n .gekSentence, .t .KEhE]⟩,
  ⟨746, .gekSentence, [.t .KE, .n .freeSeq, .n .gekSentence, .e .KEhE]⟩,
  ⟨748, .gekSentence, [.t .KE, .n .gekSentence, .t .KEhE, .n .freeSeq]⟩,
  ⟨749, .gekSentence, [.t .KE, .n .gekSentence, .t .KEhE]⟩,
  ⟨750, .gekSentence, [.t .KE, .n .gekSentence, .e .KEhE]⟩,
  ⟨752, .gekSentence, [.t .NA, .n .freeSeq, .n .gekSentence]⟩,
  ⟨753, .gekSentence, [.t .NA, .n .gekSentence]⟩,
  ⟨767, .terms, [.n .terms1]⟩,
  ⟨768, .terms, [.n .terms, .n .terms1]⟩,
  ⟨775, .terms1, [.n .terms2]⟩,
  ⟨776, .terms1, [.n .terms1, .t .PEhE, .n .freeSeq, .n .joik, .n .freeSeq, .n .terms2]⟩,
  ⟨777, .terms1, [.n .terms1, .t .PEhE, .n .freeSeq, .n .joik, .n .terms2]⟩,
  ⟨778, .terms1, [.n .terms1, .t .PEhE, .n .freeSeq, .n .jek, .n .freeSeq, .n .terms2]⟩,
  ⟨779, .terms1, [.n .terms1, .t .PEhE, .n .freeSeq, .n .jek, .n .terms2]⟩,
  ⟨780, .terms1, [.n .terms1, .t .PEhE, .n .joik, .n .freeSeq, .n .terms2]⟩,
  ⟨781, .terms1, [.n .terms1, .t .PEhE, .n .joik, .n .terms2]⟩,
  ⟨782, .terms1, [.n .terms1, .t .PEhE, .n .jek, .n .freeSeq, .n .terms2]⟩,
  ⟨783, .terms1, [.n .terms1, .t .PEhE, .n .jek, .n .terms2]⟩,
  ⟨791, .terms2, [.n .term]⟩,
  ⟨792, .terms2, [.n .terms2, .t .CEhE, .n .freeSeq, .n .term]⟩,
  ⟨793, .terms2, [.n .terms2, .t .CEhE, .n .term]⟩,
  ⟨804, .term, [.n .termPlainSumti]⟩,
  ⟨805, .term, [.n .termTaggedSumti]⟩,
  ⟨806, .term, [.n .termPlacedSumti]⟩,
  ⟨807, .term, [.n .termFloatingTense]⟩,
  ⟨808, .term, [.n .termset]⟩,
  ⟨809, .term, [.n .taggedTermset]⟩,
  ⟨810, .term, [.n .termFloatingNegate]⟩,
  ⟨811, .term, [.n .termOther]⟩,
  ⟨814, .termPlainSumti, [.n .sumti]⟩,
  ⟨817, .termPlacedSumti, [.t .FA, .n .freeSeq, .n .sumti]⟩,
  ⟨818, .termPlacedSumti, [.t .FA, .n .sumti]⟩,
  ⟨821, .termTaggedSumti, [.n .tag, .n .sumti]⟩,
  ⟨829, .taggedTermset, [.n .tag, .n .termset]⟩,
  ⟨832, .termFloatingTense, [.n .tag, .t .KU, .n .freeSeq]⟩,
  ⟨833, .termFloatingTense, [.n .tag, .t .KU]⟩]

/-- `rpc2x.y:834-975`. -/
def rules5 : List Rule := [
  ⟨834, .termFloatingTense, [.n .tag, .e .KU]⟩,
  ⟨837, .termFloatingNegate, [.t .NA, .t .KU, .n .freeSeq]⟩,
  ⟨838, .termFloatingNegate, [.t .NA, .t .KU]⟩,
  ⟨843, .termOther, [.t .FA, .n .freeSeq, .t .KU, .n .freeSeq]⟩,
  ⟨844, .termOther, [.t .FA, .n .freeSeq, .t .KU]⟩,
  ⟨845, .termOther, [.t .FA, .n .freeSeq, .e .KU]⟩,
  ⟨846, .termOther, [.t .FA, .t .KU, .n .freeSeq]⟩,
  ⟨847, .termOther, [.t .FA, .t .KU]⟩,
  ⟨848, .termOther, [.t .FA, .e .KU]⟩,
  ⟨860, .termset, [.n .termsetStart, .n .gek, .n .termsetBody, .n .gik, .n .termsetBody]⟩,
  ⟨861, .termset, [.n .termsetStart, .n .termsetBody]⟩,
  ⟨864, .termsetStart, [.t .NUhI, .n .freeSeq]⟩,
  ⟨865, .termsetStart, [.t .NUhI]⟩,
  ⟨868, .termsetBody, [.n .terms, .t .NUhU, .n .freeSeq]⟩,
  ⟨869, .termsetBody, [.n .terms, .t .NUhU]⟩,
  ⟨870, .termsetBody, [.n .terms, .e .NUhU]⟩,
  ⟨877, .sumti, [.n .sumti1]⟩,
  ⟨878, .sumti, [.n .sumti1, .t .VUhO, .n .freeSeq, .n .relativeClauses]⟩,
  ⟨879, .sumti, [.n .sumti1, .t .VUhO, .n .relativeClauses]⟩,
  ⟨887, .sumti1, [.n .sumti2]⟩,
  ⟨888, .sumti1, [.n .sumti2, .n .joikEkKe, .n .keSumti]⟩,
  ⟨891, .joikEkKe, [.n .joik, .n .stag]⟩,
  ⟨892, .joikEkKe, [.n .joik]⟩,
  ⟨893, .joikEkKe, [.n .ek, .n .stag]⟩,
  ⟨894, .joikEkKe, [.n .ek]⟩,
  ⟨897, .keSumti, [.t .KE, .n .freeSeq, .n .sumti, .t .KEhE, .n .freeSeq]⟩,
  ⟨898, .keSumti, [.t .KE, .n .freeSeq, .n .sumti, .t .KEhE]⟩,
  ⟨899, .keSumti, [.t .KE, .n .freeSeq, .n .sumti, .e .KEhE]⟩,
  ⟨900, .keSumti, [.t .KE, .n .sumti, .t .KEhE, .n .freeSeq]⟩,
  ⟨901, .keSumti, [.t .KE, .n .sumti, .t .KEhE]⟩,
  ⟨902, .keSumti, [.t .KE, .n .sumti, .e .KEhE]⟩,
  ⟨909, .sumti2, [.n .sumti3]⟩,
  ⟨910, .sumti2, [.n .sumti2, .n .joik, .n .freeSeq, .n .sumti3]⟩,
  ⟨911, .sumti2, [.n .sumti2, .n .joik, .n .sumti3]⟩,
  ⟨912, .sumti2, [.n .sumti2, .n .ek, .n .freeSeq, .n .sumti3]⟩,
  ⟨913, .sumti2, [.n .sumti2, .n .ek, .n .sumti3]⟩,
  ⟨922, .sumti3, [.n .sumti4]⟩,
  ⟨923, .sumti3, [.n .sumti4, .n .joikEkStagBo, .n .sumti3]⟩,
  ⟨926, .joikEkStagBo, [.n .joik, .n .stag, .t .BO, .n .freeSeq]⟩,
  ⟨927, .joikEkStagBo, [.n .joik, .n .stag, .t .BO]⟩,
  ⟨928, .joikEkStagBo, [.n .joik, .t .BO, .n .freeSeq]⟩,
  ⟨929, .joikEkStagBo, [.n .joik, .t .BO]⟩,
  ⟨930, .joikEkStagBo, [.n .ek, .n .stag, .t .BO, .n .freeSeq]⟩,
  ⟨931, .joikEkStagBo, [.n .ek, .n .stag, .t .BO]⟩,
  ⟨932, .joikEkStagBo, [.n .ek, .t .BO, .n .freeSeq]⟩,
  ⟨933, .joikEkStagBo, [.n .ek, .t .BO]⟩,
  ⟨940, .sumti4, [.n .sumti5]⟩,
  ⟨941, .sumti4, [.n .gek, .n .sumti, .n .gik, .n .sumti4]⟩,
  ⟨949, .sumti5, [.n .sumti5a, .n .relativeClauses]⟩,
  ⟨950, .sumti5, [.n .sumti5a]⟩,
  ⟨951, .sumti5, [.n .sumti5b, .n .relativeClauses]⟩,
  ⟨952, .sumti5, [.n .sumti5b]⟩,
  ⟨955, .sumti5a, [.n .quantifier, .n .sumti6]⟩,
  ⟨956, .sumti5a, [.n .sumti6]⟩,
  ⟨959, .sumti5b, [.n .quantifier, .n .selbri, .t .KU, .n .freeSeq]⟩,
  ⟨960, .sumti5b, [.n .quantifier, .n .selbri, .t .KU]⟩,
  ⟨961, .sumti5b, [.n .quantifier, .n .selbri, .e .KU]⟩,
  ⟨972, .sumti6, [.n .laheSumti6]⟩,
  ⟨973, .sumti6, [.n .naheBoSumti6]⟩,
  ⟨975, .sumti6, [.t .KOhA, .n .freeSeq]⟩]

/-- `rpc2x.y:976-1052`. -/
def rules6 : List Rule := [
  ⟨976, .sumti6, [.t .KOhA]⟩,
  ⟨978, .sumti6, [.n .lerfuString, .t .BOI, .n .freeSeq]⟩,
  ⟨979, .sumti6, [.n .lerfuString, .t .BOI]⟩,
  ⟨980, .sumti6, [.n .lerfuString, .e .BOI]⟩,
  ⟨982, .sumti6, [.t .LE, .n .freeSeq, .n .sumtiTail, .t .KU, .n .freeSeq]⟩,
  ⟨983, .sumti6, [.t .LE, .n .freeSeq, .n .sumtiTail, .t .KU]⟩,
  ⟨984, .sumti6, [.t .LE, .n .freeSeq, .n .sumtiTail, .e .KU]⟩,
  ⟨986, .sumti6, [.t .LE, .n .sumtiTail, .t .KU, .n .freeSeq]⟩,
  ⟨987, .sumti6, [.t .LE, .n .sumtiTail, .t .KU]⟩,
  ⟨988, .sumti6, [.t .LE, .n .sumtiTail, .e .KU]⟩,
  ⟨990, .sumti6, [.t .LA, .n .freeSeq, .n .sumtiTail, .t .KU, .n .freeSeq]⟩,
  ⟨991, .sumti6, [.t .LA, .n .freeSeq, .n .sumtiTail, .t .KU]⟩,
  ⟨992, .sumti6, [.t .LA, .n .freeSeq, .n .sumtiTail, .e .KU]⟩,
  ⟨994, .sumti6, [.t .LA, .n .sumtiTail, .t .KU, .n .freeSeq]⟩,
  ⟨995, .sumti6, [.t .LA, .n .sumtiTail, .t .KU]⟩,
  ⟨996, .sumti6, [.t .LA, .n .sumtiTail, .e .KU]⟩,
  ⟨998, .sumti6, [.n .nameSumti6]⟩,
  ⟨1000, .sumti6, [.t .LI, .n .freeSeq, .n .mex, .t .LOhO, .n .freeSeq]⟩,
  ⟨1001, .sumti6, [.t .LI, .n .freeSeq, .n .mex, .t .LOhO]⟩,
  ⟨1002, .sumti6, [.t .LI, .n .freeSeq, .n .mex, .e .LOhO]⟩,
  ⟨1004, .sumti6, [.t .LI, .n .mex, .t .LOhO, .n .freeSeq]⟩,
  ⟨1005, .sumti6, [.t .LI, .n .mex, .t .LOhO]⟩,
  ⟨1006, .sumti6, [.t .LI, .n .mex, .e .LOhO]⟩,
  ⟨1008, .sumti6, [.leaf, .n .freeSeq]⟩,
  ⟨1009, .sumti6, [.leaf]⟩,
  ⟨1010, .sumti6, [.t .LU, .n .text, .t .LIhU, .n .freeSeq]⟩,
  ⟨1011, .sumti6, [.t .LU, .n .text, .t .LIhU]⟩,
  ⟨1012, .sumti6, [.t .LU, .n .text, .e .LIhU]⟩,
  ⟨1013, .sumti6, [.leaf, .n .freeSeq]⟩,
  ⟨1014, .sumti6, [.leaf]⟩,
  ⟨1015, .sumti6, [.leaf, .n .freeSeq]⟩,
  ⟨1016, .sumti6, [.leaf]⟩,
  ⟨1019, .laheSumti6, [.t .LAhE, .n .freeSeq, .n .relativeClauses, .n .sumti, .t .LUhU, .n .freeSeq]⟩,
  ⟨1020, .laheSumti6, [.t .LAhE, .n .freeSeq, .n .relativeClauses, .n .sumti, .t .LUhU]⟩,
  ⟨1021, .laheSumti6, [.t .LAhE, .n .freeSeq, .n .relativeClauses, .n .sumti, .e .LUhU]⟩,
  ⟨1022, .laheSumti6, [.t .LAhE, .n .freeSeq, .n .sumti, .t .LUhU, .n .freeSeq]⟩,
  ⟨1023, .laheSumti6, [.t .LAhE, .n .freeSeq, .n .sumti, .t .LUhU]⟩,
  ⟨1024, .laheSumti6, [.t .LAhE, .n .freeSeq, .n .sumti, .e .LUhU]⟩,
  ⟨1026, .laheSumti6, [.t .LAhE, .n .relativeClauses, .n .sumti, .t .LUhU, .n .freeSeq]⟩,
  ⟨1027, .laheSumti6, [.t .LAhE, .n .relativeClauses, .n .sumti, .t .LUhU]⟩,
  ⟨1028, .laheSumti6, [.t .LAhE, .n .relativeClauses, .n .sumti, .e .LUhU]⟩,
  ⟨1029, .laheSumti6, [.t .LAhE, .n .sumti, .t .LUhU, .n .freeSeq]⟩,
  ⟨1030, .laheSumti6, [.t .LAhE, .n .sumti, .t .LUhU]⟩,
  ⟨1031, .laheSumti6, [.t .LAhE, .n .sumti, .e .LUhU]⟩,
  ⟨1034, .naheBoSumti6, [.t .NAhE, .t .BO, .n .freeSeq, .n .relativeClauses, .n .sumti, .t .LUhU, .n .freeSeq]⟩,
  ⟨1035, .naheBoSumti6, [.t .NAhE, .t .BO, .n .freeSeq, .n .relativeClauses, .n .sumti, .t .LUhU]⟩,
  ⟨1036, .naheBoSumti6, [.t .NAhE, .t .BO, .n .freeSeq, .n .relativeClauses, .n .sumti, .e .LUhU]⟩,
  ⟨1037, .naheBoSumti6, [.t .NAhE, .t .BO, .n .freeSeq, .n .sumti, .t .LUhU, .n .freeSeq]⟩,
  ⟨1038, .naheBoSumti6, [.t .NAhE, .t .BO, .n .freeSeq, .n .sumti, .t .LUhU]⟩,
  ⟨1039, .naheBoSumti6, [.t .NAhE, .t .BO, .n .freeSeq, .n .sumti, .e .LUhU]⟩,
  ⟨1041, .naheBoSumti6, [.t .NAhE, .t .BO, .n .relativeClauses, .n .sumti, .t .LUhU, .n .freeSeq]⟩,
  ⟨1042, .naheBoSumti6, [.t .NAhE, .t .BO, .n .relativeClauses, .n .sumti, .t .LUhU]⟩,
  ⟨1043, .naheBoSumti6, [.t .NAhE, .t .BO, .n .relativeClauses, .n .sumti, .e .LUhU]⟩,
  ⟨1044, .naheBoSumti6, [.t .NAhE, .t .BO, .n .sumti, .t .LUhU, .n .freeSeq]⟩,
  ⟨1045, .naheBoSumti6, [.t .NAhE, .t .BO, .n .sumti, .t .LUhU]⟩,
  ⟨1046, .naheBoSumti6, [.t .NAhE, .t .BO, .n .sumti, .e .LUhU]⟩,
  ⟨1049, .nameSumti6, [.t .LA, .n .freeSeq, .n .relativeClauses, .n .cmeneSeq, .n .freeSeq]⟩,
  ⟨1050, .nameSumti6, [.t .LA, .n .freeSeq, .n .relativeClauses, .n .cmeneSeq]⟩,
  ⟨1051, .nameSumti6, [.t .LA, .n .freeSeq, .n .cmeneSeq, .n .freeSeq]⟩,
  ⟨1052, .nameSumti6, [.t .LA, .n .freeSeq, .n .cmeneSeq]⟩]

/-- `rpc2x.y:1054-1198`. -/
def rules7 : List Rule := [
  ⟨1054, .nameSumti6, [.t .LA, .n .relativeClauses, .n .cmeneSeq, .n .freeSeq]⟩,
  ⟨1055, .nameSumti6, [.t .LA, .n .relativeClauses, .n .cmeneSeq]⟩,
  ⟨1056, .nameSumti6, [.t .LA, .n .cmeneSeq, .n .freeSeq]⟩,
  ⟨1057, .nameSumti6, [.t .LA, .n .cmeneSeq]⟩,
  ⟨1065, .sumtiTail, [.n .sumti6, .n .relativeClauses, .n .sumtiTail1]⟩,
  ⟨1066, .sumtiTail, [.n .sumti6, .n .sumtiTail1]⟩,
  ⟨1067, .sumtiTail, [.n .sumtiTail1]⟩,
  ⟨1068, .sumtiTail, [.n .relativeClauses, .n .sumtiTail1]⟩,
  ⟨1078, .sumtiTail1, [.n .sumtiTail1a, .n .relativeClauses]⟩,
  ⟨1079, .sumtiTail1, [.n .sumtiTail1a]⟩,
  ⟨1080, .sumtiTail1, [.n .quantifier, .n .sumti]⟩,
  ⟨1083, .sumtiTail1a, [.n .quantifier, .n .selbri]⟩,
  ⟨1084, .sumtiTail1a, [.n .selbri]⟩,
  ⟨1091, .relativeClauses, [.n .relativeClauseSeq]⟩,
  ⟨1094, .relativeClauseSeq, [.n .relativeClause]⟩,
  ⟨1095, .relativeClauseSeq, [.n .relativeClauseSeq, .t .ZIhE, .n .freeSeq, .n .relativeClause]⟩,
  ⟨1096, .relativeClauseSeq, [.n .relativeClauseSeq, .t .ZIhE, .n .relativeClause]⟩,
  ⟨1103, .relativeClause, [.n .termRelativeClause]⟩,
  ⟨1104, .relativeClause, [.n .fullRelativeClause]⟩,
  ⟨1107, .termRelativeClause, [.t .GOI, .n .freeSeq, .n .term, .t .GEhU, .n .freeSeq]⟩,
  ⟨1108, .termRelativeClause, [.t .GOI, .n .freeSeq, .n .term, .t .GEhU]⟩,
  ⟨1109, .termRelativeClause, [.t .GOI, .n .freeSeq, .n .term, .e .GEhU]⟩,
  ⟨1110, .termRelativeClause, [.t .GOI, .n .term, .t .GEhU, .n .freeSeq]⟩,
  ⟨1111, .termRelativeClause, [.t .GOI, .n .term, .t .GEhU]⟩,
  ⟨1112, .termRelativeClause, [.t .GOI, .n .term, .e .GEhU]⟩,
  ⟨1115, .fullRelativeClause, [.t .NOI, .n .freeSeq, .n .subsentence, .t .KUhO, .n .freeSeq]⟩,
  ⟨1116, .fullRelativeClause, [.t .NOI, .n .freeSeq, .n .subsentence, .t .KUhO]⟩,
  ⟨1117, .fullRelativeClause, [.t .NOI, .n .freeSeq, .n .subsentence, .e .KUhO]⟩,
  ⟨1118, .fullRelativeClause, [.t .NOI, .n .subsentence, .t .KUhO, .n .freeSeq]⟩,
  ⟨1119, .fullRelativeClause, [.t .NOI, .n .subsentence, .t .KUhO]⟩,
  ⟨1120, .fullRelativeClause, [.t .NOI, .n .subsentence, .e .KUhO]⟩,
  ⟨1127, .selbri, [.n .tag, .n .selbri1]⟩,
  ⟨1128, .selbri, [.n .selbri1]⟩,
  ⟨1135, .selbri1, [.n .selbri2]⟩,
  ⟨1136, .selbri1, [.t .NA, .n .freeSeq, .n .selbri]⟩,
  ⟨1137, .selbri1, [.t .NA, .n .selbri]⟩,
  ⟨1144, .selbri2, [.n .selbri3, .t .CO, .n .freeSeq, .n .selbri2]⟩,
  ⟨1145, .selbri2, [.n .selbri3, .t .CO, .n .selbri2]⟩,
  ⟨1146, .selbri2, [.n .selbri3]⟩,
  ⟨1153, .selbri3, [.n .selbri3, .n .selbri4]⟩,
  ⟨1154, .selbri3, [.n .selbri4]⟩,
  ⟨1166, .selbri4, [.n .selbri5]⟩,
  ⟨1167, .selbri4, [.n .selbri4, .n .joikOptKe, .n .freeSeq, .n .selbri5]⟩,
  ⟨1168, .selbri4, [.n .selbri4, .n .joikOptKe, .n .selbri5]⟩,
  ⟨1169, .selbri4, [.n .selbri4, .n .jekOptKe, .n .freeSeq, .n .selbri5]⟩,
  ⟨1170, .selbri4, [.n .selbri4, .n .jekOptKe, .n .selbri5]⟩,
  ⟨1171, .selbri4, [.n .selbri4, .n .joikStagKe, .n .keSelbri3]⟩,
  ⟨1174, .joikStagKe, [.n .joik, .n .stag]⟩,
  ⟨1177, .keSelbri3, [.t .KE, .n .freeSeq, .n .selbri3, .t .KEhE, .n .freeSeq]⟩,
  ⟨1178, .keSelbri3, [.t .KE, .n .freeSeq, .n .selbri3, .t .KEhE]⟩,
  ⟨1179, .keSelbri3, [.t .KE, .n .freeSeq, .n .selbri3, .e .KEhE]⟩,
  ⟨1180, .keSelbri3, [.t .KE, .n .selbri3, .t .KEhE, .n .freeSeq]⟩,
  ⟨1181, .keSelbri3, [.t .KE, .n .selbri3, .t .KEhE]⟩,
  ⟨1182, .keSelbri3, [.t .KE, .n .selbri3, .e .KEhE]⟩,
  ⟨1191, .selbri5, [.n .selbri6]⟩,
  ⟨1192, .selbri5, [.n .selbri6, .n .joikJekStagBo, .n .selbri5]⟩,
  ⟨1195, .joikJekStagBo, [.n .joik, .n .stag, .t .BO, .n .freeSeq]⟩,
  ⟨1196, .joikJekStagBo, [.n .joik, .n .stag, .t .BO]⟩,
  ⟨1197, .joikJekStagBo, [.n .joik, .t .BO, .n .freeSeq]⟩,
  ⟨1198, .joikJekStagBo, [.n .joik, .t .BO]⟩]

/-- `rpc2x.y:1199-1314`. -/
def rules8 : List Rule := [
  ⟨1199, .joikJekStagBo, [.n .jek, .n .stag, .t .BO, .n .freeSeq]⟩,
  ⟨1200, .joikJekStagBo, [.n .jek, .n .stag, .t .BO]⟩,
  ⟨1201, .joikJekStagBo, [.n .jek, .t .BO, .n .freeSeq]⟩,
  ⟨1202, .joikJekStagBo, [.n .jek, .t .BO]⟩,
  ⟨1209, .selbri6, [.n .tanruUnit]⟩,
  ⟨1210, .selbri6, [.n .tanruUnit, .t .BO, .n .freeSeq, .n .selbri6]⟩,
  ⟨1211, .selbri6, [.n .tanruUnit, .t .BO, .n .selbri6]⟩,
  ⟨1213, .selbri6, [.t .NAhE, .n .freeSeq, .n .guhek, .n .selbri, .n .gik, .n .selbri6]⟩,
  ⟨1214, .selbri6, [.t .NAhE, .n .guhek, .n .selbri, .n .gik, .n .selbri6]⟩,
  ⟨1215, .selbri6, [.n .guhek, .n .selbri, .n .gik, .n .selbri6]⟩,
  ⟨1223, .tanruUnit, [.n .tanruUnit1]⟩,
  ⟨1224, .tanruUnit, [.n .tanruUnit, .t .CEI, .n .freeSeq, .n .tanruUnit1]⟩,
  ⟨1225, .tanruUnit, [.n .tanruUnit, .t .CEI, .n .tanruUnit1]⟩,
  ⟨1233, .tanruUnit1, [.n .tanruUnit2]⟩,
  ⟨1234, .tanruUnit1, [.n .tanruUnit2, .n .linkargs]⟩,
  ⟨1251, .tanruUnit2, [.brivla, .n .freeSeq]⟩,
  ⟨1252, .tanruUnit2, [.brivla]⟩,
  ⟨1254, .tanruUnit2, [.t .GOhA, .t .RAhO, .n .freeSeq]⟩,
  ⟨1255, .tanruUnit2, [.t .GOhA, .t .RAhO]⟩,
  ⟨1256, .tanruUnit2, [.t .GOhA, .n .freeSeq]⟩,
  ⟨1257, .tanruUnit2, [.t .GOhA]⟩,
  ⟨1259, .tanruUnit2, [.n .keSelbri3Tu2]⟩,
  ⟨1261, .tanruUnit2, [.t .ME, .n .freeSeq, .n .sumti, .t .MEhU, .n .freeSeq, .t .MOI, .n .freeSeq]⟩,
  ⟨1262, .tanruUnit2, [.t .ME, .n .freeSeq, .n .sumti, .t .MEhU, .n .freeSeq, .t .MOI]⟩,
  ⟨1263, .tanruUnit2, [.t .ME, .n .freeSeq, .n .sumti, .t .MEhU, .n .freeSeq]⟩,
  ⟨1264, .tanruUnit2, [.t .ME, .n .freeSeq, .n .sumti, .t .MEhU, .t .MOI, .n .freeSeq]⟩,
  ⟨1265, .tanruUnit2, [.t .ME, .n .freeSeq, .n .sumti, .t .MEhU, .t .MOI]⟩,
  ⟨1266, .tanruUnit2, [.t .ME, .n .freeSeq, .n .sumti, .t .MEhU]⟩,
  ⟨1267, .tanruUnit2, [.t .ME, .n .freeSeq, .n .sumti, .e .MEhU, .t .MOI, .n .freeSeq]⟩,
  ⟨1268, .tanruUnit2, [.t .ME, .n .freeSeq, .n .sumti, .e .MEhU, .t .MOI]⟩,
  ⟨1269, .tanruUnit2, [.t .ME, .n .freeSeq, .n .sumti, .e .MEhU]⟩,
  ⟨1271, .tanruUnit2, [.t .ME, .n .sumti, .t .MEhU, .n .freeSeq, .t .MOI, .n .freeSeq]⟩,
  ⟨1272, .tanruUnit2, [.t .ME, .n .sumti, .t .MEhU, .n .freeSeq, .t .MOI]⟩,
  ⟨1273, .tanruUnit2, [.t .ME, .n .sumti, .t .MEhU, .n .freeSeq]⟩,
  ⟨1274, .tanruUnit2, [.t .ME, .n .sumti, .t .MEhU, .t .MOI, .n .freeSeq]⟩,
  ⟨1275, .tanruUnit2, [.t .ME, .n .sumti, .t .MEhU, .t .MOI]⟩,
  ⟨1276, .tanruUnit2, [.t .ME, .n .sumti, .t .MEhU]⟩,
  ⟨1277, .tanruUnit2, [.t .ME, .n .sumti, .e .MEhU, .t .MOI, .n .freeSeq]⟩,
  ⟨1278, .tanruUnit2, [.t .ME, .n .sumti, .e .MEhU, .t .MOI]⟩,
  ⟨1279, .tanruUnit2, [.t .ME, .n .sumti, .e .MEhU]⟩,
  ⟨1281, .tanruUnit2, [.n .numberMoiTu2]⟩,
  ⟨1283, .tanruUnit2, [.t .NUhA, .n .freeSeq, .n .mexOperator]⟩,
  ⟨1284, .tanruUnit2, [.t .NUhA, .n .mexOperator]⟩,
  ⟨1286, .tanruUnit2, [.n .seTu2]⟩,
  ⟨1288, .tanruUnit2, [.n .jaiTagTu2]⟩,
  ⟨1290, .tanruUnit2, [.n .jaiTu2]⟩,
  ⟨1292, .tanruUnit2, [.zei]⟩,
  ⟨1294, .tanruUnit2, [.n .naheTu2]⟩,
  ⟨1296, .tanruUnit2, [.n .abstraction]⟩,
  ⟨1300, .keSelbri3Tu2, [.t .KE, .n .freeSeq, .n .selbri3, .t .KEhE, .n .freeSeq]⟩,
  ⟨1301, .keSelbri3Tu2, [.t .KE, .n .freeSeq, .n .selbri3, .t .KEhE]⟩,
  ⟨1302, .keSelbri3Tu2, [.t .KE, .n .freeSeq, .n .selbri3, .e .KEhE]⟩,
  ⟨1303, .keSelbri3Tu2, [.t .KE, .n .selbri3, .t .KEhE, .n .freeSeq]⟩,
  ⟨1304, .keSelbri3Tu2, [.t .KE, .n .selbri3, .t .KEhE]⟩,
  ⟨1305, .keSelbri3Tu2, [.t .KE, .n .selbri3, .e .KEhE]⟩,
  ⟨1308, .numberMoiTu2, [.n .number, .t .MOI, .n .freeSeq]⟩,
  ⟨1309, .numberMoiTu2, [.n .number, .t .MOI]⟩,
  ⟨1310, .numberMoiTu2, [.n .lerfuString, .t .MOI, .n .freeSeq]⟩,
  ⟨1311, .numberMoiTu2, [.n .lerfuString, .t .MOI]⟩,
  ⟨1314, .seTu2, [.t .SE, .n .freeSeq, .n .tanruUnit2]⟩]

/-- `rpc2x.y:1315-1417`. -/
def rules9 : List Rule := [
  ⟨1315, .seTu2, [.t .SE, .n .tanruUnit2]⟩,
  ⟨1318, .jaiTagTu2, [.t .JAI, .n .freeSeq, .n .tag, .n .tanruUnit2]⟩,
  ⟨1319, .jaiTagTu2, [.t .JAI, .n .tag, .n .tanruUnit2]⟩,
  ⟨1322, .jaiTu2, [.t .JAI, .n .freeSeq, .n .tanruUnit2]⟩,
  ⟨1323, .jaiTu2, [.t .JAI, .n .tanruUnit2]⟩,
  ⟨1326, .naheTu2, [.t .NAhE, .n .freeSeq, .n .tanruUnit2]⟩,
  ⟨1327, .naheTu2, [.t .NAhE, .n .tanruUnit2]⟩,
  ⟨1334, .abstraction, [.n .nuNaiSeq, .n .subsentence, .t .KEI, .n .freeSeq]⟩,
  ⟨1335, .abstraction, [.n .nuNaiSeq, .n .subsentence, .t .KEI]⟩,
  ⟨1336, .abstraction, [.n .nuNaiSeq, .n .subsentence, .e .KEI]⟩,
  ⟨1339, .nuNaiSeq, [.t .NU, .t .NAI, .n .freeSeq]⟩,
  ⟨1340, .nuNaiSeq, [.t .NU, .n .freeSeq]⟩,
  ⟨1341, .nuNaiSeq, [.t .NU, .t .NAI]⟩,
  ⟨1342, .nuNaiSeq, [.t .NU]⟩,
  ⟨1343, .nuNaiSeq, [.n .nuNaiSeq, .n .joik, .n .freeSeq, .t .NU, .t .NAI, .n .freeSeq]⟩,
  ⟨1344, .nuNaiSeq, [.n .nuNaiSeq, .n .joik, .n .freeSeq, .t .NU, .t .NAI]⟩,
  ⟨1345, .nuNaiSeq, [.n .nuNaiSeq, .n .joik, .n .freeSeq, .t .NU, .n .freeSeq]⟩,
  ⟨1346, .nuNaiSeq, [.n .nuNaiSeq, .n .joik, .n .freeSeq, .t .NU]⟩,
  ⟨1347, .nuNaiSeq, [.n .nuNaiSeq, .n .joik, .t .NU, .t .NAI, .n .freeSeq]⟩,
  ⟨1348, .nuNaiSeq, [.n .nuNaiSeq, .n .joik, .t .NU, .t .NAI]⟩,
  ⟨1349, .nuNaiSeq, [.n .nuNaiSeq, .n .joik, .t .NU, .n .freeSeq]⟩,
  ⟨1350, .nuNaiSeq, [.n .nuNaiSeq, .n .joik, .t .NU]⟩,
  ⟨1351, .nuNaiSeq, [.n .nuNaiSeq, .n .jek, .n .freeSeq, .t .NU, .t .NAI, .n .freeSeq]⟩,
  ⟨1352, .nuNaiSeq, [.n .nuNaiSeq, .n .jek, .n .freeSeq, .t .NU, .t .NAI]⟩,
  ⟨1353, .nuNaiSeq, [.n .nuNaiSeq, .n .jek, .n .freeSeq, .t .NU, .n .freeSeq]⟩,
  ⟨1354, .nuNaiSeq, [.n .nuNaiSeq, .n .jek, .n .freeSeq, .t .NU]⟩,
  ⟨1355, .nuNaiSeq, [.n .nuNaiSeq, .n .jek, .t .NU, .t .NAI, .n .freeSeq]⟩,
  ⟨1356, .nuNaiSeq, [.n .nuNaiSeq, .n .jek, .t .NU, .t .NAI]⟩,
  ⟨1357, .nuNaiSeq, [.n .nuNaiSeq, .n .jek, .t .NU, .n .freeSeq]⟩,
  ⟨1358, .nuNaiSeq, [.n .nuNaiSeq, .n .jek, .t .NU]⟩,
  ⟨1366, .linkargs, [.t .BE, .n .freeSeq, .n .term, .n .links, .t .BEhO, .n .freeSeq]⟩,
  ⟨1367, .linkargs, [.t .BE, .n .freeSeq, .n .term, .n .links, .t .BEhO]⟩,
  ⟨1368, .linkargs, [.t .BE, .n .freeSeq, .n .term, .n .links, .e .BEhO]⟩,
  ⟨1369, .linkargs, [.t .BE, .n .term, .n .links, .t .BEhO, .n .freeSeq]⟩,
  ⟨1370, .linkargs, [.t .BE, .n .term, .n .links, .t .BEhO]⟩,
  ⟨1371, .linkargs, [.t .BE, .n .term, .n .links, .e .BEhO]⟩,
  ⟨1372, .linkargs, [.t .BE, .n .freeSeq, .n .term, .t .BEhO, .n .freeSeq]⟩,
  ⟨1373, .linkargs, [.t .BE, .n .freeSeq, .n .term, .t .BEhO]⟩,
  ⟨1374, .linkargs, [.t .BE, .n .freeSeq, .n .term, .e .BEhO]⟩,
  ⟨1375, .linkargs, [.t .BE, .n .term, .t .BEhO, .n .freeSeq]⟩,
  ⟨1376, .linkargs, [.t .BE, .n .term, .t .BEhO]⟩,
  ⟨1377, .linkargs, [.t .BE, .n .term, .e .BEhO]⟩,
  ⟨1384, .links, [.t .BEI, .n .freeSeq, .n .term, .n .links]⟩,
  ⟨1385, .links, [.t .BEI, .n .term, .n .links]⟩,
  ⟨1386, .links, [.t .BEI, .n .freeSeq, .n .term]⟩,
  ⟨1387, .links, [.t .BEI, .n .term]⟩,
  ⟨1394, .quantifier, [.n .number, .t .BOI, .n .freeSeq]⟩,
  ⟨1395, .quantifier, [.n .number, .t .BOI]⟩,
  ⟨1396, .quantifier, [.n .number, .e .BOI]⟩,
  ⟨1397, .quantifier, [.t .VEI, .n .freeSeq, .n .mex, .t .VEhO, .n .freeSeq]⟩,
  ⟨1398, .quantifier, [.t .VEI, .n .freeSeq, .n .mex, .t .VEhO]⟩,
  ⟨1399, .quantifier, [.t .VEI, .n .freeSeq, .n .mex, .e .VEhO]⟩,
  ⟨1400, .quantifier, [.t .VEI, .n .mex, .t .VEhO, .n .freeSeq]⟩,
  ⟨1401, .quantifier, [.t .VEI, .n .mex, .t .VEhO]⟩,
  ⟨1402, .quantifier, [.t .VEI, .n .mex, .e .VEhO]⟩,
  ⟨1409, .mex, [.n .mexInfix]⟩,
  ⟨1410, .mex, [.n .mexRp]⟩,
  ⟨1413, .mexRp, [.t .FUhA, .n .freeSeq, .n .rpExpression]⟩,
  ⟨1414, .mexRp, [.t .FUhA, .n .rpExpression]⟩,
  ⟨1417, .mexInfix, [.n .mex1]⟩]

/-- `rpc2x.y:1418-1541`. -/
def rules10 : List Rule := [
  ⟨1418, .mexInfix, [.n .mexInfix, .n .operator, .n .mex1]⟩,
  ⟨1425, .mex1, [.n .mex2]⟩,
  ⟨1426, .mex1, [.n .mex2, .t .BIhE, .n .freeSeq, .n .operator, .n .mex1]⟩,
  ⟨1427, .mex1, [.n .mex2, .t .BIhE, .n .operator, .n .mex1]⟩,
  ⟨1434, .mex2, [.n .operand]⟩,
  ⟨1435, .mex2, [.t .PEhO, .n .freeSeq, .n .operator, .n .mex2Seq, .t .KUhE, .n .freeSeq]⟩,
  ⟨1436, .mex2, [.t .PEhO, .n .freeSeq, .n .operator, .n .mex2Seq, .t .KUhE]⟩,
  ⟨1437, .mex2, [.t .PEhO, .n .freeSeq, .n .operator, .n .mex2Seq, .e .KUhE]⟩,
  ⟨1439, .mex2, [.t .PEhO, .n .operator, .n .mex2Seq, .t .KUhE, .n .freeSeq]⟩,
  ⟨1440, .mex2, [.t .PEhO, .n .operator, .n .mex2Seq, .t .KUhE]⟩,
  ⟨1441, .mex2, [.t .PEhO, .n .operator, .n .mex2Seq, .e .KUhE]⟩,
  ⟨1443, .mex2, [.n .operator, .n .mex2Seq, .t .KUhE, .n .freeSeq]⟩,
  ⟨1444, .mex2, [.n .operator, .n .mex2Seq, .t .KUhE]⟩,
  ⟨1445, .mex2, [.n .operator, .n .mex2Seq, .e .KUhE]⟩,
  ⟨1448, .mex2Seq, [.n .mex2]⟩,
  ⟨1449, .mex2Seq, [.n .mex2Seq, .n .mex2]⟩,
  ⟨1456, .rpExpression, [.n .rpExpression, .n .rpExpression, .n .operator]⟩,
  ⟨1457, .rpExpression, [.n .operand, .n .rpExpression, .n .operator]⟩,
  ⟨1458, .rpExpression, [.n .rpExpression, .n .operand, .n .operator]⟩,
  ⟨1459, .rpExpression, [.n .operand, .n .operand, .n .operator]⟩,
  ⟨1477, .operator, [.n .operator1]⟩,
  ⟨1478, .operator, [.n .operator, .n .joikOptKe, .n .freeSeq, .n .operator1]⟩,
  ⟨1479, .operator, [.n .operator, .n .joikOptKe, .n .operator1]⟩,
  ⟨1480, .operator, [.n .operator, .n .jekOptKe, .n .freeSeq, .n .operator1]⟩,
  ⟨1481, .operator, [.n .operator, .n .jekOptKe, .n .operator1]⟩,
  ⟨1482, .operator, [.n .operator, .n .joikStagKe, .n .keOperator]⟩,
  ⟨1485, .keOperator, [.t .KE, .n .freeSeq, .n .operator, .t .KEhE, .n .freeSeq]⟩,
  ⟨1486, .keOperator, [.t .KE, .n .freeSeq, .n .operator, .t .KEhE]⟩,
  ⟨1487, .keOperator, [.t .KE, .n .freeSeq, .n .operator, .e .KEhE]⟩,
  ⟨1488, .keOperator, [.t .KE, .n .operator, .t .KEhE, .n .freeSeq]⟩,
  ⟨1489, .keOperator, [.t .KE, .n .operator, .t .KEhE]⟩,
  ⟨1490, .keOperator, [.t .KE, .n .operator, .e .KEhE]⟩,
  ⟨1499, .operator1, [.n .operator2]⟩,
  ⟨1500, .operator1, [.n .guhek, .n .operator1, .n .gik, .n .operator2]⟩,
  ⟨1501, .operator1, [.n .operator2, .n .joikJekStagBo, .n .operator1]⟩,
  ⟨1509, .operator2, [.n .mexOperator]⟩,
  ⟨1510, .operator2, [.t .KE, .n .freeSeq, .n .operator, .t .KEhE, .n .freeSeq]⟩,
  ⟨1511, .operator2, [.t .KE, .n .freeSeq, .n .operator, .t .KEhE]⟩,
  ⟨1512, .operator2, [.t .KE, .n .freeSeq, .n .operator, .e .KEhE]⟩,
  ⟨1513, .operator2, [.t .KE, .n .operator, .t .KEhE, .n .freeSeq]⟩,
  ⟨1514, .operator2, [.t .KE, .n .operator, .t .KEhE]⟩,
  ⟨1515, .operator2, [.t .KE, .n .operator, .e .KEhE]⟩,
  ⟨1524, .mexOperator, [.t .SE, .n .freeSeq, .n .mexOperator]⟩,
  ⟨1525, .mexOperator, [.t .SE, .n .mexOperator]⟩,
  ⟨1526, .mexOperator, [.t .NAhE, .n .freeSeq, .n .mexOperator]⟩,
  ⟨1527, .mexOperator, [.t .NAhE, .n .mexOperator]⟩,
  ⟨1528, .mexOperator, [.t .MAhO, .n .freeSeq, .n .mex, .t .TEhU, .n .freeSeq]⟩,
  ⟨1529, .mexOperator, [.t .MAhO, .n .freeSeq, .n .mex, .t .TEhU]⟩,
  ⟨1530, .mexOperator, [.t .MAhO, .n .freeSeq, .n .mex, .e .TEhU]⟩,
  ⟨1531, .mexOperator, [.t .MAhO, .n .mex, .t .TEhU, .n .freeSeq]⟩,
  ⟨1532, .mexOperator, [.t .MAhO, .n .mex, .t .TEhU]⟩,
  ⟨1533, .mexOperator, [.t .MAhO, .n .mex, .e .TEhU]⟩,
  ⟨1534, .mexOperator, [.t .NAhU, .n .freeSeq, .n .selbri, .t .TEhU, .n .freeSeq]⟩,
  ⟨1535, .mexOperator, [.t .NAhU, .n .freeSeq, .n .selbri, .t .TEhU]⟩,
  ⟨1536, .mexOperator, [.t .NAhU, .n .freeSeq, .n .selbri, .e .TEhU]⟩,
  ⟨1537, .mexOperator, [.t .NAhU, .n .selbri, .t .TEhU, .n .freeSeq]⟩,
  ⟨1538, .mexOperator, [.t .NAhU, .n .selbri, .t .TEhU]⟩,
  ⟨1539, .mexOperator, [.t .NAhU, .n .selbri, .e .TEhU]⟩,
  ⟨1540, .mexOperator, [.t .VUhU, .n .freeSeq]⟩,
  ⟨1541, .mexOperator, [.t .VUhU]⟩]

/-- `rpc2x.y:1548-1664`. -/
def rules11 : List Rule := [
  ⟨1548, .operand, [.n .operand1]⟩,
  ⟨1549, .operand, [.n .operand1, .n .joikEkKe, .n .keOperand]⟩,
  ⟨1552, .keOperand, [.t .KE, .n .freeSeq, .n .operand, .t .KEhE, .n .freeSeq]⟩,
  ⟨1553, .keOperand, [.t .KE, .n .freeSeq, .n .operand, .t .KEhE]⟩,
  ⟨1554, .keOperand, [.t .KE, .n .freeSeq, .n .operand, .e .KEhE]⟩,
  ⟨1555, .keOperand, [.t .KE, .n .operand, .t .KEhE, .n .freeSeq]⟩,
  ⟨1556, .keOperand, [.t .KE, .n .operand, .t .KEhE]⟩,
  ⟨1557, .keOperand, [.t .KE, .n .operand, .e .KEhE]⟩,
  ⟨1565, .operand1, [.n .operand2]⟩,
  ⟨1566, .operand1, [.n .operand1, .n .joik, .n .freeSeq, .n .operand2]⟩,
  ⟨1567, .operand1, [.n .operand1, .n .joik, .n .operand2]⟩,
  ⟨1568, .operand1, [.n .operand1, .n .jek, .n .freeSeq, .n .operand2]⟩,
  ⟨1569, .operand1, [.n .operand1, .n .jek, .n .operand2]⟩,
  ⟨1577, .operand2, [.n .operand3]⟩,
  ⟨1578, .operand2, [.n .operand3, .n .joikEkStagBo, .n .operand2]⟩,
  ⟨1590, .operand3, [.n .quantifier]⟩,
  ⟨1592, .operand3, [.n .lerfuString, .t .BOI, .n .freeSeq]⟩,
  ⟨1593, .operand3, [.n .lerfuString, .t .BOI]⟩,
  ⟨1594, .operand3, [.n .lerfuString, .e .BOI]⟩,
  ⟨1596, .operand3, [.t .NIhE, .n .freeSeq, .n .selbri, .t .TEhU, .n .freeSeq]⟩,
  ⟨1597, .operand3, [.t .NIhE, .n .freeSeq, .n .selbri, .t .TEhU]⟩,
  ⟨1598, .operand3, [.t .NIhE, .n .freeSeq, .n .selbri, .e .TEhU]⟩,
  ⟨1599, .operand3, [.t .NIhE, .n .selbri, .t .TEhU, .n .freeSeq]⟩,
  ⟨1600, .operand3, [.t .NIhE, .n .selbri, .t .TEhU]⟩,
  ⟨1601, .operand3, [.t .NIhE, .n .selbri, .e .TEhU]⟩,
  ⟨1603, .operand3, [.t .MOhE, .n .freeSeq, .n .sumti, .t .TEhU, .n .freeSeq]⟩,
  ⟨1604, .operand3, [.t .MOhE, .n .freeSeq, .n .sumti, .t .TEhU]⟩,
  ⟨1605, .operand3, [.t .MOhE, .n .freeSeq, .n .sumti, .e .TEhU]⟩,
  ⟨1606, .operand3, [.t .MOhE, .n .sumti, .t .TEhU, .n .freeSeq]⟩,
  ⟨1607, .operand3, [.t .MOhE, .n .sumti, .t .TEhU]⟩,
  ⟨1608, .operand3, [.t .MOhE, .n .sumti, .e .TEhU]⟩,
  ⟨1610, .operand3, [.t .JOhI, .n .freeSeq, .n .mex2Seq, .t .TEhU, .n .freeSeq]⟩,
  ⟨1611, .operand3, [.t .JOhI, .n .freeSeq, .n .mex2Seq, .t .TEhU]⟩,
  ⟨1612, .operand3, [.t .JOhI, .n .freeSeq, .n .mex2Seq, .e .TEhU]⟩,
  ⟨1613, .operand3, [.t .JOhI, .n .mex2Seq, .t .TEhU, .n .freeSeq]⟩,
  ⟨1614, .operand3, [.t .JOhI, .n .mex2Seq, .t .TEhU]⟩,
  ⟨1615, .operand3, [.t .JOhI, .n .mex2Seq, .e .TEhU]⟩,
  ⟨1617, .operand3, [.n .gek, .n .operand, .n .gik, .n .operand3]⟩,
  ⟨1619, .operand3, [.t .LAhE, .n .freeSeq, .n .operand, .t .LUhU, .n .freeSeq]⟩,
  ⟨1620, .operand3, [.t .LAhE, .n .freeSeq, .n .operand, .t .LUhU]⟩,
  ⟨1621, .operand3, [.t .LAhE, .n .freeSeq, .n .operand, .e .LUhU]⟩,
  ⟨1622, .operand3, [.t .LAhE, .n .operand, .t .LUhU, .n .freeSeq]⟩,
  ⟨1623, .operand3, [.t .LAhE, .n .operand, .t .LUhU]⟩,
  ⟨1624, .operand3, [.t .LAhE, .n .operand, .e .LUhU]⟩,
  ⟨1626, .operand3, [.t .NAhE, .t .BO, .n .freeSeq, .n .operand, .t .LUhU, .n .freeSeq]⟩,
  ⟨1627, .operand3, [.t .NAhE, .t .BO, .n .freeSeq, .n .operand, .t .LUhU]⟩,
  ⟨1628, .operand3, [.t .NAhE, .t .BO, .n .freeSeq, .n .operand, .e .LUhU]⟩,
  ⟨1629, .operand3, [.t .NAhE, .t .BO, .n .operand, .t .LUhU, .n .freeSeq]⟩,
  ⟨1630, .operand3, [.t .NAhE, .t .BO, .n .operand, .t .LUhU]⟩,
  ⟨1631, .operand3, [.t .NAhE, .t .BO, .n .operand, .e .LUhU]⟩,
  ⟨1639, .number, [.n .innerNumber]⟩,
  ⟨1642, .innerNumber, [.t .PA]⟩,
  ⟨1643, .innerNumber, [.n .innerNumber, .t .PA]⟩,
  ⟨1644, .innerNumber, [.n .innerNumber, .n .lerfuWord]⟩,
  ⟨1652, .lerfuString, [.n .lerfuWord]⟩,
  ⟨1653, .lerfuString, [.n .lerfuString, .t .PA]⟩,
  ⟨1654, .lerfuString, [.n .lerfuString, .n .lerfuWord]⟩,
  ⟨1662, .lerfuWord, [.t .BY]⟩,
  ⟨1663, .lerfuWord, [.leaf]⟩,
  ⟨1664, .lerfuWord, [.t .LAU, .n .lerfuWord]⟩]

/-- `rpc2x.y:1665-1746`. -/
def rules12 : List Rule := [
  ⟨1665, .lerfuWord, [.t .TEI, .n .lerfuString, .t .FOI]⟩,
  ⟨1672, .ek, [.t .NA, .t .SE, .t .A, .t .NAI]⟩,
  ⟨1673, .ek, [.t .NA, .t .SE, .t .A]⟩,
  ⟨1674, .ek, [.t .NA, .t .A, .t .NAI]⟩,
  ⟨1675, .ek, [.t .NA, .t .A]⟩,
  ⟨1676, .ek, [.t .SE, .t .A, .t .NAI]⟩,
  ⟨1677, .ek, [.t .SE, .t .A]⟩,
  ⟨1678, .ek, [.t .A, .t .NAI]⟩,
  ⟨1679, .ek, [.t .A]⟩,
  ⟨1686, .gihek, [.t .NA, .t .SE, .t .GIhA, .t .NAI]⟩,
  ⟨1687, .gihek, [.t .NA, .t .SE, .t .GIhA]⟩,
  ⟨1688, .gihek, [.t .NA, .t .GIhA, .t .NAI]⟩,
  ⟨1689, .gihek, [.t .NA, .t .GIhA]⟩,
  ⟨1690, .gihek, [.t .SE, .t .GIhA, .t .NAI]⟩,
  ⟨1691, .gihek, [.t .SE, .t .GIhA]⟩,
  ⟨1692, .gihek, [.t .GIhA, .t .NAI]⟩,
  ⟨1693, .gihek, [.t .GIhA]⟩,
  ⟨1700, .jek, [.t .NA, .t .SE, .t .JA, .t .NAI]⟩,
  ⟨1701, .jek, [.t .NA, .t .SE, .t .JA]⟩,
  ⟨1702, .jek, [.t .NA, .t .JA, .t .NAI]⟩,
  ⟨1703, .jek, [.t .NA, .t .JA]⟩,
  ⟨1704, .jek, [.t .SE, .t .JA, .t .NAI]⟩,
  ⟨1705, .jek, [.t .SE, .t .JA]⟩,
  ⟨1706, .jek, [.t .JA, .t .NAI]⟩,
  ⟨1707, .jek, [.t .JA]⟩,
  ⟨1710, .jekOptKe, [.t .NA, .t .SE, .t .JA, .t .NAI]⟩,
  ⟨1711, .jekOptKe, [.t .NA, .t .SE, .t .JA]⟩,
  ⟨1712, .jekOptKe, [.t .NA, .t .JA, .t .NAI]⟩,
  ⟨1713, .jekOptKe, [.t .NA, .t .JA]⟩,
  ⟨1714, .jekOptKe, [.t .SE, .t .JA, .t .NAI]⟩,
  ⟨1715, .jekOptKe, [.t .SE, .t .JA]⟩,
  ⟨1716, .jekOptKe, [.t .JA, .t .NAI]⟩,
  ⟨1717, .jekOptKe, [.t .JA]⟩,
  ⟨1718, .jekOptKe, [.t .NA, .t .SE, .t .JA, .t .NAI]⟩,
  ⟨1719, .jekOptKe, [.t .NA, .t .SE, .t .JA]⟩,
  ⟨1720, .jekOptKe, [.t .NA, .t .JA, .t .NAI]⟩,
  ⟨1721, .jekOptKe, [.t .NA, .t .JA]⟩,
  ⟨1722, .jekOptKe, [.t .SE, .t .JA, .t .NAI]⟩,
  ⟨1723, .jekOptKe, [.t .SE, .t .JA]⟩,
  ⟨1724, .jekOptKe, [.t .JA, .t .NAI]⟩,
  ⟨1725, .jekOptKe, [.t .JA]⟩,
  ⟨1728, .jekOptKebo, [.t .NA, .t .SE, .t .JA, .t .NAI]⟩,
  ⟨1729, .jekOptKebo, [.t .NA, .t .SE, .t .JA]⟩,
  ⟨1730, .jekOptKebo, [.t .NA, .t .JA, .t .NAI]⟩,
  ⟨1731, .jekOptKebo, [.t .NA, .t .JA]⟩,
  ⟨1732, .jekOptKebo, [.t .SE, .t .JA, .t .NAI]⟩,
  ⟨1733, .jekOptKebo, [.t .SE, .t .JA]⟩,
  ⟨1734, .jekOptKebo, [.t .JA, .t .NAI]⟩,
  ⟨1735, .jekOptKebo, [.t .JA]⟩,
  ⟨1736, .jekOptKebo, [.t .NA, .t .SE, .t .JA, .t .NAI]⟩,
  ⟨1737, .jekOptKebo, [.t .NA, .t .SE, .t .JA]⟩,
  ⟨1738, .jekOptKebo, [.t .NA, .t .JA, .t .NAI]⟩,
  ⟨1739, .jekOptKebo, [.t .NA, .t .JA]⟩,
  ⟨1740, .jekOptKebo, [.t .SE, .t .JA, .t .NAI]⟩,
  ⟨1741, .jekOptKebo, [.t .SE, .t .JA]⟩,
  ⟨1742, .jekOptKebo, [.t .JA, .t .NAI]⟩,
  ⟨1743, .jekOptKebo, [.t .JA]⟩,
  ⟨1744, .jekOptKebo, [.t .NA, .t .SE, .t .JA, .t .NAI]⟩,
  ⟨1745, .jekOptKebo, [.t .NA, .t .SE, .t .JA]⟩,
  ⟨1746, .jekOptKebo, [.t .NA, .t .JA, .t .NAI]⟩]

/-- `rpc2x.y:1747-1820`. -/
def rules13 : List Rule := [
  ⟨1747, .jekOptKebo, [.t .NA, .t .JA]⟩,
  ⟨1748, .jekOptKebo, [.t .SE, .t .JA, .t .NAI]⟩,
  ⟨1749, .jekOptKebo, [.t .SE, .t .JA]⟩,
  ⟨1750, .jekOptKebo, [.t .JA, .t .NAI]⟩,
  ⟨1751, .jekOptKebo, [.t .JA]⟩,
  ⟨1758, .joik, [.t .SE, .t .JOI, .t .NAI]⟩,
  ⟨1759, .joik, [.t .SE, .t .JOI]⟩,
  ⟨1760, .joik, [.t .JOI, .t .NAI]⟩,
  ⟨1761, .joik, [.t .JOI]⟩,
  ⟨1762, .joik, [.t .SE, .t .BIhI, .t .NAI]⟩,
  ⟨1763, .joik, [.t .SE, .t .BIhI]⟩,
  ⟨1764, .joik, [.t .BIhI, .t .NAI]⟩,
  ⟨1765, .joik, [.t .BIhI]⟩,
  ⟨1766, .joik, [.t .GAhO, .t .SE, .t .BIhI, .t .NAI, .t .GAhO]⟩,
  ⟨1767, .joik, [.t .GAhO, .t .SE, .t .BIhI, .t .GAhO]⟩,
  ⟨1768, .joik, [.t .GAhO, .t .BIhI, .t .NAI, .t .GAhO]⟩,
  ⟨1769, .joik, [.t .GAhO, .t .BIhI, .t .GAhO]⟩,
  ⟨1776, .joikOptKe, [.t .SE, .t .JOI, .t .NAI]⟩,
  ⟨1777, .joikOptKe, [.t .SE, .t .JOI]⟩,
  ⟨1778, .joikOptKe, [.t .JOI, .t .NAI]⟩,
  ⟨1779, .joikOptKe, [.t .JOI]⟩,
  ⟨1780, .joikOptKe, [.t .SE, .t .BIhI, .t .NAI]⟩,
  ⟨1781, .joikOptKe, [.t .SE, .t .BIhI]⟩,
  ⟨1782, .joikOptKe, [.t .BIhI, .t .NAI]⟩,
  ⟨1783, .joikOptKe, [.t .BIhI]⟩,
  ⟨1784, .joikOptKe, [.t .GAhO, .t .SE, .t .BIhI, .t .NAI, .t .GAhO]⟩,
  ⟨1785, .joikOptKe, [.t .GAhO, .t .SE, .t .BIhI, .t .GAhO]⟩,
  ⟨1786, .joikOptKe, [.t .GAhO, .t .BIhI, .t .NAI, .t .GAhO]⟩,
  ⟨1787, .joikOptKe, [.t .GAhO, .t .BIhI, .t .GAhO]⟩,
  ⟨1788, .joikOptKe, [.t .SE, .t .JOI, .t .NAI]⟩,
  ⟨1789, .joikOptKe, [.t .SE, .t .JOI]⟩,
  ⟨1790, .joikOptKe, [.t .JOI, .t .NAI]⟩,
  ⟨1791, .joikOptKe, [.t .JOI]⟩,
  ⟨1792, .joikOptKe, [.t .SE, .t .BIhI, .t .NAI]⟩,
  ⟨1793, .joikOptKe, [.t .SE, .t .BIhI]⟩,
  ⟨1794, .joikOptKe, [.t .BIhI, .t .NAI]⟩,
  ⟨1795, .joikOptKe, [.t .BIhI]⟩,
  ⟨1796, .joikOptKe, [.t .GAhO, .t .SE, .t .BIhI, .t .NAI, .t .GAhO]⟩,
  ⟨1797, .joikOptKe, [.t .GAhO, .t .SE, .t .BIhI, .t .GAhO]⟩,
  ⟨1798, .joikOptKe, [.t .GAhO, .t .BIhI, .t .NAI, .t .GAhO]⟩,
  ⟨1799, .joikOptKe, [.t .GAhO, .t .BIhI, .t .GAhO]⟩,
  ⟨1802, .joikOptKebo, [.t .SE, .t .JOI, .t .NAI]⟩,
  ⟨1803, .joikOptKebo, [.t .SE, .t .JOI]⟩,
  ⟨1804, .joikOptKebo, [.t .JOI, .t .NAI]⟩,
  ⟨1805, .joikOptKebo, [.t .JOI]⟩,
  ⟨1806, .joikOptKebo, [.t .SE, .t .BIhI, .t .NAI]⟩,
  ⟨1807, .joikOptKebo, [.t .SE, .t .BIhI]⟩,
  ⟨1808, .joikOptKebo, [.t .BIhI, .t .NAI]⟩,
  ⟨1809, .joikOptKebo, [.t .BIhI]⟩,
  ⟨1810, .joikOptKebo, [.t .GAhO, .t .SE, .t .BIhI, .t .NAI, .t .GAhO]⟩,
  ⟨1811, .joikOptKebo, [.t .GAhO, .t .SE, .t .BIhI, .t .GAhO]⟩,
  ⟨1812, .joikOptKebo, [.t .GAhO, .t .BIhI, .t .NAI, .t .GAhO]⟩,
  ⟨1813, .joikOptKebo, [.t .GAhO, .t .BIhI, .t .GAhO]⟩,
  ⟨1814, .joikOptKebo, [.t .SE, .t .JOI, .t .NAI]⟩,
  ⟨1815, .joikOptKebo, [.t .SE, .t .JOI]⟩,
  ⟨1816, .joikOptKebo, [.t .JOI, .t .NAI]⟩,
  ⟨1817, .joikOptKebo, [.t .JOI]⟩,
  ⟨1818, .joikOptKebo, [.t .SE, .t .BIhI, .t .NAI]⟩,
  ⟨1819, .joikOptKebo, [.t .SE, .t .BIhI]⟩,
  ⟨1820, .joikOptKebo, [.t .BIhI, .t .NAI]⟩]

/-- `rpc2x.y:1821-1925`. -/
def rules14 : List Rule := [
  ⟨1821, .joikOptKebo, [.t .BIhI]⟩,
  ⟨1822, .joikOptKebo, [.t .GAhO, .t .SE, .t .BIhI, .t .NAI, .t .GAhO]⟩,
  ⟨1823, .joikOptKebo, [.t .GAhO, .t .SE, .t .BIhI, .t .GAhO]⟩,
  ⟨1824, .joikOptKebo, [.t .GAhO, .t .BIhI, .t .NAI, .t .GAhO]⟩,
  ⟨1825, .joikOptKebo, [.t .GAhO, .t .BIhI, .t .GAhO]⟩,
  ⟨1826, .joikOptKebo, [.t .SE, .t .JOI, .t .NAI]⟩,
  ⟨1827, .joikOptKebo, [.t .SE, .t .JOI]⟩,
  ⟨1828, .joikOptKebo, [.t .JOI, .t .NAI]⟩,
  ⟨1829, .joikOptKebo, [.t .JOI]⟩,
  ⟨1830, .joikOptKebo, [.t .SE, .t .BIhI, .t .NAI]⟩,
  ⟨1831, .joikOptKebo, [.t .SE, .t .BIhI]⟩,
  ⟨1832, .joikOptKebo, [.t .BIhI, .t .NAI]⟩,
  ⟨1833, .joikOptKebo, [.t .BIhI]⟩,
  ⟨1834, .joikOptKebo, [.t .GAhO, .t .SE, .t .BIhI, .t .NAI, .t .GAhO]⟩,
  ⟨1835, .joikOptKebo, [.t .GAhO, .t .SE, .t .BIhI, .t .GAhO]⟩,
  ⟨1836, .joikOptKebo, [.t .GAhO, .t .BIhI, .t .NAI, .t .GAhO]⟩,
  ⟨1837, .joikOptKebo, [.t .GAhO, .t .BIhI, .t .GAhO]⟩,
  ⟨1858, .gek, [.t .SE, .t .GA, .t .NAI, .n .freeSeq]⟩,
  ⟨1859, .gek, [.t .SE, .t .GA, .t .NAI]⟩,
  ⟨1860, .gek, [.t .SE, .t .GA, .n .freeSeq]⟩,
  ⟨1861, .gek, [.t .SE, .t .GA]⟩,
  ⟨1862, .gek, [.t .GA, .t .NAI, .n .freeSeq]⟩,
  ⟨1863, .gek, [.t .GA, .t .NAI]⟩,
  ⟨1864, .gek, [.t .GA, .n .freeSeq]⟩,
  ⟨1865, .gek, [.t .GA]⟩,
  ⟨1866, .gek, [.n .joik, .t .GI, .n .freeSeq]⟩,
  ⟨1867, .gek, [.n .joik, .t .GI]⟩,
  ⟨1868, .gek, [.n .stag, .n .gik]⟩,
  ⟨1875, .guhek, [.t .SE, .t .GUhA, .t .NAI, .n .freeSeq]⟩,
  ⟨1876, .guhek, [.t .SE, .t .GUhA, .t .NAI]⟩,
  ⟨1877, .guhek, [.t .SE, .t .GUhA, .n .freeSeq]⟩,
  ⟨1878, .guhek, [.t .SE, .t .GUhA]⟩,
  ⟨1879, .guhek, [.t .GUhA, .t .NAI, .n .freeSeq]⟩,
  ⟨1880, .guhek, [.t .GUhA, .t .NAI]⟩,
  ⟨1881, .guhek, [.t .GUhA, .n .freeSeq]⟩,
  ⟨1882, .guhek, [.t .GUhA]⟩,
  ⟨1889, .gik, [.t .GI, .t .NAI, .n .freeSeq]⟩,
  ⟨1890, .gik, [.t .GI, .t .NAI]⟩,
  ⟨1891, .gik, [.t .GI, .n .freeSeq]⟩,
  ⟨1892, .gik, [.t .GI]⟩,
  ⟨1900, .tag, [.n .ctag]⟩,
  ⟨1901, .tag, [.n .stag]⟩,
  ⟨1905, .ctag, [.n .complexTenseModal]⟩,
  ⟨1906, .ctag, [.n .ctag, .n .joikOptKebo, .n .freeSeq, .n .complexTenseModal]⟩,
  ⟨1907, .ctag, [.n .ctag, .n .joikOptKebo, .n .complexTenseModal]⟩,
  ⟨1908, .ctag, [.n .ctag, .n .jekOptKebo, .n .freeSeq, .n .complexTenseModal]⟩,
  ⟨1909, .ctag, [.n .ctag, .n .jekOptKebo, .n .complexTenseModal]⟩,
  ⟨1910, .ctag, [.n .ctag, .n .joikOptKebo, .n .freeSeq, .n .simpleTenseModal]⟩,
  ⟨1911, .ctag, [.n .ctag, .n .joikOptKebo, .n .simpleTenseModal]⟩,
  ⟨1912, .ctag, [.n .ctag, .n .jekOptKebo, .n .freeSeq, .n .simpleTenseModal]⟩,
  ⟨1913, .ctag, [.n .ctag, .n .jekOptKebo, .n .simpleTenseModal]⟩,
  ⟨1914, .ctag, [.n .stag, .n .joikOptKebo, .n .freeSeq, .n .complexTenseModal]⟩,
  ⟨1915, .ctag, [.n .stag, .n .joikOptKebo, .n .complexTenseModal]⟩,
  ⟨1916, .ctag, [.n .stag, .n .jekOptKebo, .n .freeSeq, .n .complexTenseModal]⟩,
  ⟨1917, .ctag, [.n .stag, .n .jekOptKebo, .n .complexTenseModal]⟩,
  ⟨1921, .complexTenseModal, [.t .FIhO, .n .freeSeq, .n .selbri, .t .FEhU, .n .freeSeq]⟩,
  ⟨1922, .complexTenseModal, [.t .FIhO, .n .freeSeq, .n .selbri, .t .FEhU]⟩,
  ⟨1923, .complexTenseModal, [.t .FIhO, .n .freeSeq, .n .selbri, .e .FEhU]⟩,
  ⟨1924, .complexTenseModal, [.t .FIhO, .n .selbri, .t .FEhU, .n .freeSeq]⟩,
  ⟨1925, .complexTenseModal, [.t .FIhO, .n .selbri, .t .FEhU]⟩]

/-- `rpc2x.y:1926-2016`. -/
def rules15 : List Rule := [
  ⟨1926, .complexTenseModal, [.t .FIhO, .n .selbri, .e .FEhU]⟩,
  ⟨1927, .complexTenseModal, [.n .simpleTenseModal, .n .freeSeq]⟩,
  ⟨1935, .stag, [.n .simpleTenseModal]⟩,
  ⟨1936, .stag, [.n .stag, .n .jekOptKebo, .n .simpleTenseModal]⟩,
  ⟨1937, .stag, [.n .stag, .n .joikOptKebo, .n .simpleTenseModal]⟩,
  ⟨1951, .simpleTenseModal, [.t .NAhE, .n .seBai, .t .NAI, .t .KI]⟩,
  ⟨1952, .simpleTenseModal, [.t .NAhE, .n .seBai, .t .NAI]⟩,
  ⟨1953, .simpleTenseModal, [.t .NAhE, .n .seBai, .t .KI]⟩,
  ⟨1954, .simpleTenseModal, [.t .NAhE, .n .seBai]⟩,
  ⟨1955, .simpleTenseModal, [.t .NAhE, .n .bai1, .t .NAI, .t .KI]⟩,
  ⟨1956, .simpleTenseModal, [.t .NAhE, .n .bai1, .t .NAI]⟩,
  ⟨1957, .simpleTenseModal, [.t .NAhE, .n .bai1, .t .KI]⟩,
  ⟨1958, .simpleTenseModal, [.t .NAhE, .n .bai1]⟩,
  ⟨1959, .simpleTenseModal, [.n .seBai, .t .NAI, .t .KI]⟩,
  ⟨1960, .simpleTenseModal, [.n .seBai, .t .NAI]⟩,
  ⟨1961, .simpleTenseModal, [.n .seBai, .t .KI]⟩,
  ⟨1962, .simpleTenseModal, [.n .seBai]⟩,
  ⟨1963, .simpleTenseModal, [.n .bai1, .t .NAI, .t .KI]⟩,
  ⟨1964, .simpleTenseModal, [.n .bai1, .t .NAI]⟩,
  ⟨1965, .simpleTenseModal, [.n .bai1, .t .KI]⟩,
  ⟨1966, .simpleTenseModal, [.n .bai1]⟩,
  ⟨1968, .simpleTenseModal, [.t .NAhE, .n .time, .n .space, .t .CAhA, .t .KI]⟩,
  ⟨1969, .simpleTenseModal, [.t .NAhE, .n .time, .n .space, .t .CAhA]⟩,
  ⟨1970, .simpleTenseModal, [.t .NAhE, .n .time, .n .space, .t .KI]⟩,
  ⟨1971, .simpleTenseModal, [.t .NAhE, .n .time, .n .space]⟩,
  ⟨1972, .simpleTenseModal, [.t .NAhE, .n .time, .t .CAhA, .t .KI]⟩,
  ⟨1973, .simpleTenseModal, [.t .NAhE, .n .time, .t .CAhA]⟩,
  ⟨1974, .simpleTenseModal, [.t .NAhE, .n .time, .t .KI]⟩,
  ⟨1975, .simpleTenseModal, [.t .NAhE, .n .time]⟩,
  ⟨1976, .simpleTenseModal, [.n .time, .n .space, .t .CAhA, .t .KI]⟩,
  ⟨1977, .simpleTenseModal, [.n .time, .n .space, .t .CAhA]⟩,
  ⟨1978, .simpleTenseModal, [.n .time, .n .space, .t .KI]⟩,
  ⟨1979, .simpleTenseModal, [.n .time, .n .space]⟩,
  ⟨1980, .simpleTenseModal, [.n .time, .t .CAhA, .t .KI]⟩,
  ⟨1981, .simpleTenseModal, [.n .time, .t .CAhA]⟩,
  ⟨1982, .simpleTenseModal, [.n .time, .t .KI]⟩,
  ⟨1983, .simpleTenseModal, [.n .time]⟩,
  ⟨1985, .simpleTenseModal, [.t .NAhE, .n .space, .n .time, .t .CAhA, .t .KI]⟩,
  ⟨1986, .simpleTenseModal, [.t .NAhE, .n .space, .n .time, .t .CAhA]⟩,
  ⟨1987, .simpleTenseModal, [.t .NAhE, .n .space, .n .time, .t .KI]⟩,
  ⟨1988, .simpleTenseModal, [.t .NAhE, .n .space, .n .time]⟩,
  ⟨1989, .simpleTenseModal, [.t .NAhE, .n .space, .t .CAhA, .t .KI]⟩,
  ⟨1990, .simpleTenseModal, [.t .NAhE, .n .space, .t .CAhA]⟩,
  ⟨1991, .simpleTenseModal, [.t .NAhE, .n .space, .t .KI]⟩,
  ⟨1992, .simpleTenseModal, [.t .NAhE, .n .space]⟩,
  ⟨1993, .simpleTenseModal, [.n .space, .n .time, .t .CAhA, .t .KI]⟩,
  ⟨1994, .simpleTenseModal, [.n .space, .n .time, .t .CAhA]⟩,
  ⟨1995, .simpleTenseModal, [.n .space, .n .time, .t .KI]⟩,
  ⟨1996, .simpleTenseModal, [.n .space, .n .time]⟩,
  ⟨1997, .simpleTenseModal, [.n .space, .t .CAhA, .t .KI]⟩,
  ⟨1998, .simpleTenseModal, [.n .space, .t .CAhA]⟩,
  ⟨1999, .simpleTenseModal, [.n .space, .t .KI]⟩,
  ⟨2000, .simpleTenseModal, [.n .space]⟩,
  ⟨2002, .simpleTenseModal, [.t .CAhA, .t .KI]⟩,
  ⟨2003, .simpleTenseModal, [.t .CAhA]⟩,
  ⟨2005, .simpleTenseModal, [.t .NAhE, .t .CAhA, .t .KI]⟩,
  ⟨2006, .simpleTenseModal, [.t .NAhE, .t .CAhA]⟩,
  ⟨2008, .simpleTenseModal, [.t .KI]⟩,
  ⟨2009, .simpleTenseModal, [.t .CUhE]⟩,
  ⟨2016, .seBai, [.t .SE, .t .BAI]⟩]

/-- `rpc2x.y:2019-2127`. -/
def rules16 : List Rule := [
  ⟨2019, .bai1, [.t .BAI]⟩,
  ⟨2027, .time, [.t .ZI, .n .timeOffsetSeq, .n .zehaPuNai, .n .intervalPropertySeq]⟩,
  ⟨2028, .time, [.t .ZI, .n .timeOffsetSeq, .n .intervalPropertySeq]⟩,
  ⟨2030, .time, [.t .ZI, .n .timeOffsetSeq, .n .zehaPuNai]⟩,
  ⟨2031, .time, [.t .ZI, .n .timeOffsetSeq]⟩,
  ⟨2033, .time, [.t .ZI, .n .zehaPuNai, .n .intervalPropertySeq]⟩,
  ⟨2034, .time, [.t .ZI, .n .intervalPropertySeq]⟩,
  ⟨2036, .time, [.t .ZI, .n .zehaPuNai]⟩,
  ⟨2037, .time, [.t .ZI]⟩,
  ⟨2039, .time, [.n .timeOffsetSeq, .n .zehaPuNai, .n .intervalPropertySeq]⟩,
  ⟨2040, .time, [.n .timeOffsetSeq, .n .intervalPropertySeq]⟩,
  ⟨2042, .time, [.n .timeOffsetSeq, .n .zehaPuNai]⟩,
  ⟨2043, .time, [.n .timeOffsetSeq]⟩,
  ⟨2045, .time, [.n .zehaPuNai, .n .intervalPropertySeq]⟩,
  ⟨2046, .time, [.n .intervalPropertySeq]⟩,
  ⟨2048, .time, [.n .zehaPuNai]⟩,
  ⟨2052, .zehaPuNai, [.t .ZEhA, .t .PU, .t .NAI]⟩,
  ⟨2053, .zehaPuNai, [.t .ZEhA, .t .PU]⟩,
  ⟨2054, .zehaPuNai, [.t .ZEhA]⟩,
  ⟨2061, .timeOffset, [.t .PU, .t .NAI, .t .ZI]⟩,
  ⟨2062, .timeOffset, [.t .PU, .t .NAI]⟩,
  ⟨2063, .timeOffset, [.t .PU, .t .ZI]⟩,
  ⟨2064, .timeOffset, [.t .PU]⟩,
  ⟨2067, .timeOffsetSeq, [.n .timeOffsetSeq, .n .timeOffset]⟩,
  ⟨2068, .timeOffsetSeq, [.n .timeOffset]⟩,
  ⟨2075, .space, [.t .VA, .n .spaceOffsetSeq, .n .spaceInterval, .t .MOhI, .n .spaceOffset]⟩,
  ⟨2076, .space, [.t .VA, .n .spaceOffsetSeq, .n .spaceInterval]⟩,
  ⟨2077, .space, [.t .VA, .n .spaceOffsetSeq, .t .MOhI, .n .spaceOffset]⟩,
  ⟨2078, .space, [.t .VA, .n .spaceOffsetSeq]⟩,
  ⟨2080, .space, [.t .VA, .n .spaceInterval, .t .MOhI, .n .spaceOffset]⟩,
  ⟨2081, .space, [.t .VA, .n .spaceInterval]⟩,
  ⟨2082, .space, [.t .VA, .t .MOhI, .n .spaceOffset]⟩,
  ⟨2083, .space, [.t .VA]⟩,
  ⟨2085, .space, [.n .spaceOffsetSeq, .n .spaceInterval, .t .MOhI, .n .spaceOffset]⟩,
  ⟨2086, .space, [.n .spaceOffsetSeq, .n .spaceInterval]⟩,
  ⟨2087, .space, [.n .spaceOffsetSeq, .t .MOhI, .n .spaceOffset]⟩,
  ⟨2088, .space, [.n .spaceOffsetSeq]⟩,
  ⟨2090, .space, [.n .spaceInterval, .t .MOhI, .n .spaceOffset]⟩,
  ⟨2091, .space, [.n .spaceInterval]⟩,
  ⟨2092, .space, [.t .MOhI, .n .spaceOffset]⟩,
  ⟨2099, .spaceOffset, [.t .FAhA, .t .NAI, .t .VA]⟩,
  ⟨2100, .spaceOffset, [.t .FAhA, .t .NAI]⟩,
  ⟨2101, .spaceOffset, [.t .FAhA, .t .VA]⟩,
  ⟨2102, .spaceOffset, [.t .FAhA]⟩,
  ⟨2105, .spaceOffsetSeq, [.n .spaceOffsetSeq, .n .spaceOffset]⟩,
  ⟨2106, .spaceOffsetSeq, [.n .spaceOffset]⟩,
  ⟨2113, .spaceInterval, [.t .VEhA, .t .VIhA, .t .FAhA, .t .NAI, .n .spaceIntProps]⟩,
  ⟨2114, .spaceInterval, [.t .VEhA, .t .VIhA, .t .FAhA, .n .spaceIntProps]⟩,
  ⟨2115, .spaceInterval, [.t .VEhA, .t .VIhA, .n .spaceIntProps]⟩,
  ⟨2116, .spaceInterval, [.t .VEhA, .t .FAhA, .t .NAI, .n .spaceIntProps]⟩,
  ⟨2117, .spaceInterval, [.t .VEhA, .t .FAhA, .n .spaceIntProps]⟩,
  ⟨2118, .spaceInterval, [.t .VEhA, .n .spaceIntProps]⟩,
  ⟨2119, .spaceInterval, [.t .VIhA, .t .FAhA, .t .NAI, .n .spaceIntProps]⟩,
  ⟨2120, .spaceInterval, [.t .VIhA, .t .FAhA, .n .spaceIntProps]⟩,
  ⟨2121, .spaceInterval, [.t .VIhA, .n .spaceIntProps]⟩,
  ⟨2123, .spaceInterval, [.t .VEhA, .t .VIhA, .t .FAhA, .t .NAI]⟩,
  ⟨2124, .spaceInterval, [.t .VEhA, .t .VIhA, .t .FAhA]⟩,
  ⟨2125, .spaceInterval, [.t .VEhA, .t .VIhA]⟩,
  ⟨2126, .spaceInterval, [.t .VEhA, .t .FAhA, .t .NAI]⟩,
  ⟨2127, .spaceInterval, [.t .VEhA, .t .FAhA]⟩]

/-- `rpc2x.y:2128-2230`. -/
def rules17 : List Rule := [
  ⟨2128, .spaceInterval, [.t .VEhA]⟩,
  ⟨2129, .spaceInterval, [.t .VIhA, .t .FAhA, .t .NAI]⟩,
  ⟨2130, .spaceInterval, [.t .VIhA, .t .FAhA]⟩,
  ⟨2131, .spaceInterval, [.t .VIhA]⟩,
  ⟨2133, .spaceInterval, [.n .spaceIntProps]⟩,
  ⟨2140, .spaceIntProps, [.n .spaceIntProps, .n .spaceIntProp]⟩,
  ⟨2141, .spaceIntProps, [.n .spaceIntProp]⟩,
  ⟨2144, .spaceIntProp, [.t .FEhE, .n .intervalProperty]⟩,
  ⟨2151, .intervalProperty, [.n .number, .t .ROI, .t .NAI]⟩,
  ⟨2152, .intervalProperty, [.n .number, .t .ROI]⟩,
  ⟨2153, .intervalProperty, [.t .TAhE, .t .NAI]⟩,
  ⟨2154, .intervalProperty, [.t .TAhE]⟩,
  ⟨2155, .intervalProperty, [.t .ZAhO, .t .NAI]⟩,
  ⟨2156, .intervalProperty, [.t .ZAhO]⟩,
  ⟨2159, .intervalPropertySeq, [.n .intervalPropertySeq, .n .intervalProperty]⟩,
  ⟨2160, .intervalPropertySeq, [.n .intervalProperty]⟩,
  ⟨2173, .freeSeq, [.n .freeSeq, .n .free]⟩,
  ⟨2174, .freeSeq, [.n .free]⟩,
  ⟨2177, .free, [.n .metalinguistic]⟩,
  ⟨2178, .free, [.n .reciprocity]⟩,
  ⟨2179, .free, [.n .freeVocative]⟩,
  ⟨2180, .free, [.n .utteranceOrdinal]⟩,
  ⟨2181, .free, [.n .parenthetical]⟩,
  ⟨2182, .free, [.n .subscript]⟩,
  ⟨2186, .metalinguistic, [.t .SEI, .n .freeSeq, .n .terms, .t .CU, .n .freeSeq, .n .metalinguisticMainSelbri, .t .SEhU]⟩,
  ⟨2187, .metalinguistic, [.t .SEI, .n .freeSeq, .n .terms, .t .CU, .n .freeSeq, .n .metalinguisticMainSelbri, .e .SEhU]⟩,
  ⟨2188, .metalinguistic, [.t .SEI, .n .freeSeq, .n .terms, .t .CU, .n .metalinguisticMainSelbri, .t .SEhU]⟩,
  ⟨2189, .metalinguistic, [.t .SEI, .n .freeSeq, .n .terms, .t .CU, .n .metalinguisticMainSelbri, .e .SEhU]⟩,
  ⟨2190, .metalinguistic, [.t .SEI, .n .freeSeq, .n .terms, .n .metalinguisticMainSelbri, .t .SEhU]⟩,
  ⟨2191, .metalinguistic, [.t .SEI, .n .freeSeq, .n .terms, .n .metalinguisticMainSelbri, .e .SEhU]⟩,
  ⟨2192, .metalinguistic, [.t .SEI, .n .freeSeq, .n .metalinguisticMainSelbri, .t .SEhU]⟩,
  ⟨2193, .metalinguistic, [.t .SEI, .n .freeSeq, .n .metalinguisticMainSelbri, .e .SEhU]⟩,
  ⟨2195, .metalinguistic, [.t .SEI, .n .terms, .t .CU, .n .freeSeq, .n .metalinguisticMainSelbri, .t .SEhU]⟩,
  ⟨2196, .metalinguistic, [.t .SEI, .n .terms, .t .CU, .n .freeSeq, .n .metalinguisticMainSelbri, .e .SEhU]⟩,
  ⟨2197, .metalinguistic, [.t .SEI, .n .terms, .t .CU, .n .metalinguisticMainSelbri, .t .SEhU]⟩,
  ⟨2198, .metalinguistic, [.t .SEI, .n .terms, .t .CU, .n .metalinguisticMainSelbri, .e .SEhU]⟩,
  ⟨2199, .metalinguistic, [.t .SEI, .n .terms, .n .metalinguisticMainSelbri, .t .SEhU]⟩,
  ⟨2200, .metalinguistic, [.t .SEI, .n .terms, .n .metalinguisticMainSelbri, .e .SEhU]⟩,
  ⟨2201, .metalinguistic, [.t .SEI, .n .metalinguisticMainSelbri, .t .SEhU]⟩,
  ⟨2202, .metalinguistic, [.t .SEI, .n .metalinguisticMainSelbri, .e .SEhU]⟩,
  ⟨2205, .metalinguisticMainSelbri, [.n .selbri]⟩,
  ⟨2208, .reciprocity, [.t .SOI, .n .freeSeq, .n .sumti, .n .sumti, .t .SEhU]⟩,
  ⟨2209, .reciprocity, [.t .SOI, .n .freeSeq, .n .sumti, .n .sumti, .e .SEhU]⟩,
  ⟨2210, .reciprocity, [.t .SOI, .n .freeSeq, .n .sumti, .t .SEhU]⟩,
  ⟨2211, .reciprocity, [.t .SOI, .n .freeSeq, .n .sumti, .e .SEhU]⟩,
  ⟨2212, .reciprocity, [.t .SOI, .n .sumti, .n .sumti, .t .SEhU]⟩,
  ⟨2213, .reciprocity, [.t .SOI, .n .sumti, .n .sumti, .e .SEhU]⟩,
  ⟨2214, .reciprocity, [.t .SOI, .n .sumti, .t .SEhU]⟩,
  ⟨2215, .reciprocity, [.t .SOI, .n .sumti, .e .SEhU]⟩,
  ⟨2219, .freeVocative, [.n .vocative, .n .relativeClauses, .n .selbri, .n .relativeClauses, .t .DOhU]⟩,
  ⟨2220, .freeVocative, [.n .vocative, .n .relativeClauses, .n .selbri, .n .relativeClauses, .e .DOhU]⟩,
  ⟨2221, .freeVocative, [.n .vocative, .n .relativeClauses, .n .selbri, .t .DOhU]⟩,
  ⟨2222, .freeVocative, [.n .vocative, .n .relativeClauses, .n .selbri, .e .DOhU]⟩,
  ⟨2223, .freeVocative, [.n .vocative, .n .selbri, .n .relativeClauses, .t .DOhU]⟩,
  ⟨2224, .freeVocative, [.n .vocative, .n .selbri, .n .relativeClauses, .e .DOhU]⟩,
  ⟨2225, .freeVocative, [.n .vocative, .n .selbri, .t .DOhU]⟩,
  ⟨2226, .freeVocative, [.n .vocative, .n .selbri, .e .DOhU]⟩,
  ⟨2228, .freeVocative, [.n .vocative, .n .relativeClauses, .n .cmeneSeq, .n .freeSeq, .n .relativeClauses, .t .DOhU]⟩,
  ⟨2229, .freeVocative, [.n .vocative, .n .relativeClauses, .n .cmeneSeq, .n .freeSeq, .n .relativeClauses, .e .DOhU]⟩,
  ⟨2230, .freeVocative, [.n .vocative, .n .relativeClauses, .n .cmeneSeq, .n .freeSeq, .t .DOhU]⟩]

/-- `rpc2x.y:2231-2333`. -/
def rules18 : List Rule := [
  ⟨2231, .freeVocative, [.n .vocative, .n .relativeClauses, .n .cmeneSeq, .n .freeSeq, .e .DOhU]⟩,
  ⟨2233, .freeVocative, [.n .vocative, .n .cmeneSeq, .n .freeSeq, .n .relativeClauses, .t .DOhU]⟩,
  ⟨2234, .freeVocative, [.n .vocative, .n .cmeneSeq, .n .freeSeq, .n .relativeClauses, .e .DOhU]⟩,
  ⟨2235, .freeVocative, [.n .vocative, .n .cmeneSeq, .n .freeSeq, .t .DOhU]⟩,
  ⟨2236, .freeVocative, [.n .vocative, .n .cmeneSeq, .n .freeSeq, .e .DOhU]⟩,
  ⟨2238, .freeVocative, [.n .vocative, .n .relativeClauses, .n .cmeneSeq, .n .relativeClauses, .t .DOhU]⟩,
  ⟨2239, .freeVocative, [.n .vocative, .n .relativeClauses, .n .cmeneSeq, .n .relativeClauses, .e .DOhU]⟩,
  ⟨2240, .freeVocative, [.n .vocative, .n .relativeClauses, .n .cmeneSeq, .t .DOhU]⟩,
  ⟨2241, .freeVocative, [.n .vocative, .n .relativeClauses, .n .cmeneSeq, .e .DOhU]⟩,
  ⟨2243, .freeVocative, [.n .vocative, .n .cmeneSeq, .n .relativeClauses, .t .DOhU]⟩,
  ⟨2244, .freeVocative, [.n .vocative, .n .cmeneSeq, .n .relativeClauses, .e .DOhU]⟩,
  ⟨2245, .freeVocative, [.n .vocative, .n .cmeneSeq, .t .DOhU]⟩,
  ⟨2246, .freeVocative, [.n .vocative, .n .cmeneSeq, .e .DOhU]⟩,
  ⟨2248, .freeVocative, [.n .vocative, .n .sumti, .t .DOhU]⟩,
  ⟨2249, .freeVocative, [.n .vocative, .n .sumti, .e .DOhU]⟩,
  ⟨2250, .freeVocative, [.n .vocative, .t .DOhU]⟩,
  ⟨2251, .freeVocative, [.n .vocative, .e .DOhU]⟩,
  ⟨2254, .utteranceOrdinal, [.n .number, .t .MAI]⟩,
  ⟨2255, .utteranceOrdinal, [.n .lerfuString, .t .MAI]⟩,
  ⟨2258, .parenthetical, [.t .TO, .n .text, .t .TOI]⟩,
  ⟨2259, .parenthetical, [.t .TO, .n .text, .e .TOI]⟩,
  ⟨2262, .subscript, [.t .XI, .n .freeSeq, .n .number, .t .BOI]⟩,
  ⟨2263, .subscript, [.t .XI, .n .freeSeq, .n .number, .e .BOI]⟩,
  ⟨2264, .subscript, [.t .XI, .n .number, .t .BOI]⟩,
  ⟨2265, .subscript, [.t .XI, .n .number, .e .BOI]⟩,
  ⟨2266, .subscript, [.t .XI, .n .freeSeq, .n .lerfuString, .t .BOI]⟩,
  ⟨2267, .subscript, [.t .XI, .n .freeSeq, .n .lerfuString, .e .BOI]⟩,
  ⟨2268, .subscript, [.t .XI, .n .lerfuString, .t .BOI]⟩,
  ⟨2269, .subscript, [.t .XI, .n .lerfuString, .e .BOI]⟩,
  ⟨2271, .subscript, [.t .XI, .n .freeSeq, .t .VEI, .n .freeSeq, .n .mex, .t .VEhO]⟩,
  ⟨2272, .subscript, [.t .XI, .n .freeSeq, .t .VEI, .n .freeSeq, .n .mex, .e .VEhO]⟩,
  ⟨2273, .subscript, [.t .XI, .n .freeSeq, .t .VEI, .n .mex, .t .VEhO]⟩,
  ⟨2274, .subscript, [.t .XI, .n .freeSeq, .t .VEI, .n .mex, .e .VEhO]⟩,
  ⟨2275, .subscript, [.t .XI, .t .VEI, .n .freeSeq, .n .mex, .t .VEhO]⟩,
  ⟨2276, .subscript, [.t .XI, .t .VEI, .n .freeSeq, .n .mex, .e .VEhO]⟩,
  ⟨2277, .subscript, [.t .XI, .t .VEI, .n .mex, .t .VEhO]⟩,
  ⟨2278, .subscript, [.t .XI, .t .VEI, .n .mex, .e .VEhO]⟩,
  ⟨2288, .vocative, [.n .coiNaiSeq, .t .DOI]⟩,
  ⟨2289, .vocative, [.n .coiNaiSeq]⟩,
  ⟨2290, .vocative, [.t .DOI]⟩,
  ⟨2293, .coiNaiSeq, [.t .COI, .t .NAI]⟩,
  ⟨2294, .coiNaiSeq, [.t .COI]⟩,
  ⟨2295, .coiNaiSeq, [.n .coiNaiSeq, .t .COI, .t .NAI]⟩,
  ⟨2296, .coiNaiSeq, [.n .coiNaiSeq, .t .COI]⟩,
  ⟨2304, .indicators, [.t .FUhE, .n .indicatorSeq]⟩,
  ⟨2305, .indicators, [.n .indicatorSeq]⟩,
  ⟨2308, .indicatorSeq, [.n .indicatorSeq, .n .indicator]⟩,
  ⟨2309, .indicatorSeq, [.n .indicator]⟩,
  ⟨2316, .indicator, [.t .UI, .t .NAI]⟩,
  ⟨2317, .indicator, [.t .UI]⟩,
  ⟨2318, .indicator, [.t .CAI, .t .NAI]⟩,
  ⟨2319, .indicator, [.t .CAI]⟩,
  ⟨2320, .indicator, [.t .Y]⟩,
  ⟨2321, .indicator, [.t .DAhO]⟩,
  ⟨2322, .indicator, [.t .FUhO]⟩,
  ⟨2325, .naiSeq, [.n .naiSeq, .t .NAI]⟩,
  ⟨2326, .naiSeq, [.t .NAI]⟩,
  ⟨2329, .cmeneSeq, [.n .cmeneSeq, .leaf]⟩,
  ⟨2330, .cmeneSeq, [.leaf]⟩,
  ⟨2333, .nihoSeqFreeSeq, [.n .nihoSeq, .n .freeSeq]⟩]

/-- `rpc2x.y:2334-2338`. -/
def rules19 : List Rule := [
  ⟨2334, .nihoSeqFreeSeq, [.n .nihoSeq]⟩,
  ⟨2337, .nihoSeq, [.n .nihoSeq, .t .NIhO]⟩,
  ⟨2338, .nihoSeq, [.t .NIhO]⟩]

/-- All rules (`rpc2x.y:233-2338`). -/
def rules : List Rule :=
  rules0 ++ rules1 ++ rules2 ++ rules3 ++ rules4 ++ rules5 ++ rules6 ++ rules7 ++ rules8 ++ rules9 ++ rules10
  ++ rules11 ++ rules12 ++ rules13 ++ rules14 ++ rules15 ++ rules16 ++ rules17 ++ rules18 ++ rules19

end Jbo.Gram
