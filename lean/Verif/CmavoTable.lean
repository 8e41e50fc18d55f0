import Verif.Token
/-!
# The cmavo table

`cmavo_table` of `cmavotab.c` (lines 15-1765), transcribed by a script: one entry per non-empty
cell, in table order.  The remaining cells hold the empty spelling.  Simplified: the
`ssm` and `meaning` columns are not kept.
-/

namespace Jbo

/-- A cell of `cmavo_table` (`cmavotab.h`, `CmavoCell`): its index in the C array, the spelling,
the selma'o and the `CM_*` code (`cmavotab.h`, `enum cmavo_codes`). -/
structure CmavoCell where
  idx : Nat
  word : Word
  sel : Sel
  code : Nat
deriving DecidableEq, Repr

/-- Non-empty cells 14-176 of `cmavo_table` (`cmavotab.c:29-191`). -/
def cmavoCells0 : List CmavoCell := [
  ⟨14, ['a'], .A, 14⟩,
  ⟨17, ['a', 'i'], .UI, 17⟩,
  ⟨19, ['a', 'u'], .UI, 19⟩,
  ⟨22, ['a', '\'', 'a'], .UI, 22⟩,
  ⟨23, ['a', '\'', 'e'], .UI, 23⟩,
  ⟨24, ['a', '\'', 'i'], .UI, 24⟩,
  ⟨25, ['a', '\'', 'o'], .UI, 25⟩,
  ⟨26, ['a', '\'', 'u'], .UI, 26⟩,
  ⟨28, ['e'], .A, 28⟩,
  ⟨31, ['e', 'i'], .UI, 31⟩,
  ⟨36, ['e', '\'', 'a'], .UI, 36⟩,
  ⟨37, ['e', '\'', 'e'], .UI, 37⟩,
  ⟨38, ['e', '\'', 'i'], .UI, 38⟩,
  ⟨39, ['e', '\'', 'o'], .UI, 39⟩,
  ⟨40, ['e', '\'', 'u'], .UI, 40⟩,
  ⟨42, ['i'], .I, 42⟩,
  ⟨43, ['i', 'a'], .UI, 43⟩,
  ⟨44, ['i', 'e'], .UI, 44⟩,
  ⟨45, ['i', 'i'], .UI, 45⟩,
  ⟨46, ['i', 'o'], .UI, 46⟩,
  ⟨47, ['i', 'u'], .UI, 47⟩,
  ⟨50, ['i', '\'', 'a'], .UI, 50⟩,
  ⟨51, ['i', '\'', 'e'], .UI, 51⟩,
  ⟨52, ['i', '\'', 'i'], .UI, 52⟩,
  ⟨53, ['i', '\'', 'o'], .UI, 53⟩,
  ⟨54, ['i', '\'', 'u'], .UI, 54⟩,
  ⟨56, ['o'], .A, 56⟩,
  ⟨59, ['o', 'i'], .UI, 59⟩,
  ⟨64, ['o', '\'', 'a'], .UI, 64⟩,
  ⟨65, ['o', '\'', 'e'], .UI, 65⟩,
  ⟨66, ['o', '\'', 'i'], .UI, 66⟩,
  ⟨67, ['o', '\'', 'o'], .UI, 67⟩,
  ⟨68, ['o', '\'', 'u'], .UI, 68⟩,
  ⟨70, ['u'], .A, 70⟩,
  ⟨71, ['u', 'a'], .UI, 71⟩,
  ⟨72, ['u', 'e'], .UI, 72⟩,
  ⟨73, ['u', 'i'], .UI, 73⟩,
  ⟨74, ['u', 'o'], .UI, 74⟩,
  ⟨75, ['u', 'u'], .UI, 75⟩,
  ⟨78, ['u', '\'', 'a'], .UI, 78⟩,
  ⟨79, ['u', '\'', 'e'], .UI, 79⟩,
  ⟨80, ['u', '\'', 'i'], .UI, 80⟩,
  ⟨81, ['u', '\'', 'o'], .UI, 81⟩,
  ⟨82, ['u', '\'', 'u'], .UI, 82⟩,
  ⟨84, ['y'], .Y, 84⟩,
  ⟨97, ['y', '\'', 'y'], .BY, 97⟩,
  ⟨112, ['b', 'a'], .PU, 112⟩,
  ⟨115, ['b', 'a', 'i'], .BAI, 115⟩,
  ⟨117, ['b', 'a', 'u'], .BAI, 117⟩,
  ⟨120, ['b', 'a', '\'', 'a'], .UI, 120⟩,
  ⟨121, ['b', 'a', '\'', 'e'], .BAhE, 121⟩,
  ⟨122, ['b', 'a', '\'', 'i'], .BAI, 122⟩,
  ⟨123, ['b', 'a', '\'', 'o'], .ZAhO, 123⟩,
  ⟨124, ['b', 'a', '\'', 'u'], .UI, 124⟩,
  ⟨126, ['b', 'e'], .BE, 126⟩,
  ⟨129, ['b', 'e', 'i'], .BEI, 129⟩,
  ⟨134, ['b', 'e', '\'', 'a'], .FAhA, 134⟩,
  ⟨135, ['b', 'e', '\'', 'e'], .COI, 135⟩,
  ⟨136, ['b', 'e', '\'', 'i'], .BAI, 136⟩,
  ⟨137, ['b', 'e', '\'', 'o'], .BEhO, 137⟩,
  ⟨138, ['b', 'e', '\'', 'u'], .UI, 138⟩,
  ⟨140, ['b', 'i'], .PA, 140⟩,
  ⟨149, ['b', 'i', '\'', 'e'], .BIhE, 149⟩,
  ⟨150, ['b', 'i', '\'', 'i'], .BIhI, 150⟩,
  ⟨151, ['b', 'i', '\'', 'o'], .BIhI, 151⟩,
  ⟨152, ['b', 'i', '\'', 'u'], .UI, 152⟩,
  ⟨154, ['b', 'o'], .BO, 154⟩,
  ⟨157, ['b', 'o', 'i'], .BOI, 157⟩,
  ⟨168, ['b', 'u'], .BU, 168⟩,
  ⟨176, ['b', 'u', '\'', 'a'], .GOhA, 176⟩]

/-- Non-empty cells 177-373 of `cmavo_table` (`cmavotab.c:192-388`). -/
def cmavoCells1 : List CmavoCell := [
  ⟨177, ['b', 'u', '\'', 'e'], .GOhA, 177⟩,
  ⟨178, ['b', 'u', '\'', 'i'], .GOhA, 178⟩,
  ⟨179, ['b', 'u', '\'', 'o'], .UI, 179⟩,
  ⟨180, ['b', 'u', '\'', 'u'], .FAhA, 180⟩,
  ⟨182, ['b', 'y'], .BY, 182⟩,
  ⟨210, ['c', 'a'], .PU, 210⟩,
  ⟨213, ['c', 'a', 'i'], .CAI, 213⟩,
  ⟨215, ['c', 'a', 'u'], .BAI, 215⟩,
  ⟨218, ['c', 'a', '\'', 'a'], .CAhA, 218⟩,
  ⟨219, ['c', 'a', '\'', 'e'], .UI, 219⟩,
  ⟨220, ['c', 'a', '\'', 'i'], .BAI, 220⟩,
  ⟨221, ['c', 'a', '\'', 'o'], .ZAhO, 221⟩,
  ⟨222, ['c', 'a', '\'', 'u'], .FAhA, 222⟩,
  ⟨224, ['c', 'e'], .JOI, 224⟩,
  ⟨227, ['c', 'e', 'i'], .CEI, 227⟩,
  ⟨232, ['c', 'e', '\'', 'a'], .LAU, 232⟩,
  ⟨233, ['c', 'e', '\'', 'e'], .CEhE, 233⟩,
  ⟨234, ['c', 'e', '\'', 'i'], .PA, 234⟩,
  ⟨235, ['c', 'e', '\'', 'o'], .JOI, 235⟩,
  ⟨236, ['c', 'e', '\'', 'u'], .KOhA, 236⟩,
  ⟨238, ['c', 'i'], .PA, 238⟩,
  ⟨247, ['c', 'i', '\'', 'e'], .BAI, 247⟩,
  ⟨248, ['c', 'i', '\'', 'i'], .PA, 248⟩,
  ⟨249, ['c', 'i', '\'', 'o'], .BAI, 249⟩,
  ⟨250, ['c', 'i', '\'', 'u'], .BAI, 250⟩,
  ⟨252, ['c', 'o'], .CO, 252⟩,
  ⟨255, ['c', 'o', 'i'], .COI, 255⟩,
  ⟨260, ['c', 'o', '\'', 'a'], .ZAhO, 260⟩,
  ⟨261, ['c', 'o', '\'', 'e'], .GOhA, 261⟩,
  ⟨262, ['c', 'o', '\'', 'i'], .ZAhO, 262⟩,
  ⟨263, ['c', 'o', '\'', 'o'], .COI, 263⟩,
  ⟨264, ['c', 'o', '\'', 'u'], .ZAhO, 264⟩,
  ⟨266, ['c', 'u'], .CU, 266⟩,
  ⟨274, ['c', 'u', '\'', 'a'], .VUhU, 274⟩,
  ⟨275, ['c', 'u', '\'', 'e'], .CUhE, 275⟩,
  ⟨276, ['c', 'u', '\'', 'i'], .CAI, 276⟩,
  ⟨277, ['c', 'u', '\'', 'o'], .MOI, 277⟩,
  ⟨278, ['c', 'u', '\'', 'u'], .BAI, 278⟩,
  ⟨280, ['c', 'y'], .BY, 280⟩,
  ⟨308, ['d', 'a'], .KOhA, 308⟩,
  ⟨311, ['d', 'a', 'i'], .UI, 311⟩,
  ⟨313, ['d', 'a', 'u'], .PA, 313⟩,
  ⟨316, ['d', 'a', '\'', 'a'], .PA, 316⟩,
  ⟨317, ['d', 'a', '\'', 'e'], .KOhA, 317⟩,
  ⟨318, ['d', 'a', '\'', 'i'], .UI, 318⟩,
  ⟨319, ['d', 'a', '\'', 'o'], .DAhO, 319⟩,
  ⟨320, ['d', 'a', '\'', 'u'], .KOhA, 320⟩,
  ⟨322, ['d', 'e'], .KOhA, 322⟩,
  ⟨325, ['d', 'e', 'i'], .KOhA, 325⟩,
  ⟨330, ['d', 'e', '\'', 'a'], .ZAhO, 330⟩,
  ⟨331, ['d', 'e', '\'', 'e'], .KOhA, 331⟩,
  ⟨332, ['d', 'e', '\'', 'i'], .BAI, 332⟩,
  ⟨333, ['d', 'e', '\'', 'o'], .VUhU, 333⟩,
  ⟨334, ['d', 'e', '\'', 'u'], .KOhA, 334⟩,
  ⟨336, ['d', 'i'], .KOhA, 336⟩,
  ⟨344, ['d', 'i', '\'', 'a'], .ZAhO, 344⟩,
  ⟨345, ['d', 'i', '\'', 'e'], .KOhA, 345⟩,
  ⟨346, ['d', 'i', '\'', 'i'], .TAhE, 346⟩,
  ⟨347, ['d', 'i', '\'', 'o'], .BAI, 347⟩,
  ⟨348, ['d', 'i', '\'', 'u'], .KOhA, 348⟩,
  ⟨350, ['d', 'o'], .KOhA, 350⟩,
  ⟨353, ['d', 'o', 'i'], .DOI, 353⟩,
  ⟨358, ['d', 'o', '\'', 'a'], .UI, 358⟩,
  ⟨359, ['d', 'o', '\'', 'e'], .BAI, 359⟩,
  ⟨360, ['d', 'o', '\'', 'i'], .KOhA, 360⟩,
  ⟨361, ['d', 'o', '\'', 'o'], .KOhA, 361⟩,
  ⟨362, ['d', 'o', '\'', 'u'], .DOhU, 362⟩,
  ⟨364, ['d', 'u'], .GOhA, 364⟩,
  ⟨372, ['d', 'u', '\'', 'a'], .FAhA, 372⟩,
  ⟨373, ['d', 'u', '\'', 'e'], .PA, 373⟩]

/-- Non-empty cells 374-569 of `cmavo_table` (`cmavotab.c:389-584`). -/
def cmavoCells2 : List CmavoCell := [
  ⟨374, ['d', 'u', '\'', 'i'], .BAI, 374⟩,
  ⟨375, ['d', 'u', '\'', 'o'], .BAI, 375⟩,
  ⟨376, ['d', 'u', '\'', 'u'], .NU, 376⟩,
  ⟨378, ['d', 'y'], .BY, 378⟩,
  ⟨406, ['f', 'a'], .FA, 406⟩,
  ⟨409, ['f', 'a', 'i'], .FA, 409⟩,
  ⟨411, ['f', 'a', 'u'], .BAI, 411⟩,
  ⟨414, ['f', 'a', '\'', 'a'], .FAhA, 414⟩,
  ⟨415, ['f', 'a', '\'', 'e'], .BAI, 415⟩,
  ⟨416, ['f', 'a', '\'', 'i'], .VUhU, 416⟩,
  ⟨417, ['f', 'a', '\'', 'o'], .FAhO, 417⟩,
  ⟨418, ['f', 'a', '\'', 'u'], .JOI, 418⟩,
  ⟨420, ['f', 'e'], .FA, 420⟩,
  ⟨423, ['f', 'e', 'i'], .PA, 423⟩,
  ⟨428, ['f', 'e', '\'', 'a'], .VUhU, 428⟩,
  ⟨429, ['f', 'e', '\'', 'e'], .FEhE, 429⟩,
  ⟨430, ['f', 'e', '\'', 'i'], .VUhU, 430⟩,
  ⟨431, ['f', 'e', '\'', 'o'], .COI, 431⟩,
  ⟨432, ['f', 'e', '\'', 'u'], .FEhU, 432⟩,
  ⟨434, ['f', 'i'], .FA, 434⟩,
  ⟨442, ['f', 'i', '\'', 'a'], .FA, 442⟩,
  ⟨443, ['f', 'i', '\'', 'e'], .BAI, 443⟩,
  ⟨444, ['f', 'i', '\'', 'i'], .COI, 444⟩,
  ⟨445, ['f', 'i', '\'', 'o'], .FIhO, 445⟩,
  ⟨446, ['f', 'i', '\'', 'u'], .PA, 446⟩,
  ⟨448, ['f', 'o'], .FA, 448⟩,
  ⟨451, ['f', 'o', 'i'], .FOI, 451⟩,
  ⟨456, ['f', 'o', '\'', 'a'], .KOhA, 456⟩,
  ⟨457, ['f', 'o', '\'', 'e'], .KOhA, 457⟩,
  ⟨458, ['f', 'o', '\'', 'i'], .KOhA, 458⟩,
  ⟨459, ['f', 'o', '\'', 'o'], .KOhA, 459⟩,
  ⟨460, ['f', 'o', '\'', 'u'], .KOhA, 460⟩,
  ⟨462, ['f', 'u'], .FA, 462⟩,
  ⟨470, ['f', 'u', '\'', 'a'], .FUhA, 470⟩,
  ⟨471, ['f', 'u', '\'', 'e'], .FUhE, 471⟩,
  ⟨472, ['f', 'u', '\'', 'i'], .UI, 472⟩,
  ⟨473, ['f', 'u', '\'', 'o'], .FUhO, 473⟩,
  ⟨474, ['f', 'u', '\'', 'u'], .VUhU, 474⟩,
  ⟨476, ['f', 'y'], .BY, 476⟩,
  ⟨504, ['g', 'a'], .GA, 504⟩,
  ⟨507, ['g', 'a', 'i'], .PA, 507⟩,
  ⟨509, ['g', 'a', 'u'], .BAI, 509⟩,
  ⟨512, ['g', 'a', '\'', 'a'], .BAI, 512⟩,
  ⟨513, ['g', 'a', '\'', 'e'], .BY, 513⟩,
  ⟨514, ['g', 'a', '\'', 'i'], .UI, 514⟩,
  ⟨515, ['g', 'a', '\'', 'o'], .GAhO, 515⟩,
  ⟨516, ['g', 'a', '\'', 'u'], .FAhA, 516⟩,
  ⟨518, ['g', 'e'], .GA, 518⟩,
  ⟨521, ['g', 'e', 'i'], .VUhU, 521⟩,
  ⟨526, ['g', 'e', '\'', 'a'], .VUhU, 526⟩,
  ⟨527, ['g', 'e', '\'', 'e'], .UI, 527⟩,
  ⟨528, ['g', 'e', '\'', 'i'], .GA, 528⟩,
  ⟨529, ['g', 'e', '\'', 'o'], .BY, 529⟩,
  ⟨530, ['g', 'e', '\'', 'u'], .GEhU, 530⟩,
  ⟨532, ['g', 'i'], .GI, 532⟩,
  ⟨540, ['g', 'i', '\'', 'a'], .GIhA, 540⟩,
  ⟨541, ['g', 'i', '\'', 'e'], .GIhA, 541⟩,
  ⟨542, ['g', 'i', '\'', 'i'], .GIhA, 542⟩,
  ⟨543, ['g', 'i', '\'', 'o'], .GIhA, 543⟩,
  ⟨544, ['g', 'i', '\'', 'u'], .GIhA, 544⟩,
  ⟨546, ['g', 'o'], .GA, 546⟩,
  ⟨549, ['g', 'o', 'i'], .GOI, 549⟩,
  ⟨554, ['g', 'o', '\'', 'a'], .GOhA, 554⟩,
  ⟨555, ['g', 'o', '\'', 'e'], .GOhA, 555⟩,
  ⟨556, ['g', 'o', '\'', 'i'], .GOhA, 556⟩,
  ⟨557, ['g', 'o', '\'', 'o'], .GOhA, 557⟩,
  ⟨558, ['g', 'o', '\'', 'u'], .GOhA, 558⟩,
  ⟨560, ['g', 'u'], .GA, 560⟩,
  ⟨568, ['g', 'u', '\'', 'a'], .GUhA, 568⟩,
  ⟨569, ['g', 'u', '\'', 'e'], .GUhA, 569⟩]

/-- Non-empty cells 570-766 of `cmavo_table` (`cmavotab.c:585-781`). -/
def cmavoCells3 : List CmavoCell := [
  ⟨570, ['g', 'u', '\'', 'i'], .GUhA, 570⟩,
  ⟨571, ['g', 'u', '\'', 'o'], .GUhA, 571⟩,
  ⟨572, ['g', 'u', '\'', 'u'], .GUhA, 572⟩,
  ⟨574, ['g', 'y'], .BY, 574⟩,
  ⟨602, ['j', 'a'], .JA, 602⟩,
  ⟨605, ['j', 'a', 'i'], .JAI, 605⟩,
  ⟨607, ['j', 'a', 'u'], .PA, 607⟩,
  ⟨610, ['j', 'a', '\'', 'a'], .NA, 610⟩,
  ⟨611, ['j', 'a', '\'', 'e'], .BAI, 611⟩,
  ⟨612, ['j', 'a', '\'', 'i'], .BAI, 612⟩,
  ⟨613, ['j', 'a', '\'', 'o'], .UI, 613⟩,
  ⟨616, ['j', 'e'], .JA, 616⟩,
  ⟨619, ['j', 'e', 'i'], .NU, 619⟩,
  ⟨624, ['j', 'e', '\'', 'a'], .NAhE, 624⟩,
  ⟨625, ['j', 'e', '\'', 'e'], .COI, 625⟩,
  ⟨626, ['j', 'e', '\'', 'i'], .JA, 626⟩,
  ⟨627, ['j', 'e', '\'', 'o'], .BY, 627⟩,
  ⟨628, ['j', 'e', '\'', 'u'], .UI, 628⟩,
  ⟨630, ['j', 'i'], .A, 630⟩,
  ⟨638, ['j', 'i', '\'', 'a'], .UI, 638⟩,
  ⟨639, ['j', 'i', '\'', 'e'], .BAI, 639⟩,
  ⟨640, ['j', 'i', '\'', 'i'], .PA, 640⟩,
  ⟨641, ['j', 'i', '\'', 'o'], .BAI, 641⟩,
  ⟨642, ['j', 'i', '\'', 'u'], .BAI, 642⟩,
  ⟨644, ['j', 'o'], .JA, 644⟩,
  ⟨647, ['j', 'o', 'i'], .JOI, 647⟩,
  ⟨652, ['j', 'o', '\'', 'a'], .UI, 652⟩,
  ⟨653, ['j', 'o', '\'', 'e'], .JOI, 653⟩,
  ⟨654, ['j', 'o', '\'', 'i'], .JOhI, 654⟩,
  ⟨655, ['j', 'o', '\'', 'o'], .BY, 655⟩,
  ⟨656, ['j', 'o', '\'', 'u'], .JOI, 656⟩,
  ⟨658, ['j', 'u'], .JA, 658⟩,
  ⟨666, ['j', 'u', '\'', 'a'], .UI, 666⟩,
  ⟨667, ['j', 'u', '\'', 'e'], .JOI, 667⟩,
  ⟨668, ['j', 'u', '\'', 'i'], .COI, 668⟩,
  ⟨669, ['j', 'u', '\'', 'o'], .UI, 669⟩,
  ⟨670, ['j', 'u', '\'', 'u'], .VUhU, 670⟩,
  ⟨672, ['j', 'y'], .BY, 672⟩,
  ⟨700, ['k', 'a'], .NU, 700⟩,
  ⟨703, ['k', 'a', 'i'], .BAI, 703⟩,
  ⟨705, ['k', 'a', 'u'], .UI, 705⟩,
  ⟨708, ['k', 'a', '\'', 'a'], .BAI, 708⟩,
  ⟨709, ['k', 'a', '\'', 'e'], .CAhA, 709⟩,
  ⟨710, ['k', 'a', '\'', 'i'], .BAI, 710⟩,
  ⟨711, ['k', 'a', '\'', 'o'], .PA, 711⟩,
  ⟨712, ['k', 'a', '\'', 'u'], .UI, 712⟩,
  ⟨714, ['k', 'e'], .KE, 714⟩,
  ⟨717, ['k', 'e', 'i'], .KEI, 717⟩,
  ⟨722, ['k', 'e', '\'', 'a'], .KOhA, 722⟩,
  ⟨723, ['k', 'e', '\'', 'e'], .KEhE, 723⟩,
  ⟨724, ['k', 'e', '\'', 'i'], .GAhO, 724⟩,
  ⟨725, ['k', 'e', '\'', 'o'], .COI, 725⟩,
  ⟨726, ['k', 'e', '\'', 'u'], .UI, 726⟩,
  ⟨728, ['k', 'i'], .KI, 728⟩,
  ⟨736, ['k', 'i', '\'', 'a'], .UI, 736⟩,
  ⟨737, ['k', 'i', '\'', 'e'], .COI, 737⟩,
  ⟨738, ['k', 'i', '\'', 'i'], .BAI, 738⟩,
  ⟨739, ['k', 'i', '\'', 'o'], .PA, 739⟩,
  ⟨740, ['k', 'i', '\'', 'u'], .BAI, 740⟩,
  ⟨742, ['k', 'o'], .KOhA, 742⟩,
  ⟨745, ['k', 'o', 'i'], .BAI, 745⟩,
  ⟨750, ['k', 'o', '\'', 'a'], .KOhA, 750⟩,
  ⟨751, ['k', 'o', '\'', 'e'], .KOhA, 751⟩,
  ⟨752, ['k', 'o', '\'', 'i'], .KOhA, 752⟩,
  ⟨753, ['k', 'o', '\'', 'o'], .KOhA, 753⟩,
  ⟨754, ['k', 'o', '\'', 'u'], .KOhA, 754⟩,
  ⟨756, ['k', 'u'], .KU, 756⟩,
  ⟨764, ['k', 'u', '\'', 'a'], .JOI, 764⟩,
  ⟨765, ['k', 'u', '\'', 'e'], .KUhE, 765⟩,
  ⟨766, ['k', 'u', '\'', 'i'], .UI, 766⟩]

/-- Non-empty cells 767-962 of `cmavo_table` (`cmavotab.c:782-977`). -/
def cmavoCells4 : List CmavoCell := [
  ⟨767, ['k', 'u', '\'', 'o'], .KUhO, 767⟩,
  ⟨768, ['k', 'u', '\'', 'u'], .BAI, 768⟩,
  ⟨770, ['k', 'y'], .BY, 770⟩,
  ⟨798, ['l', 'a'], .LA, 798⟩,
  ⟨801, ['l', 'a', 'i'], .LA, 801⟩,
  ⟨803, ['l', 'a', 'u'], .LAU, 803⟩,
  ⟨806, ['l', 'a', '\'', 'a'], .UI, 806⟩,
  ⟨807, ['l', 'a', '\'', 'e'], .LAhE, 807⟩,
  ⟨808, ['l', 'a', '\'', 'i'], .LA, 808⟩,
  ⟨809, ['l', 'a', '\'', 'o'], .ZOI, 809⟩,
  ⟨810, ['l', 'a', '\'', 'u'], .BAI, 810⟩,
  ⟨812, ['l', 'e'], .LE, 812⟩,
  ⟨815, ['l', 'e', 'i'], .LE, 815⟩,
  ⟨820, ['l', 'e', '\'', 'a'], .BAI, 820⟩,
  ⟨821, ['l', 'e', '\'', 'e'], .LE, 821⟩,
  ⟨822, ['l', 'e', '\'', 'i'], .LE, 822⟩,
  ⟨823, ['l', 'e', '\'', 'o'], .UI, 823⟩,
  ⟨824, ['l', 'e', '\'', 'u'], .LEhU, 824⟩,
  ⟨826, ['l', 'i'], .LI, 826⟩,
  ⟨834, ['l', 'i', '\'', 'a'], .UI, 834⟩,
  ⟨835, ['l', 'i', '\'', 'e'], .BAI, 835⟩,
  ⟨836, ['l', 'i', '\'', 'i'], .NU, 836⟩,
  ⟨837, ['l', 'i', '\'', 'o'], .UI, 837⟩,
  ⟨838, ['l', 'i', '\'', 'u'], .LIhU, 838⟩,
  ⟨840, ['l', 'o'], .LE, 840⟩,
  ⟨843, ['l', 'o', 'i'], .LE, 843⟩,
  ⟨848, ['l', 'o', '\'', 'a'], .BY, 848⟩,
  ⟨849, ['l', 'o', '\'', 'e'], .LE, 849⟩,
  ⟨850, ['l', 'o', '\'', 'i'], .LE, 850⟩,
  ⟨851, ['l', 'o', '\'', 'o'], .LOhO, 851⟩,
  ⟨852, ['l', 'o', '\'', 'u'], .LOhU, 852⟩,
  ⟨854, ['l', 'u'], .LU, 854⟩,
  ⟨862, ['l', 'u', '\'', 'a'], .LAhE, 862⟩,
  ⟨863, ['l', 'u', '\'', 'e'], .LAhE, 863⟩,
  ⟨864, ['l', 'u', '\'', 'i'], .LAhE, 864⟩,
  ⟨865, ['l', 'u', '\'', 'o'], .LAhE, 865⟩,
  ⟨866, ['l', 'u', '\'', 'u'], .LUhU, 866⟩,
  ⟨868, ['l', 'y'], .BY, 868⟩,
  ⟨896, ['m', 'a'], .KOhA, 896⟩,
  ⟨899, ['m', 'a', 'i'], .MAI, 899⟩,
  ⟨901, ['m', 'a', 'u'], .BAI, 901⟩,
  ⟨904, ['m', 'a', '\'', 'a'], .KOhA, 904⟩,
  ⟨905, ['m', 'a', '\'', 'e'], .BAI, 905⟩,
  ⟨906, ['m', 'a', '\'', 'i'], .BAI, 906⟩,
  ⟨907, ['m', 'a', '\'', 'o'], .MAhO, 907⟩,
  ⟨908, ['m', 'a', '\'', 'u'], .PA, 908⟩,
  ⟨910, ['m', 'e'], .ME, 910⟩,
  ⟨913, ['m', 'e', 'i'], .MOI, 913⟩,
  ⟨918, ['m', 'e', '\'', 'a'], .BAI, 918⟩,
  ⟨919, ['m', 'e', '\'', 'e'], .BAI, 919⟩,
  ⟨920, ['m', 'e', '\'', 'i'], .PA, 920⟩,
  ⟨921, ['m', 'e', '\'', 'o'], .LI, 921⟩,
  ⟨922, ['m', 'e', '\'', 'u'], .MEhU, 922⟩,
  ⟨924, ['m', 'i'], .KOhA, 924⟩,
  ⟨932, ['m', 'i', '\'', 'a'], .KOhA, 932⟩,
  ⟨933, ['m', 'i', '\'', 'e'], .COI, 933⟩,
  ⟨934, ['m', 'i', '\'', 'i'], .BIhI, 934⟩,
  ⟨935, ['m', 'i', '\'', 'o'], .KOhA, 935⟩,
  ⟨936, ['m', 'i', '\'', 'u'], .UI, 936⟩,
  ⟨938, ['m', 'o'], .GOhA, 938⟩,
  ⟨941, ['m', 'o', 'i'], .MOI, 941⟩,
  ⟨946, ['m', 'o', '\'', 'a'], .PA, 946⟩,
  ⟨947, ['m', 'o', '\'', 'e'], .MOhE, 947⟩,
  ⟨948, ['m', 'o', '\'', 'i'], .MOhI, 948⟩,
  ⟨949, ['m', 'o', '\'', 'o'], .MAI, 949⟩,
  ⟨950, ['m', 'o', '\'', 'u'], .ZAhO, 950⟩,
  ⟨952, ['m', 'u'], .PA, 952⟩,
  ⟨960, ['m', 'u', '\'', 'a'], .UI, 960⟩,
  ⟨961, ['m', 'u', '\'', 'e'], .NU, 961⟩,
  ⟨962, ['m', 'u', '\'', 'i'], .BAI, 962⟩]

/-- Non-empty cells 963-1159 of `cmavo_table` (`cmavotab.c:978-1174`). -/
def cmavoCells5 : List CmavoCell := [
  ⟨963, ['m', 'u', '\'', 'o'], .COI, 963⟩,
  ⟨964, ['m', 'u', '\'', 'u'], .BAI, 964⟩,
  ⟨966, ['m', 'y'], .BY, 966⟩,
  ⟨994, ['n', 'a'], .NA, 994⟩,
  ⟨997, ['n', 'a', 'i'], .NAI, 997⟩,
  ⟨999, ['n', 'a', 'u'], .CUhE, 999⟩,
  ⟨1002, ['n', 'a', '\'', 'a'], .BY, 1002⟩,
  ⟨1003, ['n', 'a', '\'', 'e'], .NAhE, 1003⟩,
  ⟨1004, ['n', 'a', '\'', 'i'], .UI, 1004⟩,
  ⟨1005, ['n', 'a', '\'', 'o'], .TAhE, 1005⟩,
  ⟨1006, ['n', 'a', '\'', 'u'], .NAhU, 1006⟩,
  ⟨1008, ['n', 'e'], .GOI, 1008⟩,
  ⟨1011, ['n', 'e', 'i'], .GOhA, 1011⟩,
  ⟨1016, ['n', 'e', '\'', 'a'], .FAhA, 1016⟩,
  ⟨1018, ['n', 'e', '\'', 'i'], .FAhA, 1018⟩,
  ⟨1019, ['n', 'e', '\'', 'o'], .VUhU, 1019⟩,
  ⟨1020, ['n', 'e', '\'', 'u'], .FAhA, 1020⟩,
  ⟨1022, ['n', 'i'], .NU, 1022⟩,
  ⟨1030, ['n', 'i', '\'', 'a'], .FAhA, 1030⟩,
  ⟨1031, ['n', 'i', '\'', 'e'], .NIhE, 1031⟩,
  ⟨1032, ['n', 'i', '\'', 'i'], .BAI, 1032⟩,
  ⟨1033, ['n', 'i', '\'', 'o'], .NIhO, 1033⟩,
  ⟨1034, ['n', 'i', '\'', 'u'], .PA, 1034⟩,
  ⟨1036, ['n', 'o'], .PA, 1036⟩,
  ⟨1039, ['n', 'o', 'i'], .NOI, 1039⟩,
  ⟨1044, ['n', 'o', '\'', 'a'], .GOhA, 1044⟩,
  ⟨1045, ['n', 'o', '\'', 'e'], .NAhE, 1045⟩,
  ⟨1046, ['n', 'o', '\'', 'i'], .NIhO, 1046⟩,
  ⟨1047, ['n', 'o', '\'', 'o'], .PA, 1047⟩,
  ⟨1048, ['n', 'o', '\'', 'u'], .GOI, 1048⟩,
  ⟨1050, ['n', 'u'], .NU, 1050⟩,
  ⟨1058, ['n', 'u', '\'', 'a'], .NUhA, 1058⟩,
  ⟨1059, ['n', 'u', '\'', 'e'], .COI, 1059⟩,
  ⟨1060, ['n', 'u', '\'', 'i'], .NUhI, 1060⟩,
  ⟨1061, ['n', 'u', '\'', 'o'], .CAhA, 1061⟩,
  ⟨1062, ['n', 'u', '\'', 'u'], .NUhU, 1062⟩,
  ⟨1064, ['n', 'y'], .BY, 1064⟩,
  ⟨1092, ['p', 'a'], .PA, 1092⟩,
  ⟨1095, ['p', 'a', 'i'], .PA, 1095⟩,
  ⟨1097, ['p', 'a', 'u'], .UI, 1097⟩,
  ⟨1100, ['p', 'a', '\'', 'a'], .BAI, 1100⟩,
  ⟨1101, ['p', 'a', '\'', 'e'], .UI, 1101⟩,
  ⟨1102, ['p', 'a', '\'', 'i'], .VUhU, 1102⟩,
  ⟨1103, ['p', 'a', '\'', 'o'], .FAhA, 1103⟩,
  ⟨1104, ['p', 'a', '\'', 'u'], .BAI, 1104⟩,
  ⟨1106, ['p', 'e'], .GOI, 1106⟩,
  ⟨1109, ['p', 'e', 'i'], .CAI, 1109⟩,
  ⟨1114, ['p', 'e', '\'', 'a'], .UI, 1114⟩,
  ⟨1115, ['p', 'e', '\'', 'e'], .PEhE, 1115⟩,
  ⟨1116, ['p', 'e', '\'', 'i'], .UI, 1116⟩,
  ⟨1117, ['p', 'e', '\'', 'o'], .PEhO, 1117⟩,
  ⟨1118, ['p', 'e', '\'', 'u'], .COI, 1118⟩,
  ⟨1120, ['p', 'i'], .PA, 1120⟩,
  ⟨1128, ['p', 'i', '\'', 'a'], .VUhU, 1128⟩,
  ⟨1129, ['p', 'i', '\'', 'e'], .PA, 1129⟩,
  ⟨1130, ['p', 'i', '\'', 'i'], .VUhU, 1130⟩,
  ⟨1131, ['p', 'i', '\'', 'o'], .BAI, 1131⟩,
  ⟨1132, ['p', 'i', '\'', 'u'], .JOI, 1132⟩,
  ⟨1134, ['p', 'o'], .GOI, 1134⟩,
  ⟨1137, ['p', 'o', 'i'], .NOI, 1137⟩,
  ⟨1142, ['p', 'o', '\'', 'a'], .UI, 1142⟩,
  ⟨1143, ['p', 'o', '\'', 'e'], .GOI, 1143⟩,
  ⟨1144, ['p', 'o', '\'', 'i'], .BAI, 1144⟩,
  ⟨1145, ['p', 'o', '\'', 'o'], .UI, 1145⟩,
  ⟨1146, ['p', 'o', '\'', 'u'], .GOI, 1146⟩,
  ⟨1148, ['p', 'u'], .PU, 1148⟩,
  ⟨1156, ['p', 'u', '\'', 'a'], .BAI, 1156⟩,
  ⟨1157, ['p', 'u', '\'', 'e'], .BAI, 1157⟩,
  ⟨1158, ['p', 'u', '\'', 'i'], .CAhA, 1158⟩,
  ⟨1159, ['p', 'u', '\'', 'o'], .ZAhO, 1159⟩]

/-- Non-empty cells 1160-1355 of `cmavo_table` (`cmavotab.c:1175-1370`). -/
def cmavoCells6 : List CmavoCell := [
  ⟨1160, ['p', 'u', '\'', 'u'], .NU, 1160⟩,
  ⟨1162, ['p', 'y'], .BY, 1162⟩,
  ⟨1190, ['r', 'a'], .KOhA, 1190⟩,
  ⟨1193, ['r', 'a', 'i'], .BAI, 1193⟩,
  ⟨1195, ['r', 'a', 'u'], .PA, 1195⟩,
  ⟨1198, ['r', 'a', '\'', 'a'], .BAI, 1198⟩,
  ⟨1199, ['r', 'a', '\'', 'e'], .PA, 1199⟩,
  ⟨1200, ['r', 'a', '\'', 'i'], .BAI, 1200⟩,
  ⟨1201, ['r', 'a', '\'', 'o'], .RAhO, 1201⟩,
  ⟨1202, ['r', 'a', '\'', 'u'], .UI, 1202⟩,
  ⟨1204, ['r', 'e'], .PA, 1204⟩,
  ⟨1207, ['r', 'e', 'i'], .PA, 1207⟩,
  ⟨1212, ['r', 'e', '\'', 'a'], .VUhU, 1212⟩,
  ⟨1213, ['r', 'e', '\'', 'e'], .UI, 1213⟩,
  ⟨1214, ['r', 'e', '\'', 'i'], .COI, 1214⟩,
  ⟨1215, ['r', 'e', '\'', 'o'], .FAhA, 1215⟩,
  ⟨1216, ['r', 'e', '\'', 'u'], .ROI, 1216⟩,
  ⟨1218, ['r', 'i'], .KOhA, 1218⟩,
  ⟨1226, ['r', 'i', '\'', 'a'], .BAI, 1226⟩,
  ⟨1227, ['r', 'i', '\'', 'e'], .UI, 1227⟩,
  ⟨1228, ['r', 'i', '\'', 'i'], .BAI, 1228⟩,
  ⟨1229, ['r', 'i', '\'', 'o'], .VUhU, 1229⟩,
  ⟨1230, ['r', 'i', '\'', 'u'], .FAhA, 1230⟩,
  ⟨1232, ['r', 'o'], .PA, 1232⟩,
  ⟨1235, ['r', 'o', 'i'], .ROI, 1235⟩,
  ⟨1240, ['r', 'o', '\'', 'a'], .UI, 1240⟩,
  ⟨1241, ['r', 'o', '\'', 'e'], .UI, 1241⟩,
  ⟨1242, ['r', 'o', '\'', 'i'], .UI, 1242⟩,
  ⟨1243, ['r', 'o', '\'', 'o'], .UI, 1243⟩,
  ⟨1244, ['r', 'o', '\'', 'u'], .UI, 1244⟩,
  ⟨1246, ['r', 'u'], .KOhA, 1246⟩,
  ⟨1254, ['r', 'u', '\'', 'a'], .UI, 1254⟩,
  ⟨1255, ['r', 'u', '\'', 'e'], .CAI, 1255⟩,
  ⟨1256, ['r', 'u', '\'', 'i'], .TAhE, 1256⟩,
  ⟨1257, ['r', 'u', '\'', 'o'], .BY, 1257⟩,
  ⟨1258, ['r', 'u', '\'', 'u'], .FAhA, 1258⟩,
  ⟨1260, ['r', 'y'], .BY, 1260⟩,
  ⟨1288, ['s', 'a'], .SA, 1288⟩,
  ⟨1291, ['s', 'a', 'i'], .CAI, 1291⟩,
  ⟨1293, ['s', 'a', 'u'], .BAI, 1293⟩,
  ⟨1296, ['s', 'a', '\'', 'a'], .UI, 1296⟩,
  ⟨1297, ['s', 'a', '\'', 'e'], .UI, 1297⟩,
  ⟨1298, ['s', 'a', '\'', 'i'], .VUhU, 1298⟩,
  ⟨1299, ['s', 'a', '\'', 'o'], .VUhU, 1299⟩,
  ⟨1300, ['s', 'a', '\'', 'u'], .UI, 1300⟩,
  ⟨1302, ['s', 'e'], .SE, 1302⟩,
  ⟨1305, ['s', 'e', 'i'], .SEI, 1305⟩,
  ⟨1310, ['s', 'e', '\'', 'a'], .UI, 1310⟩,
  ⟨1311, ['s', 'e', '\'', 'e'], .BY, 1311⟩,
  ⟨1312, ['s', 'e', '\'', 'i'], .UI, 1312⟩,
  ⟨1313, ['s', 'e', '\'', 'o'], .UI, 1313⟩,
  ⟨1314, ['s', 'e', '\'', 'u'], .SEhU, 1314⟩,
  ⟨1316, ['s', 'i'], .SI, 1316⟩,
  ⟨1324, ['s', 'i', '\'', 'a'], .UI, 1324⟩,
  ⟨1325, ['s', 'i', '\'', 'e'], .MOI, 1325⟩,
  ⟨1326, ['s', 'i', '\'', 'i'], .VUhU, 1326⟩,
  ⟨1327, ['s', 'i', '\'', 'o'], .NU, 1327⟩,
  ⟨1328, ['s', 'i', '\'', 'u'], .BAI, 1328⟩,
  ⟨1330, ['s', 'o'], .PA, 1330⟩,
  ⟨1333, ['s', 'o', 'i'], .SOI, 1333⟩,
  ⟨1338, ['s', 'o', '\'', 'a'], .PA, 1338⟩,
  ⟨1339, ['s', 'o', '\'', 'e'], .PA, 1339⟩,
  ⟨1340, ['s', 'o', '\'', 'i'], .PA, 1340⟩,
  ⟨1341, ['s', 'o', '\'', 'o'], .PA, 1341⟩,
  ⟨1342, ['s', 'o', '\'', 'u'], .PA, 1342⟩,
  ⟨1344, ['s', 'u'], .SU, 1344⟩,
  ⟨1352, ['s', 'u', '\'', 'a'], .UI, 1352⟩,
  ⟨1353, ['s', 'u', '\'', 'e'], .PA, 1353⟩,
  ⟨1354, ['s', 'u', '\'', 'i'], .VUhU, 1354⟩,
  ⟨1355, ['s', 'u', '\'', 'o'], .PA, 1355⟩]

/-- Non-empty cells 1356-1552 of `cmavo_table` (`cmavotab.c:1371-1567`). -/
def cmavoCells7 : List CmavoCell := [
  ⟨1356, ['s', 'u', '\'', 'u'], .NU, 1356⟩,
  ⟨1358, ['s', 'y'], .BY, 1358⟩,
  ⟨1386, ['t', 'a'], .KOhA, 1386⟩,
  ⟨1389, ['t', 'a', 'i'], .BAI, 1389⟩,
  ⟨1391, ['t', 'a', 'u'], .LAU, 1391⟩,
  ⟨1394, ['t', 'a', '\'', 'a'], .COI, 1394⟩,
  ⟨1395, ['t', 'a', '\'', 'e'], .TAhE, 1395⟩,
  ⟨1396, ['t', 'a', '\'', 'i'], .BAI, 1396⟩,
  ⟨1397, ['t', 'a', '\'', 'o'], .UI, 1397⟩,
  ⟨1398, ['t', 'a', '\'', 'u'], .UI, 1398⟩,
  ⟨1400, ['t', 'e'], .SE, 1400⟩,
  ⟨1403, ['t', 'e', 'i'], .TEI, 1403⟩,
  ⟨1408, ['t', 'e', '\'', 'a'], .VUhU, 1408⟩,
  ⟨1409, ['t', 'e', '\'', 'e'], .FAhA, 1409⟩,
  ⟨1411, ['t', 'e', '\'', 'o'], .PA, 1411⟩,
  ⟨1412, ['t', 'e', '\'', 'u'], .TEhU, 1412⟩,
  ⟨1414, ['t', 'i'], .KOhA, 1414⟩,
  ⟨1422, ['t', 'i', '\'', 'a'], .FAhA, 1422⟩,
  ⟨1423, ['t', 'i', '\'', 'e'], .UI, 1423⟩,
  ⟨1424, ['t', 'i', '\'', 'i'], .BAI, 1424⟩,
  ⟨1425, ['t', 'i', '\'', 'o'], .SEI, 1425⟩,
  ⟨1426, ['t', 'i', '\'', 'u'], .BAI, 1426⟩,
  ⟨1428, ['t', 'o'], .TO, 1428⟩,
  ⟨1431, ['t', 'o', 'i'], .TOI, 1431⟩,
  ⟨1436, ['t', 'o', '\'', 'a'], .BY, 1436⟩,
  ⟨1437, ['t', 'o', '\'', 'e'], .NAhE, 1437⟩,
  ⟨1438, ['t', 'o', '\'', 'i'], .TO, 1438⟩,
  ⟨1439, ['t', 'o', '\'', 'o'], .FAhA, 1439⟩,
  ⟨1440, ['t', 'o', '\'', 'u'], .UI, 1440⟩,
  ⟨1442, ['t', 'u'], .KOhA, 1442⟩,
  ⟨1450, ['t', 'u', '\'', 'a'], .LAhE, 1450⟩,
  ⟨1451, ['t', 'u', '\'', 'e'], .TUhE, 1451⟩,
  ⟨1452, ['t', 'u', '\'', 'i'], .BAI, 1452⟩,
  ⟨1453, ['t', 'u', '\'', 'o'], .PA, 1453⟩,
  ⟨1454, ['t', 'u', '\'', 'u'], .TUhU, 1454⟩,
  ⟨1456, ['t', 'y'], .BY, 1456⟩,
  ⟨1484, ['v', 'a'], .VA, 1484⟩,
  ⟨1487, ['v', 'a', 'i'], .PA, 1487⟩,
  ⟨1489, ['v', 'a', 'u'], .VAU, 1489⟩,
  ⟨1492, ['v', 'a', '\'', 'a'], .VUhU, 1492⟩,
  ⟨1493, ['v', 'a', '\'', 'e'], .MOI, 941⟩,
  ⟨1494, ['v', 'a', '\'', 'i'], .UI, 1494⟩,
  ⟨1495, ['v', 'a', '\'', 'o'], .BAI, 1495⟩,
  ⟨1496, ['v', 'a', '\'', 'u'], .BAI, 1496⟩,
  ⟨1498, ['v', 'e'], .SE, 1498⟩,
  ⟨1501, ['v', 'e', 'i'], .VEI, 1501⟩,
  ⟨1506, ['v', 'e', '\'', 'a'], .VEhA, 1506⟩,
  ⟨1507, ['v', 'e', '\'', 'e'], .VEhA, 1507⟩,
  ⟨1508, ['v', 'e', '\'', 'i'], .VEhA, 1508⟩,
  ⟨1509, ['v', 'e', '\'', 'o'], .VEhO, 1509⟩,
  ⟨1510, ['v', 'e', '\'', 'u'], .VEhA, 1510⟩,
  ⟨1512, ['v', 'i'], .VA, 1512⟩,
  ⟨1520, ['v', 'i', '\'', 'a'], .VIhA, 1520⟩,
  ⟨1521, ['v', 'i', '\'', 'e'], .VIhA, 1521⟩,
  ⟨1522, ['v', 'i', '\'', 'i'], .VIhA, 1522⟩,
  ⟨1523, ['v', 'i', '\'', 'o'], .COI, 1523⟩,
  ⟨1524, ['v', 'i', '\'', 'u'], .VIhA, 1524⟩,
  ⟨1526, ['v', 'o'], .PA, 1526⟩,
  ⟨1529, ['v', 'o', 'i'], .NOI, 1529⟩,
  ⟨1534, ['v', 'o', '\'', 'a'], .KOhA, 1534⟩,
  ⟨1535, ['v', 'o', '\'', 'e'], .KOhA, 1535⟩,
  ⟨1536, ['v', 'o', '\'', 'i'], .KOhA, 1536⟩,
  ⟨1537, ['v', 'o', '\'', 'o'], .KOhA, 1537⟩,
  ⟨1538, ['v', 'o', '\'', 'u'], .KOhA, 1538⟩,
  ⟨1540, ['v', 'u'], .VA, 1540⟩,
  ⟨1548, ['v', 'u', '\'', 'a'], .FAhA, 1548⟩,
  ⟨1549, ['v', 'u', '\'', 'e'], .UI, 1549⟩,
  ⟨1550, ['v', 'u', '\'', 'i'], .LAhE, 1550⟩,
  ⟨1551, ['v', 'u', '\'', 'o'], .VUhO, 1551⟩,
  ⟨1552, ['v', 'u', '\'', 'u'], .VUhU, 1552⟩]

/-- Non-empty cells 1554-1750 of `cmavo_table` (`cmavotab.c:1569-1765`). -/
def cmavoCells8 : List CmavoCell := [
  ⟨1554, ['v', 'y'], .BY, 1554⟩,
  ⟨1582, ['x', 'a'], .PA, 1582⟩,
  ⟨1593, ['x', 'a', '\'', 'o'], .ZAhO, 1593⟩,
  ⟨1596, ['x', 'e'], .SE, 1596⟩,
  ⟨1610, ['x', 'i'], .XI, 1610⟩,
  ⟨1624, ['x', 'o'], .PA, 1624⟩,
  ⟨1638, ['x', 'u'], .UI, 1638⟩,
  ⟨1652, ['x', 'y'], .BY, 1652⟩,
  ⟨1680, ['z', 'a'], .ZI, 1680⟩,
  ⟨1683, ['z', 'a', 'i'], .LAU, 1683⟩,
  ⟨1685, ['z', 'a', 'u'], .BAI, 1685⟩,
  ⟨1688, ['z', 'a', '\'', 'a'], .UI, 1688⟩,
  ⟨1689, ['z', 'a', '\'', 'e'], .BAhE, 1689⟩,
  ⟨1690, ['z', 'a', '\'', 'i'], .NU, 1690⟩,
  ⟨1691, ['z', 'a', '\'', 'o'], .ZAhO, 1691⟩,
  ⟨1692, ['z', 'a', '\'', 'u'], .PA, 1692⟩,
  ⟨1694, ['z', 'e'], .PA, 1694⟩,
  ⟨1697, ['z', 'e', 'i'], .ZEI, 1697⟩,
  ⟨1702, ['z', 'e', '\'', 'a'], .ZEhA, 1702⟩,
  ⟨1703, ['z', 'e', '\'', 'e'], .ZEhA, 1703⟩,
  ⟨1704, ['z', 'e', '\'', 'i'], .ZEhA, 1704⟩,
  ⟨1705, ['z', 'e', '\'', 'o'], .FAhA, 1705⟩,
  ⟨1706, ['z', 'e', '\'', 'u'], .ZEhA, 1706⟩,
  ⟨1708, ['z', 'i'], .ZI, 1708⟩,
  ⟨1717, ['z', 'i', '\'', 'e'], .ZIhE, 1717⟩,
  ⟨1719, ['z', 'i', '\'', 'o'], .KOhA, 1719⟩,
  ⟨1722, ['z', 'o'], .ZO, 1722⟩,
  ⟨1725, ['z', 'o', 'i'], .ZOI, 1725⟩,
  ⟨1730, ['z', 'o', '\'', 'a'], .FAhA, 1730⟩,
  ⟨1731, ['z', 'o', '\'', 'e'], .KOhA, 1731⟩,
  ⟨1732, ['z', 'o', '\'', 'i'], .FAhA, 1732⟩,
  ⟨1733, ['z', 'o', '\'', 'o'], .UI, 1733⟩,
  ⟨1734, ['z', 'o', '\'', 'u'], .ZOhU, 1734⟩,
  ⟨1736, ['z', 'u'], .ZI, 1736⟩,
  ⟨1744, ['z', 'u', '\'', 'a'], .FAhA, 1744⟩,
  ⟨1745, ['z', 'u', '\'', 'e'], .BAI, 1745⟩,
  ⟨1746, ['z', 'u', '\'', 'i'], .KOhA, 1746⟩,
  ⟨1747, ['z', 'u', '\'', 'o'], .NU, 1747⟩,
  ⟨1748, ['z', 'u', '\'', 'u'], .UI, 1748⟩,
  ⟨1750, ['z', 'y'], .BY, 1750⟩]

/-- The non-empty cells of `cmavo_table` (`cmavotab.c:15-1765`) in order. -/
def cmavoCells : List CmavoCell :=
  cmavoCells0 ++ cmavoCells1 ++ cmavoCells2 ++ cmavoCells3 ++
  cmavoCells4 ++ cmavoCells5 ++ cmavoCells6 ++ cmavoCells7 ++
  cmavoCells8

end Jbo
