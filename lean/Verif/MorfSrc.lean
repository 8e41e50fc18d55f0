import Verif.Block
/-!
# The automaton of the morphology: `morf_nfa.in`

The file as a tree of declarations, block by block and line by line (`tr` is a line with `->`, `ex` a
line with `=`).  The `%{ ... %}` part, `Prefix` and the `Type` lines only affect the C text of the
output and are left out.
-/

namespace Jbo.Morf
open Jbo.Dfasyn

/-- `SYL1` (`morf_nfa.in:89-99`). -/
def syl1B : BlockDecl := ⟨n!"SYL1", [], [
  st [n!"in"] [
    tr [[n!"CNR"], [n!"V"], [n!"APOS"], [n!"V"]] [[n!"ex_nr"]],
    tr [[n!"CNR"], [n!"V"], [n!"VV"]] [[n!"ex_nr"]],
    tr [[n!"C"], [n!"LCI"], [n!"V"]] [[n!"ex_cln"]],
    tr [[n!"CNR"], [n!"V"], [n!"CNR"]] [[n!"ex_cvc"]],
    tr [[n!"CNR"], [n!"V"], [n!"CNR"], [n!"LCP"]] [[n!"ex_cvy"]],
    tr [[n!"C"], [n!"LCI"], [n!"V"], [n!"CNR"]] [[n!"ex_y"]]]]⟩

/-- `AFTER1` (`morf_nfa.in:102-128`). -/
def after1B : BlockDecl := ⟨n!"AFTER1", [], [
  st [n!"in_nr"] [
    tr [[n!"R"], [n!"CP", n!"CS"]] [[n!"to_lujvo1"], [n!"to_after_nr_hyphen"]],
    tr [[n!"N"], [n!"NR"]] [[n!"to_lujvo1"], [n!"to_after_nr_hyphen"]],
    tr [[n!"CNR"]] [[n!"to_final_ccv"]]],
  st [n!"in_cln"] [tr [[n!"CNR"]] [[n!"to_lujvo0"], [n!"to_pair0"]]],
  st [n!"in_y"] [
    tr [[n!"Y"], [n!"LCP", n!"CN"]] [[n!"to_lujvo0"], [n!"to_pair0"]],
    tr [[n!"Y"], [n!"CP"], [n!"BT"]] [[n!"to_in_after_cc0"]]],
  st [n!"in_cvy"] [
    tr [[n!"Y"], [n!"LCP", n!"CN", n!"HS", n!"H", n!"BT"]] [[n!"to_lujvo1"], [n!"to_pair1"]],
    tr [[n!"Y"], [n!"CP", n!"H"], [n!"BT"]] [[n!"to_in_after_cc1"]]],
  st [n!"in_cvc"] [
    tr [[n!"LCP"]] [[n!"to_lujvo1"], [n!"to_pair1"]],
    tr [[n!"Y"], [n!"CN"]] [[n!"to_lujvo1"], [n!"to_pair1"]],
    tr [[n!"Y"], [n!"LCI"]] [[n!"to_lujvo1t"], [n!"to_pair1t"], [n!"to_tosmabru"]],
    tr [[n!"Y"], [n!"CP"], [n!"BT"]] [[n!"to_in_after_cc1"]]]]⟩

/-- `SYL2` (`morf_nfa.in:131-147`). -/
def syl2B : BlockDecl := ⟨n!"SYL2", [], [
  st [n!"in"] [
    tr [[n!"V"], [n!"VV"]] [[n!"ex_cln"]],
    tr [[n!"V"], [n!"APOS"], [n!"V"]] [[n!"ex_cln"]],
    tr [[n!"LCI"], [n!"V"]] [[n!"ex_cln"]],
    tr [[n!"V"], [n!"CNR"]] [[n!"ex_cvc"]],
    tr [[n!"V"], [n!"CNR"], [n!"LCP"]] [[n!"ex_y"]],
    tr [[n!"LCI"], [n!"V"], [n!"CNR"]] [[n!"ex_y"]]],
  st [n!"in_after_cc"] [
    tr [[n!"V"]] [[n!"ex_cln"]],
    tr [[n!"V"], [n!"CNR"]] [[n!"ex_y"]]]]⟩

/-- `AFTER2` (`morf_nfa.in:150-166`). -/
def after2B : BlockDecl := ⟨n!"AFTER2", [], [
  st [n!"in_cln"] [tr [[n!"CNR"]] [[n!"exit"]]],
  st [n!"in_cvc"] [
    tr [[n!"Y"], [n!"CN"]] [[n!"exit"]],
    tr [[n!"Y"], [n!"CP"], [n!"BT"]] [[n!"exit_after_cc"]],
    tr [[n!"LCP"]] [[n!"exit"]]],
  st [n!"in_y"] [
    tr [[n!"Y"], [n!"LCP", n!"CN", n!"HS", n!"H", n!"BT"]] [[n!"exit"]],
    tr [[n!"Y"], [n!"CP", n!"H"], [n!"BT"]] [[n!"exit_after_cc"]]]]⟩

/-- `SYLN` (`morf_nfa.in:169-192`). -/
def sylnB : BlockDecl := ⟨n!"SYLN", [], [
  st [n!"in_main"] [
    tr [[n!"V"], [n!"APOS"], [n!"V"]] [[n!"exit"]],
    tr [[n!"V"], [n!"VV"]] [[n!"exit"]],
    tr [[n!"LCI"], [n!"V"]] [[n!"exit"]],
    tr [[n!"LCI"], [n!"V"], [n!"CNR"], [n!"V"]] [[n!"exit"]],
    tr [[n!"V"], [n!"CNR"], [n!"LCP"], [n!"V"]] [[n!"exit"]]],
  st [n!"in_after_nr_hyphen"] [
    tr [[n!"V"], [n!"APOS"], [n!"V"]] [[n!"exit"]],
    tr [[n!"V"], [n!"VV"]] [[n!"exit"]],
    tr [[n!"LCI"], [n!"V"], [n!"CNR"], [n!"V"]] [[n!"exit"]],
    tr [[n!"V"], [n!"CNR"], [n!"LCP"], [n!"V"]] [[n!"exit"]]],
  st [n!"in_to_ccv"] [tr [[n!"LCI"], [n!"V"]] [[n!"exit"]]],
  st [n!"in_after_cc"] [
    tr [[n!"V"]] [[n!"exit"]],
    tr [[n!"V"], [n!"CNR"], [n!"V"]] [[n!"exit"]]]]⟩

/-- `SYL2N` (`morf_nfa.in:195-223`). -/
def syl2nB : BlockDecl := ⟨n!"SYL2N", [(n!"s2", n!"SYL2"), (n!"a2", n!"AFTER2"), (n!"sn", n!"SYLN")], [
  st [n!"in"] [tr [[0]] [[n!"s2", n!"in"]]],
  st [n!"in_after_cc"] [tr [[0]] [[n!"s2", n!"in_after_cc"], [n!"sn", n!"in_after_cc"]]],
  st [n!"s2", n!"ex_cln"] [tr [[0]] [[n!"a2", n!"in_cln"]]],
  st [n!"s2", n!"ex_cvc"] [tr [[0]] [[n!"a2", n!"in_cvc"]]],
  st [n!"s2", n!"ex_y"] [tr [[0]] [[n!"a2", n!"in_y"]]],
  st [n!"a2", n!"exit"] [tr [[0]] [[n!"s2", n!"in"], [n!"sn", n!"in_main"]]],
  st [n!"a2", n!"exit_after_cc"] [
    tr [[0]] [[n!"s2", n!"in_after_cc"], [n!"sn", n!"in_after_cc"]]]]⟩

/-- `TOS_SYL1` (`morf_nfa.in:226-233`). -/
def tosSyl1B : BlockDecl := ⟨n!"TOS_SYL1", [], [
  st [n!"in"] [
    tr [[n!"V"]] [[n!"ex_cln"]],
    tr [[n!"V"], [n!"CNR"]] [[n!"ex_y"]]]]⟩

/-- `TOS_AFTER1` (`morf_nfa.in:236-246`). -/
def tosAfter1B : BlockDecl := ⟨n!"TOS_AFTER1", [], [
  st [n!"in_cln"] [tr [[n!"CNR"]] [[n!"exit"]]],
  st [n!"in_y"] [
    tr [[n!"Y"], [n!"LCP", n!"CN"]] [[n!"exit"]],
    tr [[n!"Y"], [n!"CP", n!"CS"], [n!"BT"]] [[n!"exit_to_after_cc"]]]]⟩

/-- `TOSMABRU` (`morf_nfa.in:249-264`). -/
def tosmabruB : BlockDecl := ⟨n!"TOSMABRU", [(n!"s1", n!"TOS_SYL1"), (n!"a1", n!"TOS_AFTER1"), (n!"tail", n!"SYL2N")], [
  st [n!"in"] [tr [[0]] [[n!"s1", n!"in"]]],
  st [n!"s1", n!"ex_cln"] [tr [[0]] [[n!"a1", n!"in_cln"]]],
  st [n!"s1", n!"ex_y"] [tr [[0]] [[n!"a1", n!"in_y"]]],
  st [n!"a1", n!"exit"] [tr [[0]] [[n!"tail", n!"sn", n!"in_main"], [n!"tail", n!"in"]]],
  st [n!"a1", n!"exit_to_after_cc"] [tr [[0]] [[n!"tail", n!"in_after_cc"]]],
  st [n!"tail", n!"sn", n!"exit"] [tr [[0]] [[n!"exit"]]]]⟩

/-- `LUJVO_BODY` (`morf_nfa.in:267-313`). -/
def lujvoBodyB : BlockDecl := ⟨n!"LUJVO_BODY", [(n!"s1", n!"SYL1"), (n!"a1", n!"AFTER1"), (n!"t0", n!"SYL2N"), (n!"t1", n!"SYL2N"), (n!"t1t", n!"SYL2N"), (n!"tos", n!"TOSMABRU")], [
  st [n!"in"] [tr [[0]] [[n!"s1", n!"in"]]],
  st [n!"s1", n!"ex_nr"] [tr [[0]] [[n!"a1", n!"in_nr"]]],
  st [n!"s1", n!"ex_cln"] [tr [[0]] [[n!"a1", n!"in_cln"]]],
  st [n!"s1", n!"ex_y"] [tr [[0]] [[n!"a1", n!"in_y"]]],
  st [n!"s1", n!"ex_cvy"] [tr [[0]] [[n!"a1", n!"in_cvy"]]],
  st [n!"s1", n!"ex_cvc"] [tr [[0]] [[n!"a1", n!"in_cvc"]]],
  st [n!"a1", n!"to_final_ccv"] [tr [[0]] [[n!"t1", n!"sn", n!"in_to_ccv"]]],
  st [n!"a1", n!"to_after_nr_hyphen"] [tr [[0]] [[n!"t1", n!"sn", n!"in_after_nr_hyphen"]]],
  st [n!"a1", n!"to_in_after_cc0"] [tr [[0]] [[n!"t0", n!"in_after_cc"]]],
  st [n!"a1", n!"to_in_after_cc1"] [tr [[0]] [[n!"t1", n!"in_after_cc"]]],
  st [n!"a1", n!"to_pair0"] [tr [[0]] [[n!"t0", n!"sn", n!"in_main"]]],
  st [n!"a1", n!"to_pair1"] [tr [[0]] [[n!"t1", n!"sn", n!"in_main"]]],
  st [n!"a1", n!"to_pair1t"] [tr [[0]] [[n!"t1t", n!"sn", n!"in_main"]]],
  st [n!"a1", n!"to_tosmabru"] [tr [[0]] [[n!"tos", n!"in"]]],
  st [n!"a1", n!"to_lujvo0"] [tr [[0]] [[n!"t0", n!"in"]]],
  st [n!"a1", n!"to_lujvo1"] [tr [[0]] [[n!"t1", n!"in"]]],
  st [n!"a1", n!"to_lujvo1t"] [tr [[0]] [[n!"t1t", n!"in"]]]]⟩

/-- `LUJVO` (`morf_nfa.in:316-336`). -/
def lujvoB : BlockDecl := ⟨n!"LUJVO", [(n!"body", n!"LUJVO_BODY")], [
  st [n!"in"] [tr [[0]] [[n!"body", n!"in"]]],
  st [n!"body", n!"t0", n!"sn", n!"exit"] [ex [[0]] c!"TAG_LUJVO_0"],
  st [n!"body", n!"t1", n!"sn", n!"exit"] [ex [[0]] c!"TAG_LUJVO_1"],
  st [n!"body", n!"t1t", n!"sn", n!"exit"] [ex [[0]] c!"TAG_LUJVO_1T"],
  st [n!"body", n!"tos", n!"exit"] [ex [[0]] c!"TAG_LUJVO_TAIL_OK"]]⟩

/-- `CULTURAL_BRIDGE` (`morf_nfa.in:340-355`). -/
def culturalBridgeB : BlockDecl := ⟨n!"CULTURAL_BRIDGE", [], [
  st [n!"in_before_c"] [tr [[n!"C"]] [[n!"in"]]],
  st [n!"in"] [tr [[n!"LCI"]] [[n!"in_after_cc"]]],
  st [n!"in_after_cc"] [
    tr [[n!"V"], [n!"APOS"], [n!"V"], [n!"CNR"]] [[n!"exit"]],
    tr [[n!"V"], [n!"VV"], [n!"CNR"]] [[n!"exit"]]]]⟩

/-- `CULTURAL_LUJVO` (`morf_nfa.in:360-424`). -/
def culturalLujvoB : BlockDecl := ⟨n!"CULTURAL_LUJVO", [(n!"body", n!"LUJVO_BODY"), (n!"s1", n!"CULTURAL_BRIDGE"), (n!"tos_s1", n!"CULTURAL_BRIDGE"), (n!"t0", n!"CULTURAL_BRIDGE"), (n!"t1", n!"CULTURAL_BRIDGE"), (n!"t1t", n!"CULTURAL_BRIDGE"), (n!"tos", n!"CULTURAL_BRIDGE")], [
  st [n!"in"] [tr [[0]] [[n!"body", n!"in"]]],
  st [n!"body", n!"s1", n!"in"] [tr [[0]] [[n!"s1", n!"in_before_c"]]],
  st [n!"s1", n!"exit"] [tr [[0]] [[n!"body", n!"s1", n!"ex_y"]]],
  st [n!"body", n!"t0", n!"s2", n!"in"] [tr [[0]] [[n!"t0", n!"in"]]],
  st [n!"body", n!"t0", n!"s2", n!"in_after_cc"] [tr [[0]] [[n!"t0", n!"in_after_cc"]]],
  st [n!"t0", n!"exit"] [tr [[0]] [[n!"body", n!"t0", n!"s2", n!"ex_y"]]],
  st [n!"body", n!"t1", n!"s2", n!"in"] [tr [[0]] [[n!"t1", n!"in"]]],
  st [n!"body", n!"t1", n!"s2", n!"in_after_cc"] [tr [[0]] [[n!"t1", n!"in_after_cc"]]],
  st [n!"t1", n!"exit"] [tr [[0]] [[n!"body", n!"t1", n!"s2", n!"ex_y"]]],
  st [n!"body", n!"t1t", n!"s2", n!"in"] [tr [[0]] [[n!"t1t", n!"in"]]],
  st [n!"body", n!"t1t", n!"s2", n!"in_after_cc"] [tr [[0]] [[n!"t1t", n!"in_after_cc"]]],
  st [n!"t1t", n!"exit"] [tr [[0]] [[n!"body", n!"t1t", n!"s2", n!"ex_y"]]],
  st [n!"body", n!"tos", n!"tail", n!"s2", n!"in"] [tr [[0]] [[n!"tos", n!"in"]]],
  st [n!"body", n!"tos", n!"tail", n!"s2", n!"in_after_cc"] [
    tr [[0]] [[n!"tos", n!"in_after_cc"]]],
  st [n!"tos", n!"exit"] [tr [[0]] [[n!"body", n!"tos", n!"tail", n!"s2", n!"ex_y"]]],
  st [n!"body", n!"tos", n!"s1", n!"in"] [tr [[0]] [[n!"tos_s1", n!"in_after_cc"]]],
  st [n!"tos_s1", n!"exit"] [tr [[0]] [[n!"body", n!"tos", n!"s1", n!"ex_y"]]],
  st [n!"body", n!"t0", n!"sn", n!"exit"] [ex [[0]] c!"TAG_CULTURAL_LUJVO_0"],
  st [n!"body", n!"t1", n!"sn", n!"exit"] [ex [[0]] c!"TAG_CULTURAL_LUJVO_1"],
  st [n!"body", n!"t1t", n!"sn", n!"exit"] [ex [[0]] c!"TAG_CULTURAL_LUJVO_1T"],
  st [n!"body", n!"tos", n!"exit"] [ex [[0]] c!"TAG_CULTURAL_LUJVO_TAIL_OK"]]⟩

/-- `LUJVO_NO_Y_BAD_VOWELS` (`morf_nfa.in:432-466`). -/
def lujvoNoYBadVowelsB : BlockDecl := ⟨n!"LUJVO_NO_Y_BAD_VOWELS", [], [
  st [n!"c"] [
    tr [[n!"LCP"], [n!"V"], [n!"FVV"]] [[n!"v"], [n!"exit"]],
    tr [[n!"LCP"], [n!"V"], [n!"APOS"], [n!"V"]] [[n!"v"], [n!"exit"]],
    tr [[n!"LCP"], [n!"V"], [n!"CNR"]] [[n!"c"]],
    tr [[n!"LCP"], [n!"LCI"], [n!"V"]] [[n!"v"], [n!"exit"]]],
  st [n!"v"] [
    tr [[n!"CNR"], [n!"V"], [n!"FVV"]] [[n!"v"], [n!"exit"]],
    tr [[n!"CNR"], [n!"V"], [n!"APOS"], [n!"V"]] [[n!"v"], [n!"exit"]],
    tr [[n!"CNR"], [n!"LCI"], [n!"V"]] [[n!"v"], [n!"exit"]],
    tr [[n!"CNR"], [n!"V"], [n!"CNR"]] [[n!"c"]]],
  st [n!"cvv1"] [
    tr [[n!"R"], [n!"LCP"], [n!"V"], [n!"FVV"]] [[n!"v"], [n!"exit"]],
    tr [[n!"R"], [n!"LCP"], [n!"V"], [n!"APOS"], [n!"V"]] [[n!"v"], [n!"exit"]],
    tr [[n!"R"], [n!"LCP"], [n!"V"], [n!"CNR"]] [[n!"c"]],
    tr [[n!"R"], [n!"LCP"], [n!"LCI"], [n!"V"]] [[n!"v"], [n!"exit"]],
    tr [[n!"N"], [n!"NR"], [n!"V"], [n!"FVV"]] [[n!"v"], [n!"exit"]],
    tr [[n!"N"], [n!"NR"], [n!"V"], [n!"APOS"], [n!"V"]] [[n!"v"], [n!"exit"]],
    tr [[n!"N"], [n!"NR"], [n!"V"], [n!"CNR"]] [[n!"c"]]],
  st [n!"exit"] [ex [[0]] c!"TAG_LUJVO_NO_Y_BAD_VOWELS"],
  st [n!"in"] [
    tr [[n!"CNR"], [n!"V"], [n!"FVV"]] [[n!"cvv1"]],
    tr [[n!"CNR"], [n!"V"], [n!"APOS"], [n!"V"]] [[n!"cvv1"]],
    tr [[n!"CNR"], [n!"LCI"], [n!"V"]] [[n!"v"]],
    tr [[n!"CNR"], [n!"V"], [n!"CNR"]] [[n!"c"]],
    tr [[n!"CNR"], [n!"V"], [n!"FVV"], [n!"CNR"], [n!"LCI"], [n!"V"]] [[n!"exit"]],
    tr [[n!"CNR"], [n!"V"], [n!"APOS"], [n!"V"], [n!"CNR"], [n!"LCI"], [n!"V"]] [[n!"exit"]]]]⟩

/-- `CMAVOSEQ` (`morf_nfa.in:470-522`). -/
def cmavoseqB : BlockDecl := ⟨n!"CMAVOSEQ", [], [
  st [n!"in"] [
    tr [[n!"V"]] [[n!"m2"], [n!"mv"], [n!"in1"]],
    tr [[n!"CNR"]] [[n!"main"], [n!"cy1"]],
    tr [[n!"Y"]] [[n!"y"]]],
  st [n!"in1"] [tr [[n!"VX"]] [[n!"in2"]]],
  st [n!"in2"] [
    tr [[0]] [[n!"exit_prefixable"]],
    tr [[n!"CNR"]] [[n!"main"]]],
  st [n!"main"] [tr [[n!"V"]] [[n!"m2"], [n!"mv"]]],
  st [n!"mv"] [tr [[n!"VV"]] [[n!"m2"], [n!"mv"]]],
  st [n!"m2"] [
    tr [[n!"CNR"]] [[n!"main"], [n!"cy1"]],
    tr [[n!"APOS"]] [[n!"main"]],
    tr [[0]] [[n!"exit_prefixable"]]],
  st [n!"cy1"] [tr [[n!"Y"]] [[n!"cy2"]]],
  st [n!"cy2"] [
    tr [[0]] [[n!"exit_standalone"]],
    tr [[n!"CI", n!"CSI", n!"CP", n!"CS", n!"CN", n!"NR", n!"H", n!"HS", n!"BT"]] [[n!"cy1"]]],
  st [n!"y"] [
    tr [[n!"YY"]] [[n!"yy"]],
    tr [[0]] [[n!"exit_standalone"]],
    tr [[n!"APOS"]] [[n!"ya"]]],
  st [n!"yy"] [
    tr [[n!"YY"]] [[n!"yy"]],
    tr [[0]] [[n!"exit_standalone"]]],
  st [n!"ya"] [tr [[n!"Y"]] [[n!"exit_standalone"]]],
  st [n!"exit_prefixable"] [ex [[0]] c!"TAG_CMAVOS"],
  st [n!"exit_standalone"] [ex [[0]] c!"TAG_CMAVOS_END_CY"]]⟩

/-- `GISMU` (`morf_nfa.in:525-534`). -/
def gismuB : BlockDecl := ⟨n!"GISMU", [], [
  st [n!"in"] [
    ex [[n!"C"], [n!"LCI"], [n!"V"], [n!"CNR"], [n!"V"]] c!"TAG_GISMU_0",
    ex [[n!"CNR"], [n!"V"], [n!"CNR"], [n!"LCP"], [n!"V"]] c!"TAG_GISMU_1"]]⟩

/-- `SLINKUI` (`morf_nfa.in:538-570`). -/
def slinkuiB : BlockDecl := ⟨n!"SLINKUI", [(n!"t0", n!"SYL2N")], [
  st [n!"in_after_c"] [tr [[n!"LCP"]] [[n!"t0", n!"sn", n!"in_main"], [n!"t0", n!"in"]]],
  st [n!"t0", n!"sn", n!"exit"] [ex [[0]] c!"TAG_SLINKUI_0"]]⟩

/-- `FV_VOWELS` (`morf_nfa.in:576-591`). -/
def fvVowelsB : BlockDecl := ⟨n!"FV_VOWELS", [], [
  st [n!"in"] [
    tr [[n!"V"]] [[n!"ex_single"]],
    tr [[n!"V"], [n!"FVV"]] [[n!"ex_single"]],
    tr [[n!"V"], [n!"FVV"], [n!"FVV"]] [[n!"main"]],
    tr [[n!"V"], [n!"APOS"], [n!"V"]] [[n!"main"]],
    tr [[n!"V"], [n!"FVV"], [n!"APOS"], [n!"V"]] [[n!"main"]]],
  st [n!"main"] [
    tr [[n!"APOS"], [n!"V"]] [[n!"main"]],
    tr [[n!"FVV"]] [[n!"main"]],
    tr [[0]] [[n!"ex_multi"]]]]⟩

/-- `FV_INITIAL_CLUSTER` (`morf_nfa.in:594-604`). -/
def fvInitialClusterB : BlockDecl := ⟨n!"FV_INITIAL_CLUSTER", [], [
  st [n!"in"] [
    tr [[n!"C"], [n!"CI"]] [[n!"exit"]],
    tr [[n!"C"], [n!"CSI"]] [[n!"exit"]],
    tr [[n!"C"], [n!"CI"], [n!"CI"]] [[n!"exit"]],
    tr [[n!"C"], [n!"CI"], [n!"CSI"]] [[n!"exit"]],
    tr [[n!"C"], [n!"CI"], [n!"CSI"], [n!"CSI"]] [[n!"exit"]],
    tr [[n!"C"], [n!"CI"], [n!"CI"], [n!"CSI"], [n!"CSI"]] [[n!"exit"]]]]⟩

/-- `FV_INTERNAL_CONS_GROUP` (`morf_nfa.in:608-645`). -/
def fvInternalConsGroupB : BlockDecl := ⟨n!"FV_INTERNAL_CONS_GROUP", [], [
  st [n!"in"] [tr [[n!"FC"]] [[n!"c1"]]],
  st [n!"c1"] [
    tr [[n!"FCS"]] [[n!"cs"]],
    tr [[n!"FCP"]] [[n!"c2"]],
    tr [[0]] [[n!"exit"]]],
  st [n!"c2"] [
    tr [[n!"FCS"]] [[n!"cs"]],
    tr [[n!"FCP"]] [[n!"c3"]],
    tr [[0]] [[n!"exit"]]],
  st [n!"c3"] [
    tr [[n!"FCS"], [n!"FCS"]] [[n!"cs"]],
    tr [[n!"FCS"], [n!"FCP"]] [[n!"c1"]],
    tr [[0]] [[n!"exit"]]],
  st [n!"cs"] [
    tr [[n!"FCS"]] [[n!"cs"]],
    tr [[n!"FCP"]] [[n!"c1"]],
    tr [[0]] [[n!"exit"]]],
  st [n!"in_req_clus"] [
    tr [[n!"FC"], [n!"FCS"]] [[n!"cs"]],
    tr [[n!"FC"], [n!"FCP"]] [[n!"c2"]]],
  st [n!"in_after_c"] [tr [[0]] [[n!"c1"]]],
  st [n!"in_after_s"] [tr [[0]] [[n!"cs"]]]]⟩

/-- `FUIVLA_START_V` (`morf_nfa.in:648-678`). -/
def fuivlaStartVB : BlockDecl := ⟨n!"FUIVLA_START_V", [(n!"cons", n!"FV_INTERNAL_CONS_GROUP"), (n!"later_v", n!"FV_VOWELS")], [
  st [n!"in"] [tr [[n!"V"]] [[n!"v1"]]],
  st [n!"v1"] [
    tr [[n!"FVV"]] [[n!"v2"]],
    tr [[n!"APOS"], [n!"V"]] [[n!"v2"]],
    tr [[0]] [[n!"cons", n!"in_req_clus"]]],
  st [n!"v2"] [
    tr [[n!"FVV"]] [[n!"v3"]],
    tr [[n!"APOS"], [n!"V"]] [[n!"v3"]],
    tr [[0]] [[n!"cons", n!"in_req_clus"]]],
  st [n!"v3"] [tr [[0]] [[n!"cons", n!"in_req_clus"]]],
  st [n!"cons", n!"exit"] [tr [[0]] [[n!"later_v", n!"in"]]],
  st [n!"later_v", n!"ex_single"] [tr [[0]] [[n!"exit"], [n!"cons", n!"in"]]],
  st [n!"later_v", n!"ex_multi"] [tr [[0]] [[n!"exit"], [n!"cons", n!"in"]]]]⟩

/-- `FUIVLA_START_CV` (`morf_nfa.in:684-711`). -/
def fuivlaStartCvB : BlockDecl := ⟨n!"FUIVLA_START_CV", [(n!"cons", n!"FV_INTERNAL_CONS_GROUP"), (n!"later_v", n!"FV_VOWELS")], [
  st [n!"in"] [tr [[n!"FC"]] [[n!"c"]]],
  st [n!"c"] [tr [[n!"V"]] [[n!"v1"]]],
  st [n!"v1"] [
    tr [[n!"FVV"]] [[n!"v2"]],
    tr [[n!"APOS"], [n!"V"]] [[n!"v2"]],
    tr [[0]] [[n!"cons", n!"in_req_clus"]]],
  st [n!"v2"] [tr [[0]] [[n!"cons", n!"in_req_clus"]]],
  st [n!"cons", n!"exit"] [tr [[0]] [[n!"later_v", n!"in"]]],
  st [n!"later_v", n!"ex_single"] [tr [[0]] [[n!"exit"], [n!"cons", n!"in"]]],
  st [n!"later_v", n!"ex_multi"] [tr [[0]] [[n!"exit"], [n!"cons", n!"in"]]]]⟩

/-- `FUIVLA_START_CC` (`morf_nfa.in:714-731`). -/
def fuivlaStartCcB : BlockDecl := ⟨n!"FUIVLA_START_CC", [(n!"init_cc", n!"FV_INITIAL_CLUSTER"), (n!"early_v", n!"FV_VOWELS"), (n!"later_c", n!"FV_INTERNAL_CONS_GROUP"), (n!"later_v", n!"FV_VOWELS")], [
  st [n!"in"] [
    tr [[n!"FC"]] [[n!"goto_slinkui"]],
    tr [[0]] [[n!"init_cc", n!"in"]]],
  st [n!"init_cc", n!"exit"] [tr [[0]] [[n!"early_v", n!"in"]]],
  st [n!"early_v", n!"ex_multi"] [tr [[0]] [[n!"exit"], [n!"later_c", n!"in"]]],
  st [n!"early_v", n!"ex_single"] [tr [[0]] [[n!"later_c", n!"in"]]],
  st [n!"later_c", n!"exit"] [tr [[0]] [[n!"later_v", n!"in"]]],
  st [n!"later_v", n!"ex_multi"] [tr [[0]] [[n!"exit"], [n!"later_c", n!"in"]]],
  st [n!"later_v", n!"ex_single"] [tr [[0]] [[n!"exit"], [n!"later_c", n!"in"]]]]⟩

/-- `STAGE3_TAIL` (`morf_nfa.in:734-756`). -/
def stage3TailB : BlockDecl := ⟨n!"STAGE3_TAIL", [(n!"later_c", n!"FV_INTERNAL_CONS_GROUP"), (n!"later_v", n!"FV_VOWELS")], [
  st [n!"in"] [tr [[0]] [[n!"before_hyph"]]],
  st [n!"before_hyph"] [tr [[n!"CSI", n!"CS", n!"HS", n!"NR"]] [[n!"after_hyph"]]],
  st [n!"after_hyph"] [
    tr [[n!"H"]] [[n!"goto_c"]],
    tr [[n!"HS"]] [[n!"goto_s"]]],
  st [n!"goto_c"] [tr [[0]] [[n!"later_c", n!"in_after_c"]]],
  st [n!"goto_s"] [tr [[0]] [[n!"later_c", n!"in_after_s"]]],
  st [n!"later_c", n!"exit"] [tr [[0]] [[n!"later_v", n!"in"]]],
  st [n!"later_v", n!"ex_multi"] [tr [[0]] [[n!"exit"], [n!"later_c", n!"in"]]],
  st [n!"later_v", n!"ex_single"] [tr [[0]] [[n!"exit"], [n!"later_c", n!"in"]]]]⟩

/-- `STAGE3_SHORT` (`morf_nfa.in:759-771`). -/
def stage3ShortB : BlockDecl := ⟨n!"STAGE3_SHORT", [(n!"tail", n!"STAGE3_TAIL")], [
  st [n!"in"] [tr [[n!"CNR"], [n!"V"], [n!"CNR"]] [[n!"tail", n!"in"]]],
  sta [n!"tail", n!"goto_c"] c!"AT_S3_3" [],
  sta [n!"tail", n!"goto_s"] c!"AT_S3_3" [],
  st [n!"tail", n!"exit"] [tr [[0]] [[n!"exit"]]]]⟩

/-- `STAGE3_LONG` (`morf_nfa.in:774-787`). -/
def stage3LongB : BlockDecl := ⟨n!"STAGE3_LONG", [(n!"tail", n!"STAGE3_TAIL")], [
  st [n!"in"] [
    tr [[n!"C"], [n!"LCI"], [n!"V"], [n!"CNR"]] [[n!"tail", n!"in"]],
    tr [[n!"CNR"], [n!"V"], [n!"CNR"], [n!"LCP"]] [[n!"tail", n!"in"]]],
  sta [n!"tail", n!"goto_c"] c!"AT_S3_4" [],
  sta [n!"tail", n!"goto_s"] c!"AT_S3_4" [],
  st [n!"tail", n!"exit"] [tr [[0]] [[n!"exit"]]]]⟩

/-- `X_STAGE3_CC_HEAD` (`morf_nfa.in:794-797`). -/
def xStage3CcHeadB : BlockDecl := ⟨n!"X_STAGE3_CC_HEAD", [], [
  st [n!"in"] [tr [[n!"CNR"], [n!"LCI"], [n!"V"], [n!"CNR"]] [[n!"exit"]]]]⟩

/-- `X_STAGE3_CV_HEAD` (`morf_nfa.in:800-812`). -/
def xStage3CvHeadB : BlockDecl := ⟨n!"X_STAGE3_CV_HEAD", [], [
  st [n!"in"] [
    tr [[n!"CNR"], [n!"V"], [n!"APOS"], [n!"V"]] [[n!"after_cvv"]],
    tr [[n!"CNR"], [n!"V"], [n!"VV"]] [[n!"after_cvv"]],
    tr [[n!"CNR"], [n!"V"], [n!"CNR"]] [[n!"after_cvc"]]],
  st [n!"after_cvv"] [
    tr [[n!"R"], [n!"CP", n!"CS"]] [[n!"exit"]],
    tr [[n!"N"], [n!"NR"]] [[n!"exit"]]],
  st [n!"after_cvc"] [tr [[n!"CP", n!"CS", n!"NR"]] [[n!"exit"]]]]⟩

/-- `X_STAGE3_OTHER_RAFSI` (`morf_nfa.in:815-825`). -/
def xStage3OtherRafsiB : BlockDecl := ⟨n!"X_STAGE3_OTHER_RAFSI", [], [
  st [n!"in"] [
    tr [[n!"LCI"], [n!"V"], [n!"CNR"]] [[n!"in"]],
    tr [[n!"V"], [n!"VV"], [n!"CNR"]] [[n!"in"]],
    tr [[n!"V"], [n!"CNR"], [n!"LCP"]] [[n!"in"]],
    tr [[n!"V"], [n!"CNR"]] [[n!"exit3"]],
    tr [[n!"LCI"], [n!"V"], [n!"CNR"]] [[n!"exit4"]],
    tr [[n!"V"], [n!"CNR"], [n!"LCP"]] [[n!"exit4"]]]]⟩

/-- `X_STAGE3` (`morf_nfa.in:828-849`). -/
def xStage3B : BlockDecl := ⟨n!"X_STAGE3", [(n!"cc_head", n!"X_STAGE3_CC_HEAD"), (n!"cv_head", n!"X_STAGE3_CV_HEAD"), (n!"other_rafsi", n!"X_STAGE3_OTHER_RAFSI"), (n!"short_tail", n!"STAGE3_TAIL"), (n!"long_tail", n!"STAGE3_TAIL")], [
  st [n!"in"] [tr [[0]] [[n!"cc_head", n!"in"], [n!"cv_head", n!"in"]]],
  st [n!"cc_head", n!"exit"] [tr [[0]] [[n!"other_rafsi", n!"in"]]],
  st [n!"cv_head", n!"exit"] [tr [[0]] [[n!"other_rafsi", n!"in"]]],
  st [n!"other_rafsi", n!"exit3"] [tr [[0]] [[n!"short_tail", n!"in"]]],
  st [n!"other_rafsi", n!"exit4"] [tr [[0]] [[n!"long_tail", n!"in"]]],
  st [n!"short_tail", n!"exit"] [ex [[0]] c!"TAG_X_STAGE3_CVC"],
  st [n!"long_tail", n!"exit"] [ex [[0]] c!"TAG_X_STAGE3_LONG"],
  sta [n!"short_tail", n!"goto_c"] c!"AT_XS3_3" [],
  sta [n!"short_tail", n!"goto_s"] c!"AT_XS3_3" [],
  sta [n!"long_tail", n!"goto_c"] c!"AT_XS3_4" [],
  sta [n!"long_tail", n!"goto_s"] c!"AT_XS3_4" []]⟩

/-- `FUIVLA` (`morf_nfa.in:854-881`). -/
def fuivlaB : BlockDecl := ⟨n!"FUIVLA", [(n!"start_cc", n!"FUIVLA_START_CC"), (n!"start_cv", n!"FUIVLA_START_CV"), (n!"start_v", n!"FUIVLA_START_V"), (n!"slinkui", n!"SLINKUI"), (n!"stage3_short", n!"STAGE3_SHORT"), (n!"stage3_long", n!"STAGE3_LONG"), (n!"xstage3", n!"X_STAGE3")], [
  st [n!"in_no_prefix"] [
    tr [[0]] [[n!"start_cc", n!"in"], [n!"start_cv", n!"in"], [n!"start_v", n!"in"], [n!"stage3_short", n!"in"], [n!"stage3_long", n!"in"], [n!"xstage3", n!"in"]]],
  st [n!"in_prefixed"] [
    tr [[0]] [[n!"start_cc", n!"in"], [n!"start_cv", n!"in"], [n!"stage3_short", n!"in"], [n!"stage3_long", n!"in"], [n!"xstage3", n!"in"]]],
  st [n!"start_cc", n!"goto_slinkui"] [tr [[0]] [[n!"slinkui", n!"in_after_c"]]],
  st [n!"start_cc", n!"exit"] [ex [[0]] c!"TAG_FUIVLA_0"],
  st [n!"start_cv", n!"exit"] [ex [[0]] c!"TAG_FUIVLA_1"],
  st [n!"start_v", n!"exit"] [ex [[0]] c!"TAG_FUIVLA_1"],
  st [n!"stage3_short", n!"exit"] [ex [[0]] c!"TAG_STAGE3_CVC"],
  st [n!"stage3_long", n!"exit"] [ex [[0]] c!"TAG_STAGE3_LONG"]]⟩

/-- `CMENE` (`morf_nfa.in:885-927`). -/
def cmeneB : BlockDecl := ⟨n!"CMENE", [], [
  st [n!"in"] [
    tr [[n!"CNR"]] [[n!"c"]],
    tr [[n!"V"]] [[n!"v"]],
    tr [[n!"Y"], [n!"CNR"]] [[n!"c"]]],
  st [n!"c"] [
    tr [[n!"V"]] [[n!"v"]],
    tr [[n!"Y"]] [[n!"y"]],
    tr [[n!"LCP", n!"HS", n!"H"]] [[n!"c"]],
    tr [[0]] [[n!"exit"]]],
  st [n!"v"] [
    tr [[n!"FVV", n!"VY"]] [[n!"v"]],
    tr [[n!"CNR"]] [[n!"c"]],
    tr [[n!"APOS"]] [[n!"a"]]],
  st [n!"a"] [tr [[n!"V", n!"Y"]] [[n!"v"]]],
  st [n!"y"] [
    tr [[n!"APOS"]] [[n!"a"]],
    tr [[n!"VY"]] [[n!"v"]],
    tr [[n!"YY"]] [[n!"y"]],
    tr [[n!"LCP", n!"HS", n!"H", n!"CN", n!"BT"]] [[n!"c"]],
    tr [[n!"CP"], [n!"BT"]] [[n!"c"]]],
  st [n!"exit"] [ex [[0]] c!"TAG_CMENE"]]⟩

/-- `WORD` (`morf_nfa.in:930-950`). -/
def wordB : BlockDecl := ⟨n!"WORD", [(n!"gismu", n!"GISMU"), (n!"lujvo", n!"LUJVO"), (n!"cultural_lujvo", n!"CULTURAL_LUJVO"), (n!"lujvo_no_y_bad_vowels", n!"LUJVO_NO_Y_BAD_VOWELS"), (n!"cms", n!"CMAVOSEQ"), (n!"cmene", n!"CMENE"), (n!"fuivla", n!"FUIVLA")], [
  st [n!"in"] [
    tr [[0]] [[n!"gismu", n!"in"], [n!"lujvo", n!"in"], [n!"cultural_lujvo", n!"in"], [n!"fuivla", n!"in_no_prefix"], [n!"cms", n!"in"], [n!"cmene", n!"in"], [n!"lujvo_no_y_bad_vowels", n!"in"]]],
  st [n!"cms", n!"exit_prefixable"] [
    tr [[0]] [[n!"gismu", n!"in"], [n!"lujvo", n!"in"], [n!"cultural_lujvo", n!"in"], [n!"fuivla", n!"in_prefixed"], [n!"lujvo_no_y_bad_vowels", n!"in"]]],
  st [n!"in"] []]⟩

/-- Results and symbols (`morf_nfa.in:957-1026`). -/
def morfExit : Evaluator where
  defs := [(c!"ANY_STAGE3", .or (.or (.or (.sym c!"TAG_STAGE3_LONG") (.sym c!"TAG_STAGE3_CVC")) (.sym c!"TAG_X_STAGE3_CVC")) (.sym c!"TAG_X_STAGE3_LONG")),
    (c!"S_FUIVLA_1", .or (.sym c!"S_FUIVLA_1A") (.sym c!"S_FUIVLA_1B")),
    (c!"S_FUIVLA_1B", .and (.and (.not (.sym c!"VLG")) (.not (.sym c!"TAG_FUIVLA_0"))) (.sym c!"TAG_FUIVLA_1")),
    (c!"S_FUIVLA_1A", .and (.and (.and (.not (.sym c!"VLG")) (.sym c!"TAG_FUIVLA_0")) (.sym c!"TAG_SLINKUI_0")) (.sym c!"TAG_FUIVLA_1")),
    (c!"S_FUIVLA_0", .and (.and (.not (.sym c!"VLG")) (.sym c!"TAG_FUIVLA_0")) (.not (.sym c!"TAG_SLINKUI_0"))),
    (c!"VLG", .or (.sym c!"VALID_LUJVO") (.sym c!"VALID_GISMU")),
    (c!"VALID_GISMU", .or (.sym c!"TAG_GISMU_0") (.sym c!"TAG_GISMU_1")),
    (c!"VALID_LUJVO", .or (.or (.sym c!"S_LUJVO_1T") (.sym c!"R_LUJVO_1")) (.sym c!"R_LUJVO_0")),
    (c!"S_CULTURAL_TAIL_OK", .sym c!"TAG_CULTURAL_LUJVO_TAIL_OK"),
    (c!"S_CULTURAL_1T", .and (.sym c!"TAG_CULTURAL_LUJVO_1T") (.not (.sym c!"TAG_LUJVO_1T"))),
    (c!"S_CULTURAL_1", .and (.sym c!"TAG_CULTURAL_LUJVO_1") (.not (.sym c!"TAG_LUJVO_1"))),
    (c!"S_CULTURAL_0", .and (.sym c!"TAG_CULTURAL_LUJVO_0") (.not (.sym c!"TAG_LUJVO_0"))),
    (c!"S_LUJVO_1T", .and (.sym c!"TAG_LUJVO_1T") (.sym c!"TAG_LUJVO_TAIL_OK")),
    (c!"R_LUJVO_1", .and (.sym c!"TAG_LUJVO_1") (.not (.sym c!"TAG_LUJVO_0"))),
    (c!"R_LUJVO_0", .sym c!"TAG_LUJVO_0")]
  results := [⟨c!"R_GISMU_0", .sym c!"TAG_GISMU_0", false⟩,
    ⟨c!"R_GISMU_1", .sym c!"TAG_GISMU_1", false⟩,
    ⟨c!"R_LUJVO_0", .sym c!"TAG_LUJVO_0", false⟩,
    ⟨c!"R_LUJVO_1", .and (.sym c!"TAG_LUJVO_1") (.not (.sym c!"TAG_LUJVO_0")), false⟩,
    ⟨c!"R_BAD_TOSMABRU", .and (.sym c!"TAG_LUJVO_1T") (.not (.sym c!"TAG_LUJVO_TAIL_OK")), false⟩,
    ⟨c!"R_LUJVO_1", .sym c!"S_LUJVO_1T", false⟩,
    ⟨c!"R_CULTURAL_LUJVO_0", .sym c!"S_CULTURAL_0", false⟩,
    ⟨c!"R_CULTURAL_LUJVO_1", .and (.sym c!"S_CULTURAL_1") (.not (.sym c!"S_CULTURAL_0")), false⟩,
    ⟨c!"R_CULTURAL_BAD_TOSMABRU", .and (.sym c!"S_CULTURAL_1T") (.not (.sym c!"S_CULTURAL_TAIL_OK")), false⟩,
    ⟨c!"R_CULTURAL_LUJVO_1", .and (.sym c!"S_CULTURAL_1T") (.sym c!"S_CULTURAL_TAIL_OK"), false⟩,
    ⟨c!"R_BAD_SLINKUI", .and (.and (.and (.not (.sym c!"VLG")) (.sym c!"TAG_FUIVLA_0")) (.sym c!"TAG_SLINKUI_0")) (.not (.sym c!"TAG_FUIVLA_1")), false⟩,
    ⟨c!"R_STAGE3_0", .and (.sym c!"S_FUIVLA_0") (.sym c!"TAG_STAGE3_LONG"), false⟩,
    ⟨c!"R_STAGE3_1", .and (.sym c!"S_FUIVLA_1") (.sym c!"TAG_STAGE3_LONG"), false⟩,
    ⟨c!"R_STAGE3_1_CVC", .and (.and (.sym c!"S_FUIVLA_1") (.sym c!"TAG_STAGE3_CVC")) (.not (.sym c!"TAG_STAGE3_LONG")), false⟩,
    ⟨c!"R_X_STAGE3_0", .and (.sym c!"S_FUIVLA_0") (.sym c!"TAG_X_STAGE3_LONG"), false⟩,
    ⟨c!"R_X_STAGE3_0_CVC", .and (.and (.sym c!"S_FUIVLA_0") (.sym c!"TAG_X_STAGE3_CVC")) (.not (.sym c!"TAG_X_STAGE3_LONG")), false⟩,
    ⟨c!"R_X_STAGE3_1", .and (.sym c!"S_FUIVLA_1") (.sym c!"TAG_X_STAGE3_LONG"), false⟩,
    ⟨c!"R_X_STAGE3_1_CVC", .and (.and (.sym c!"S_FUIVLA_1") (.sym c!"TAG_X_STAGE3_CVC")) (.not (.sym c!"TAG_X_STAGE3_LONG")), false⟩,
    ⟨c!"R_STAGE4_0", .and (.and (.sym c!"S_FUIVLA_0") (.not (.sym c!"ANY_STAGE3"))) (.not (.sym c!"TAG_LUJVO_NO_Y_BAD_VOWELS")), false⟩,
    ⟨c!"R_STAGE4_1", .and (.and (.sym c!"S_FUIVLA_1") (.not (.sym c!"ANY_STAGE3"))) (.not (.sym c!"TAG_LUJVO_NO_Y_BAD_VOWELS")), false⟩,
    ⟨c!"R_CMENE", .sym c!"TAG_CMENE", false⟩,
    ⟨c!"R_CMAVOS", .sym c!"TAG_CMAVOS", false⟩,
    ⟨c!"R_CMAVOS_END_CY", .sym c!"TAG_CMAVOS_END_CY", false⟩]

/-- Attributes (`morf_nfa.in:1035-1041`). -/
def morfAttr : Evaluator where
  defs := []
  results := [⟨c!"AT_S3_3", .sym c!"AT_S3_3", false⟩,
    ⟨c!"AT_S3_4", .sym c!"AT_S3_4", false⟩,
    ⟨c!"AT_XS3_3", .sym c!"AT_XS3_3", false⟩,
    ⟨c!"AT_XS3_4", .sym c!"AT_XS3_4", false⟩]

/-- The whole file `morf_nfa.in`. -/
def morfSource : Source where
  tokens := [n!"UNK", n!"V", n!"APOS", n!"Y", n!"R", n!"N", n!"C", n!"NR", n!"CI", n!"CSI", n!"CP", n!"CS", n!"CN", n!"H", n!"HS", n!"BT", n!"VV", n!"VX", n!"VO", n!"VY", n!"YY"]
  abbrevs := [(n!"CNR", [n!"C", n!"N", n!"R"]),
    (n!"LCI", [n!"CI", n!"CSI"]),
    (n!"LCP", [n!"CI", n!"CSI", n!"CP", n!"CS", n!"NR"]),
    (n!"FVV", [n!"VV", n!"VX", n!"VO"]),
    (n!"FC", [n!"C", n!"N", n!"R"]),
    (n!"FCP", [n!"CI", n!"CP", n!"H"]),
    (n!"FCS", [n!"CSI", n!"CS", n!"HS", n!"NR"])]
  blocks := [syl1B, after1B, syl2B, after2B, sylnB, syl2nB, tosSyl1B, tosAfter1B, tosmabruB, lujvoBodyB, lujvoB, culturalBridgeB, culturalLujvoB, lujvoNoYBadVowelsB, cmavoseqB, gismuB, slinkuiB, fvVowelsB, fvInitialClusterB, fvInternalConsGroupB, fuivlaStartVB, fuivlaStartCvB, fuivlaStartCcB, stage3TailB, stage3ShortB, stage3LongB, xStage3CcHeadB, xStage3CvHeadB, xStage3OtherRafsiB, xStage3B, fuivlaB, cmeneB, wordB]
  exit := morfExit
  attr := morfAttr

end Jbo.Morf
