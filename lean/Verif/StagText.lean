import Verif.DfaSrc
import Verif.StagSrc
/-!
# The text of `stag_nfa.in`
-/

namespace Jbo.Stag
open Jbo.Dfasyn

/-- Lines 1 to 100 of `stag_nfa.in`. -/
def text0 : List (List Char) := [
  c!"###########################################################",
  c!"# NFA definition for scanning a simple_tense_modal.",
  c!"#",
  c!"#",
  c!"# $Header$",
  c!"#",
  c!"# COPYRIGHT",
  c!"#",
  c!"###########################################################",
  c!"",
  c!"%{",
  c!"#define SUCCESS 1",
  c!"#define FAILURE 0",
  c!"#include \"stag_dfa.h\"",
  c!"%}",
  c!"",
  c!"Tokens BAI BU BY CAhA CUhE FAhA FEhE FOI KI LAU MOhI NAhE NAI PA PU ROI SE TAhE TEI VA VEhA VIhA ZAhO ZEhA ZI",
  c!"",
  c!"PREFIX stag",
  c!"",
  c!"BLOCK time_offset_seq",
  c!"    STATE in",
  c!"        PU ; NAI| ; ZI| -> in, out",
  c!"ENDBLOCK",
  c!"",
  c!"BLOCK zeha_pu_nai",
  c!"    STATE in",
  c!"        ZEhA ; PU ; NAI -> out",
  c!"        ZEhA ; PU       -> out",
  c!"        ZEhA            -> out",
  c!"ENDBLOCK",
  c!"",
  c!"BLOCK number",
  c!"# This block can't be completely accurate; the TEI lerfu_string FOI construction",
  c!"# requires a push-down state machine.  I'm sure that any extra case that this",
  c!"# lexer recognizes will be thrown out by bison later on.",
  c!"    STATE in",
  c!"        PA -> out",
  c!"",
  c!"    STATE out",
  c!"        PA -> out",
  c!"        BY -> out",
  c!"        BU -> out",
  c!"        LAU -> out",
  c!"        FOI -> out",
  c!"        TEI -> out",
  c!"",
  c!"ENDBLOCK",
  c!"",
  c!"BLOCK interval_property",
  c!"    STATE in",
  c!"        TAhE ; NAI| -> out",
  c!"        ZAhO ; NAI| -> out",
  c!"        <number:in->out> ; ROI ; NAI| -> out",
  c!"ENDBLOCK",
  c!"",
  c!"BLOCK interval_property_seq",
  c!"    STATE in",
  c!"        <interval_property:in->out> -> in, out",
  c!"ENDBLOCK",
  c!"",
  c!"BLOCK time",
  c!"    STATE in",
  c!"        ZI| ; <time_offset_seq:in->out>| ; <zeha_pu_nai:in->out>| ; <interval_property_seq:in->out> -> out",
  c!"        ZI| ; <time_offset_seq:in->out>| ; <zeha_pu_nai:in->out>                                    -> out",
  c!"        ZI| ; <time_offset_seq:in->out>                                                             -> out",
  c!"        ZI                                                                                          -> out",
  c!"ENDBLOCK",
  c!"",
  c!"BLOCK space_offset_seq",
  c!"    STATE in",
  c!"        FAhA ; NAI| ; VA| -> in, out",
  c!"ENDBLOCK",
  c!"",
  c!"BLOCK vvfn",
  c!"    STATE in",
  c!"        VEhA ; VIhA ; FAhA ; NAI| -> out",
  c!"        VEhA ; VIhA               -> out",
  c!"        VEhA        ; FAhA ; NAI| -> out",
  c!"        VEhA                      -> out",
  c!"               VIhA ; FAhA ; NAI| -> out",
  c!"               VIhA               -> out",
  c!"ENDBLOCK",
  c!"",
  c!"BLOCK space_int_props",
  c!"    STATE in",
  c!"        FEhE ; <interval_property:in->out> -> in, out",
  c!"ENDBLOCK",
  c!"",
  c!"BLOCK space_interval",
  c!"    STATE in",
  c!"        <vvfn:in->out>| ; <space_int_props:in->out> -> out",
  c!"        <vvfn:in->out>                              -> out",
  c!"ENDBLOCK",
  c!"",
  c!"BLOCK mohi_space_offset",
  c!"    STATE in",
  c!"        MOhI ; FAhA ; NAI| ; VA| -> out",
  c!"ENDBLOCK",
  c!""]

/-- Lines 101 to 133 of `stag_nfa.in`. -/
def text1 : List (List Char) := [
  c!"BLOCK space",
  c!"    STATE in",
  c!"        VA| ; <space_offset_seq:in->out>| ; <space_interval:in->out>| ; <mohi_space_offset:in->out> -> out",
  c!"        VA| ; <space_offset_seq:in->out>| ; <space_interval:in->out>                                -> out",
  c!"        VA| ; <space_offset_seq:in->out>                                                            -> out",
  c!"        VA                                                                                          -> out",
  c!"ENDBLOCK",
  c!"",
  c!"BLOCK tsst",
  c!"    STATE in",
  c!"        NAhE| ; <time:in->out>  ; <space:in->out>| -> out",
  c!"        NAhE| ; <space:in->out> ; <time:in->out> | -> out",
  c!"ENDBLOCK",
  c!"",
  c!"BLOCK simple_tense_modal",
  c!"    STATE in",
  c!"        NAhE| ; SE| ; BAI ; NAI| ; KI|        -> out",
  c!"        NAhE| ; <tsst:in->out>| ; CAhA ; KI|  -> out",
  c!"        NAhE| ; <tsst:in->out>         ; KI|  -> out",
  c!"        KI                                    -> out",
  c!"        CUhE                                  -> out",
  c!"ENDBLOCK",
  c!"",
  c!"BLOCK main",
  c!"    STATE in",
  c!"        <simple_tense_modal:in->out> = SUCCESS",
  c!"ENDBLOCK",
  c!"",
  c!"RESULT SUCCESS",
  c!"DEFRESULT FAILURE",
  c!"TYPE \"int\"",
  c!"",
  c!""]

/-- The whole of `stag_nfa.in`. -/
def text : List Char := (text0 ++ text1).flatMap (· ++ ['\n'])

/-- The declarations in `StagSrc` are those of the file. -/
theorem text_source : DfaSrc.ofText text = some stagSource := by decide +kernel

end Jbo.Stag
