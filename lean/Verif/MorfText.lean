import Verif.DfaSrc
import Verif.MorfSrc
/-!
# The text of `morf_nfa.in`
-/

namespace Jbo.Morf
open Jbo.Dfasyn

/-- Lines 1 to 100 of `morf_nfa.in`. -/
def text0 : List (List Char) := [
  c!"###########################################################",
  c!"# NFA definition file for matching Lojban morphology",
  c!"#",
  c!"# (process with nfa2dfa.pl to produce the DFA state/transition",
  c!"# and accept tables for use with a suitable parsing fn.)",
  c!"# This generates a scanner with the following functions",
  c!"# - recognizes type of word",
  c!"# - for gismu/lujvo/fu'ivla, provides enough info to work out where word",
  c!"#   starts, i.e. how many cmavo are prefixed.  (Equivalently, works out whether",
  c!"#   the consonant cluster or the preceding single consonant is that start of",
  c!"#   the word.)",
  c!"# - rigorously checks the word form for errors (bad clusters, y where not",
  c!"#   required, bad hyphenation after initial CVV rafsi, bad vowel pairing etc)",
  c!"#",
  c!"# $Header$",
  c!"#",
  c!"# COPYRIGHT",
  c!"#",
  c!"###########################################################",
  c!"# Stuff to pass through verbatim to C output file",
  c!"%{",
  c!"#include \"morf_dfa.h\"",
  c!"%}",
  c!"###########################################################",
  c!"",
  c!"# Declare all symbols in same order as lexer (lexer returns (0 .. whatever)",
  c!"# when it recognizes the corresponding token)",
  c!"",
  c!"Tokens UNK V APOS Y R N C NR CI CSI CP CS CN H HS BT VV VX VO VY YY",
  c!"",
  c!"# Token meanings are as follows",
  c!"# UNK   : Unknown character",
  c!"# V     : vowel [aeiou]",
  c!"# APOS  : '",
  c!"# Y     : y",
  c!"# R     : r following vowel",
  c!"# N     : n following vowel",
  c!"# C     : consonant other than r or n after vowel",
  c!"# NR    : r in the pair nr (or triple nyr)",
  c!"# CI    : 2nd letter of permissible initial consonant pair",
  c!"# CSI   : 2nd letter of permissible initial pair which is syllabic (l,m,n,r)",
  c!"# CP    : 2nd letter of permissible consonant pair (except nr)",
  c!"# CS    : 2nd letter of permissible pair which is syllabic (l,m,n,r)",
  c!"# CN    : 2nd letter of impermissible consonant pair",
  c!"# H     : rnC,CrC (hyphen occuring in stage III fu'ivla)",
  c!"# HS    : rln,nlr,Cnr (H with syllabic 3rd letter)",
  c!"# BT    : 3rd letter of one of the banned triples (ntc,nts,ndj,ndz)",
  c!"# VV    : 2nd vowel of ai|au|ei|oi (allowed in any word type), or 2nd vowel",
  c!"#         of v,v pattern. [Comma treated the same as apostrophe between vowels]",
  c!"# VX    : (extended) 2nd vowel of [iu][aeiou] (allowed as single VV cmavo,",
  c!"#         and in fu'ivla & cmene)",
  c!"# VO    : other vowel pairs (aa,ae,ao,ea,ee,eo,eu,oa,oe,oo,ou)",
  c!"# VY    : vowel pair forms involving y, maybe with a comma between (valid only",
  c!"#         in cmene)",
  c!"# YY    : 2 copies of the letter y adjacent to each other with no separation",
  c!"",
  c!"# Notes",
  c!"# - pairs & triples may have y within them.  This allows this 'grammar' to",
  c!"#   specify the checks for whether the y is actually required or not.",
  c!"# - NR is separated out from CP (and R, N separated from C) to allow checking",
  c!"#   the validity/necessity of the hyphenation structure after an initial CVV",
  c!"#   rafsi in a lujvo.",
  c!"# - At the moment, the NFA contains some dead paths, mostly concerned with",
  c!"#   saying CI can follow N or R (which can never happen).  This is where",
  c!"#   C|N|R is used to specify any single consonant after a vowel, and the next",
  c!"#   letter may or may not be part of an initial cluster.  It's too tedious to",
  c!"#   optimise away all such cases.  The net result is that the resuting DFA is",
  c!"#   larger than it needs to be and has unreachable states in it.",
  c!"# - Support for the cultural rafsi (section 4.16 of the Reference Grammar) has",
  c!"#   been made optional.  To disable them, pass the file through 'grep -v",
  c!"#   CULTURAL' first.",
  c!"",
  c!"# Prefix applied to the tables written out for inclusion into the C program.",
  c!"",
  c!"Prefix morf",
  c!"",
  c!"Abbrev CNR = C|N|R",
  c!"Abbrev LCI = CI|CSI",
  c!"Abbrev LCP = CI|CSI|CP|CS|NR",
  c!"Abbrev FVV = VV|VX|VO",
  c!"Abbrev FC = C|N|R",
  c!"Abbrev FCP = CI|CP|H",
  c!"Abbrev FCS = CSI|CS|HS|NR",
  c!"",
  c!"",
  c!"###########################################################",
  c!"# Subcomponents for lujvo matching",
  c!"#{{{ BLOCK SYL1",
  c!"BLOCK SYL1",
  c!"",
  c!"    STATE in",
  c!"        CNR ; V   ; APOS ; V              -> ex_nr  # Requires nr hyphen after or just final CCV",
  c!"        CNR ; V   ; VV                    -> ex_nr  # Requires nr hyphen after or just final CCV",
  c!"        C   ; LCI ; V                     -> ex_cln # No special binding to next syl",
  c!"        CNR ; V   ; CNR                   -> ex_cvc # Starts CVC, may require tosmabru check",
  c!"        CNR ; V   ; CNR ; LCP             -> ex_cvy # Ditto, starts CV",
  c!"        C   ; LCI ; V   ; CNR             -> ex_y   # Requires y before next syl",
  c!"    ",
  c!"ENDBLOCK",
  c!"#}}}"]

/-- Lines 101 to 200 of `morf_nfa.in`. -/
def text1 : List (List Char) := [
  c!"#{{{ BLOCK AFTER1",
  c!"BLOCK AFTER1",
  c!"",
  c!"# Glue coming between first syllable (i.e. rafsi) and what follows",
  c!"",
  c!"    STATE in_nr",
  c!"        R ; CP|CS -> to_lujvo1, to_after_nr_hyphen",
  c!"        N ; NR -> to_lujvo1, to_after_nr_hyphen",
  c!"        CNR    -> to_final_ccv",
  c!"",
  c!"    STATE in_cln",
  c!"        CNR -> to_lujvo0, to_pair0",
  c!"",
  c!"    STATE in_y",
  c!"        Y ; LCP|CN      -> to_lujvo0, to_pair0",
  c!"        Y ; CP ; BT     -> to_in_after_cc0",
  c!"",
  c!"    STATE in_cvy",
  c!"        Y ; LCP|CN|HS|H|BT -> to_lujvo1, to_pair1",
  c!"        Y ; CP|H ; BT      -> to_in_after_cc1",
  c!"",
  c!"    STATE in_cvc",
  c!"        LCP         -> to_lujvo1, to_pair1",
  c!"        Y ; CN      -> to_lujvo1, to_pair1",
  c!"        Y ; LCI     -> to_lujvo1t, to_pair1t, to_tosmabru",
  c!"        Y ; CP ; BT -> to_in_after_cc1",
  c!"        ",
  c!"ENDBLOCK",
  c!"#}}}",
  c!"#{{{ BLOCK SYL2",
  c!"BLOCK SYL2 # Lujvo syllables (i.e. rafsi) 2 .. (N-1)",
  c!"    STATE in",
  c!"        V   ; VV                 -> ex_cln",
  c!"        V   ; APOS ; V           -> ex_cln",
  c!"        LCI ; V                  -> ex_cln",
  c!"        V   ; CNR                -> ex_cvc",
  c!"        V   ; CNR  ; LCP         -> ex_y",
  c!"        LCI ; V    ; CNR         -> ex_y",
  c!"        ",
  c!"",
  c!"    STATE in_after_cc # get here if last syl. ends in c, which when combined",
  c!"                      # with 1st & 2nd letters of this syl. forms a bad consonant triple",
  c!"",
  c!"        V                  -> ex_cln            # from ccv form",
  c!"        V ; CNR            -> ex_y              # from ccvc form",
  c!"    ",
  c!"ENDBLOCK",
  c!"#}}}",
  c!"#{{{ BLOCK AFTER2",
  c!"BLOCK AFTER2",
  c!"    ",
  c!"# Linkage from rafsi 2->3, ..., (N-1)->N",
  c!"",
  c!"    STATE in_cln",
  c!"        CNR                  -> exit",
  c!"        ",
  c!"    STATE in_cvc",
  c!"        Y ; CN               -> exit",
  c!"        Y ; CP ; BT          -> exit_after_cc",
  c!"        LCP                  -> exit",
  c!"",
  c!"    STATE in_y",
  c!"        Y ; LCP|CN|HS|H|BT   -> exit",
  c!"        Y ; CP|H ; BT        -> exit_after_cc",
  c!"    ",
  c!"ENDBLOCK",
  c!"#}}}",
  c!"#{{{ BLOCK SYLN",
  c!"BLOCK SYLN",
  c!"# Lujvo final syllable",
  c!"    STATE in_main",
  c!"        V   ; APOS ; V          -> exit  # final CV'V",
  c!"        V   ; VV                -> exit  # final CVV",
  c!"        LCI ; V                 -> exit  # final CCV",
  c!"        LCI ; V ; CNR ; V       -> exit  # final CCVCV",
  c!"        V   ; CNR ; LCP ; V     -> exit  # final CVCCV",
  c!"",
  c!"    STATE in_after_nr_hyphen",
  c!"        V   ; APOS ; V          -> exit  # final CV'V",
  c!"        V   ; VV                -> exit  # final CVV",
  c!"        LCI ; V    ; CNR  ; V   -> exit  # final CCVCV",
  c!"        V   ; CNR  ; LCP  ; V   -> exit  # final CVCCV",
  c!"",
  c!"    STATE in_to_ccv",
  c!"        LCI ; V                 -> exit  # final CCV",
  c!"",
  c!"    # Used to support bad triples with n at end of previous syllable",
  c!"    STATE in_after_cc",
  c!"        V                       -> exit  # final CCV",
  c!"        V ; CNR ; V             -> exit  # final CCVCV",
  c!"",
  c!"ENDBLOCK",
  c!"#}}}",
  c!"#{{{ BLOCK SYL2N",
  c!"BLOCK SYL2N",
  c!"",
  c!"# Everything from start of 2nd syllable (less initial consonant picked off in",
  c!"# AFTER1) through to end of lujvo.  This is in a block because 3 instances are",
  c!"# made ; one to recognize lujvo which start with a cluster (lujvo_0), a second",
  c!"# to recognize those starting with CV.. (i.e. deferred cluster), and a third to"]

/-- Lines 201 to 300 of `morf_nfa.in`. -/
def text2 : List (List Char) := [
  c!"# recognize the subset of the second where a y has been inserted after an",
  c!"# initial CVC to prevent a tosmabru failure.  (For that third case, the",
  c!"# 'tosmabru' block scans the sequence that would have been the shorter lujvo to",
  c!"# check it's valid; if not, the 'y' was a bogus insertion.)",
  c!"",
  c!"    s2 : SYL2",
  c!"    a2 : AFTER2",
  c!"    sn : SYLN",
  c!"",
  c!"    STATE in -> s2.in",
  c!"",
  c!"    STATE in_after_cc -> s2.in_after_cc, sn.in_after_cc",
  c!"",
  c!"    # Bridge s2->a2",
  c!"    STATE s2.ex_cln -> a2.in_cln",
  c!"    STATE s2.ex_cvc -> a2.in_cvc",
  c!"    STATE s2.ex_y -> a2.in_y",
  c!"    ",
  c!"    # Bind a2->s2 (loop or goto final syl.)",
  c!"    STATE a2.exit -> s2.in, sn.in_main",
  c!"    STATE a2.exit_after_cc -> s2.in_after_cc, sn.in_after_cc",
  c!"",
  c!"ENDBLOCK",
  c!"#}}}",
  c!"#{{{ BLOCK TOS_SYL1",
  c!"BLOCK TOS_SYL1",
  c!"# Match syllable 1 of what would be the shorter lujvo in a potential tosmabru",
  c!"# failure.",
  c!"    STATE in",
  c!"        V                  -> ex_cln",
  c!"        V ; CNR            -> ex_y",
  c!"",
  c!"ENDBLOCK",
  c!"#}}}",
  c!"#{{{ BLOCK TOS_AFTER1",
  c!"BLOCK TOS_AFTER1",
  c!"# Glue after 1st syllable of potential shorter lujvo (binds 1st syl. to 2nd)",
  c!"",
  c!"    STATE in_cln",
  c!"        CNR -> exit",
  c!"",
  c!"    STATE in_y",
  c!"        Y ; LCP|CN      -> exit",
  c!"        Y ; CP|CS ; BT  -> exit_to_after_cc",
  c!"",
  c!"ENDBLOCK",
  c!"#}}}",
  c!"#{{{ BLOCK TOSMABRU",
  c!"BLOCK TOSMABRU",
  c!"# To check tail portion of word to see if it too is of lujvo",
  c!"# form.",
  c!"    s1 : TOS_SYL1",
  c!"    a1 : TOS_AFTER1",
  c!"    tail : SYL2N",
  c!"    ",
  c!"    STATE in -> s1.in",
  c!"",
  c!"    STATE s1.ex_cln -> a1.in_cln",
  c!"    STATE s1.ex_y -> a1.in_y",
  c!"    STATE a1.exit -> tail.sn.in_main, tail.in",
  c!"    STATE a1.exit_to_after_cc -> tail.in_after_cc",
  c!"    STATE tail.sn.exit -> exit",
  c!"    ",
  c!"ENDBLOCK",
  c!"#}}}",
  c!"#{{{ BLOCK LUJVO_BODY",
  c!"BLOCK LUJVO_BODY",
  c!"",
  c!"# The complete NFA for matching a word of lujvo form.",
  c!"",
  c!"    s1 : SYL1",
  c!"    a1 : AFTER1",
  c!"",
  c!"    t0 : SYL2N",
  c!"    t1 : SYL2N",
  c!"    t1t : SYL2N",
  c!"",
  c!"    tos : TOSMABRU",
  c!"    ",
  c!"    STATE in -> s1.in",
  c!"",
  c!"    # Bridge s1->a1",
  c!"    STATE s1.ex_nr -> a1.in_nr",
  c!"    STATE s1.ex_cln -> a1.in_cln",
  c!"    STATE s1.ex_y -> a1.in_y",
  c!"    STATE s1.ex_cvy -> a1.in_cvy",
  c!"    STATE s1.ex_cvc -> a1.in_cvc",
  c!"",
  c!"    # Bridge a1->t1.sn",
  c!"    STATE a1.to_final_ccv -> t1.sn.in_to_ccv",
  c!"    STATE a1.to_after_nr_hyphen -> t1.sn.in_after_nr_hyphen",
  c!"    STATE a1.to_in_after_cc0 -> t0.in_after_cc",
  c!"    STATE a1.to_in_after_cc1 -> t1.in_after_cc",
  c!"",
  c!"    # Bridge a1 to final syllables for cases where a 2 rafsi lujvo is valid",
  c!"    # this way",
  c!"    STATE a1.to_pair0 -> t0.sn.in_main",
  c!"    STATE a1.to_pair1 -> t1.sn.in_main",
  c!"    STATE a1.to_pair1t -> t1t.sn.in_main",
  c!""]

/-- Lines 301 to 400 of `morf_nfa.in`. -/
def text3 : List (List Char) := [
  c!"    # Bridge a1 to tosmabru",
  c!"    STATE a1.to_tosmabru -> tos.in",
  c!"",
  c!"    # Bridge a1->t0",
  c!"    STATE a1.to_lujvo0 -> t0.in",
  c!"",
  c!"    # Bridge a1->t1",
  c!"    STATE a1.to_lujvo1 -> t1.in",
  c!"",
  c!"    # Bridge a1->t1t",
  c!"    STATE a1.to_lujvo1t -> t1t.in",
  c!"    ",
  c!"ENDBLOCK",
  c!"#}}}",
  c!"#{{{ BLOCK LUJVO",
  c!"BLOCK LUJVO",
  c!"# This block deals with recognition of 'normal' lujvo.",
  c!"",
  c!"    body : LUJVO_BODY",
  c!"",
  c!"    STATE in -> body.in",
  c!"",
  c!"    # Set exit states on t0",
  c!"    STATE body.t0.sn.exit = TAG_LUJVO_0",
  c!"    ",
  c!"    # Set exit states on t1",
  c!"    STATE body.t1.sn.exit = TAG_LUJVO_1",
  c!"        ",
  c!"    # Set exit states on t1t",
  c!"    STATE body.t1t.sn.exit = TAG_LUJVO_1T",
  c!"",
  c!"    # Set exit status when potentially shorter word is of valid lujvo form",
  c!"    # (e.g. the smabru in tosmabru)",
  c!"    STATE body.tos.exit = TAG_LUJVO_TAIL_OK",
  c!"",
  c!"ENDBLOCK",
  c!"#}}}",
  c!"###########################################################",
  c!"#{{{  BLOCK CULTURAL_BRIDGE",
  c!"BLOCK CULTURAL_BRIDGE",
  c!"",
  c!"# This blocks describes the extra NFA states that have to bridged on top of the",
  c!"# standard lujvo to get something that copes with cultural rafsi too.",
  c!"",
  c!"    STATE in_before_c",
  c!"        C -> in # No point using CNR, because N&R can't start initial pair",
  c!"",
  c!"    STATE in",
  c!"        LCI -> in_after_cc",
  c!"",
  c!"    STATE in_after_cc",
  c!"        V ; APOS ; V ; CNR -> exit",
  c!"        V ; VV       ; CNR -> exit",
  c!"",
  c!"ENDBLOCK",
  c!"#}}}",
  c!"",
  c!"###########################################################",
  c!"#{{{  BLOCK CULTURAL_LUJVO",
  c!"BLOCK CULTURAL_LUJVO",
  c!"",
  c!"    # Block to recognise lujvo which have 'cultural' rafsi in them.",
  c!"",
  c!"    # Obviously this recognises all normal lujvo as well, because it will cope",
  c!"    # with >=0 of the rafsi being cultural.  That is not important, because",
  c!"    # this case is 'set differenced' away in the priority logic at the end of",
  c!"    # the file : if the word's a normal lujvo, it is never considered for",
  c!"    # recognition as a cultural one.",
  c!"",
  c!"    # The core lujvo - replicates the main lujvo matching block.",
  c!"    body : LUJVO_BODY",
  c!"",
  c!"    # The extra bits",
  c!"    s1      : CULTURAL_BRIDGE",
  c!"    tos_s1  : CULTURAL_BRIDGE",
  c!"",
  c!"    t0  : CULTURAL_BRIDGE",
  c!"    t1  : CULTURAL_BRIDGE",
  c!"    t1t : CULTURAL_BRIDGE",
  c!"    tos : CULTURAL_BRIDGE",
  c!"",
  c!"    STATE in -> body.in",
  c!"",
  c!"    ##############",
  c!"    # Add bridging between states arising from cultural rafsi being present.",
  c!"",
  c!"    STATE body.s1.in -> s1.in_before_c",
  c!"    STATE s1.exit    -> body.s1.ex_y",
  c!"",
  c!"    STATE body.t0.s2.in          -> t0.in",
  c!"    STATE body.t0.s2.in_after_cc -> t0.in_after_cc",
  c!"    STATE t0.exit                -> body.t0.s2.ex_y",
  c!"",
  c!"    STATE body.t1.s2.in          -> t1.in",
  c!"    STATE body.t1.s2.in_after_cc -> t1.in_after_cc",
  c!"    STATE t1.exit                -> body.t1.s2.ex_y",
  c!"",
  c!"    STATE body.t1t.s2.in          -> t1t.in",
  c!"    STATE body.t1t.s2.in_after_cc -> t1t.in_after_cc",
  c!"    STATE t1t.exit                -> body.t1t.s2.ex_y"]

/-- Lines 401 to 500 of `morf_nfa.in`. -/
def text4 : List (List Char) := [
  c!"",
  c!"    STATE body.tos.tail.s2.in          -> tos.in",
  c!"    STATE body.tos.tail.s2.in_after_cc -> tos.in_after_cc",
  c!"    STATE tos.exit                     -> body.tos.tail.s2.ex_y",
  c!"    ",
  c!"    STATE body.tos.s1.in -> tos_s1.in_after_cc",
  c!"    STATE tos_s1.exit    -> body.tos.s1.ex_y",
  c!"",
  c!"    ##############",
  c!"",
  c!"    # Set exit states on t0",
  c!"    STATE body.t0.sn.exit = TAG_CULTURAL_LUJVO_0",
  c!"    ",
  c!"    # Set exit states on t1",
  c!"    STATE body.t1.sn.exit = TAG_CULTURAL_LUJVO_1",
  c!"        ",
  c!"    # Set exit states on t1t",
  c!"    STATE body.t1t.sn.exit = TAG_CULTURAL_LUJVO_1T",
  c!"",
  c!"    # Set exit status when potentially shorter word is of valid lujvo form",
  c!"    # (e.g. the smabru in tosmabru)",
  c!"    STATE body.tos.exit = TAG_CULTURAL_LUJVO_TAIL_OK",
  c!"",
  c!"ENDBLOCK",
  c!"#}}}",
  c!"###########################################################",
  c!"#{{{ BLOCK LUJVO_NO_Y_BAD_VOWELS",
  c!"# The idea of this block is to pick out words that have lujvo consonant",
  c!"# structure, but which can contain invalid vowel pairs.  These have to be",
  c!"# filtered out of the stage-IV fu'ivla set later on.  Hence a big",
  c!"# simplification : don't care about lujvo forms with 'y' in.",
  c!"BLOCK LUJVO_NO_Y_BAD_VOWELS",
  c!"",
  c!"    STATE c",
  c!"        LCP ; V ; FVV       -> v, exit",
  c!"        LCP ; V ; APOS ; V  -> v, exit",
  c!"        LCP ; V ; CNR       -> c",
  c!"        LCP ; LCI ; V       -> v, exit",
  c!"",
  c!"    STATE v",
  c!"        CNR ; V ; FVV       -> v, exit",
  c!"        CNR ; V ; APOS ; V  -> v, exit",
  c!"        CNR ; LCI ; V       -> v, exit",
  c!"        CNR ; V ; CNR       -> c",
  c!"",
  c!"    STATE cvv1",
  c!"        R ; LCP ; V ; FVV       -> v, exit",
  c!"        R ; LCP ; V ; APOS ; V  -> v, exit",
  c!"        R ; LCP ; V ; CNR       -> c",
  c!"        R ; LCP ; LCI ; V       -> v, exit",
  c!"        N ; NR  ; V ; FVV       -> v, exit",
  c!"        N ; NR  ; V ; APOS ; V  -> v, exit",
  c!"        N ; NR  ; V ; CNR       -> c",
  c!"",
  c!"    STATE exit = TAG_LUJVO_NO_Y_BAD_VOWELS",
  c!"",
  c!"    STATE in",
  c!"        CNR ; V ; FVV       -> cvv1",
  c!"        CNR ; V ; APOS ; V  -> cvv1",
  c!"        CNR ; LCI ; V       -> v",
  c!"        CNR ; V ; CNR       -> c",
  c!"",
  c!"        CNR ; V ; FVV      ; CNR ; LCI ; V -> exit",
  c!"        CNR ; V ; APOS ; V ; CNR ; LCI ; V -> exit",
  c!"",
  c!"ENDBLOCK",
  c!"#}}}",
  c!"###########################################################",
  c!"#{{{  BLOCK CMAVOSEQ",
  c!"BLOCK CMAVOSEQ",
  c!"",
  c!"    # Recognize a sequence of cmavo.  There are two exit cases : first is a",
  c!"    # sequence of 'normal' cmavo; this can potentially be prefixed onto a",
  c!"    # gismu, lujvo or fu'ivla.  The 2nd may start with some 'normal' cmavo, but",
  c!"    # ends with one or more cmavo of the Cy form.  This has to occur at the end",
  c!"    # of the word.",
  c!"",
  c!"    STATE in",
  c!"        V -> m2, mv, in1",
  c!"        CNR -> main, cy1",
  c!"        Y -> y",
  c!"",
  c!"    STATE in1",
  c!"        VX -> in2",
  c!"",
  c!"    STATE in2",
  c!"            -> exit_prefixable",
  c!"        CNR -> main",
  c!"",
  c!"    STATE main",
  c!"        V -> m2, mv",
  c!"",
  c!"    STATE mv",
  c!"        VV -> m2, mv",
  c!"",
  c!"    STATE m2",
  c!"        CNR  -> main, cy1",
  c!"        APOS -> main",
  c!"             -> exit_prefixable",
  c!""]

/-- Lines 501 to 600 of `morf_nfa.in`. -/
def text5 : List (List Char) := [
  c!"    STATE cy1",
  c!"        Y -> cy2",
  c!"    STATE cy2",
  c!"        -> exit_standalone",
  c!"        CI|CSI|CP|CS|CN|NR|H|HS|BT -> cy1",
  c!"",
  c!"    STATE y",
  c!"        YY -> yy",
  c!"        -> exit_standalone",
  c!"        APOS -> ya",
  c!"",
  c!"    STATE yy",
  c!"        YY -> yy",
  c!"        -> exit_standalone",
  c!"",
  c!"    STATE ya",
  c!"        Y -> exit_standalone",
  c!"",
  c!"    STATE exit_prefixable = TAG_CMAVOS    ",
  c!"    STATE exit_standalone = TAG_CMAVOS_END_CY",
  c!"",
  c!"ENDBLOCK",
  c!"#}}}",
  c!"#{{{  BLOCK GISMU",
  c!"BLOCK GISMU",
  c!"# Recognize a gismu.  The two cases CVC/CV and CCVCV get different exit",
  c!"# statuses; this allows the scanner to back up one potential prefix cmavo in",
  c!"# the CVC/CV case. (See how this is much simpler than the lujvo matcher!)",
  c!"",
  c!"    STATE in",
  c!"        C     ; LCI ; V     ; CNR ; V = TAG_GISMU_0",
  c!"        CNR   ; V   ; CNR   ; LCP ; V = TAG_GISMU_1",
  c!"        ",
  c!"ENDBLOCK",
  c!"#}}}",
  c!"###########################################################",
  c!"#{{{  BLOCK SLINKUI",
  c!"BLOCK SLINKUI",
  c!"    # Recognize a slinku'i",
  c!"    #",
  c!"    # This is basically like recognizing a lujvo but with a much reduced state",
  c!"    # topology, because the letter 'y' can't occur anywhere.  So the final rafsi",
  c!"    # could be any of the valid forms, however, all earlier ones are restricted to",
  c!"    # CVV, CVC or CCV.",
  c!"    # For the first syllable, we jump in as though we've already recognized CV.",
  c!"    # Although the potential lujvo is always going to start CV, we distinguish the",
  c!"    # cases based on whether it's fu'ivla_0 or fu'ivla_1 that's going to be",
  c!"    # squashed by a match, to make sure the fu'ivla NFA and slinku'i NFA are",
  c!"    # treating the same length word tail as the match string.",
  c!"",
  c!"    # SYL2N is a superset of what's needed, because it allows y's.  We'll never",
  c!"    # check for slinkui unless we find it's a fu'ivla so this won't cause false",
  c!"    # matches.  Ideally, a custom SYL2N block is required, however using the",
  c!"    # existing lujvo one at least gives code commonality so is easier to",
  c!"    # maintain.  It probably also makes the DFA smaller, because it will keep",
  c!"    # more states common with the lujvo NFA.",
  c!"    t0 : SYL2N",
  c!"",
  c!"    STATE in_after_c # First syl is CVC",
  c!"        # Link to final syl",
  c!"        # CVC + CC... or CVC + CV...",
  c!"        # Must be valid pair across transition, no y allowed",
  c!"        # Initial C => fu'ivla has init. cons. cluster, so fu'ivla_0",
  c!"        # will match if anything.  Hence need SLINKUI_0 result",
  c!"",
  c!"        LCP -> t0.sn.in_main, t0.in",
  c!"",
  c!"    STATE t0.sn.exit = TAG_SLINKUI_0",
  c!"",
  c!"ENDBLOCK",
  c!"#}}}",
  c!"###########################################################",
  c!"# Fu'ivla matching blocks (including syllabic consonant rules)",
  c!"",
  c!"#{{{  BLOCK FV_VOWELS",
  c!"BLOCK FV_VOWELS",
  c!"# This describes a valid sequence of vowels within a fu'ivla",
  c!"",
  c!"    STATE in",
  c!"        V                    -> ex_single",
  c!"        V ; FVV              -> ex_single",
  c!"        V ; FVV   ; FVV      -> main",
  c!"        V ; APOS  ; V        -> main",
  c!"        V ; FVV   ; APOS ; V -> main",
  c!"",
  c!"    STATE main",
  c!"        APOS ; V  -> main",
  c!"        FVV       -> main",
  c!"                  -> ex_multi",
  c!"",
  c!"ENDBLOCK",
  c!"#}}}",
  c!"#{{{  BLOCK FV_INITIAL_CLUSTER",
  c!"BLOCK FV_INITIAL_CLUSTER",
  c!"",
  c!"    STATE in",
  c!"        C ; CI                  -> exit",
  c!"        C ; CSI                 -> exit",
  c!"        C ; CI ; CI             -> exit",
  c!"        C ; CI ; CSI            -> exit"]

/-- Lines 601 to 700 of `morf_nfa.in`. -/
def text6 : List (List Char) := [
  c!"        C ; CI ; CSI ; CSI      -> exit",
  c!"        C ; CI ; CI ; CSI ; CSI -> exit",
  c!"",
  c!"ENDBLOCK",
  c!"#}}}",
  c!"",
  c!"#{{{  BLOCK FV_INTERNAL_CONS_GROUP",
  c!"BLOCK FV_INTERNAL_CONS_GROUP",
  c!"",
  c!"    STATE in",
  c!"        FC  -> c1",
  c!"",
  c!"    STATE c1",
  c!"        FCS -> cs",
  c!"        FCP -> c2",
  c!"            -> exit",
  c!"",
  c!"    STATE c2",
  c!"        FCS -> cs",
  c!"        FCP -> c3",
  c!"            -> exit",
  c!"",
  c!"    STATE c3",
  c!"        FCS ; FCS -> cs",
  c!"        FCS ; FCP -> c1",
  c!"                  -> exit",
  c!"",
  c!"    STATE cs",
  c!"        FCS -> cs",
  c!"        FCP -> c1",
  c!"            -> exit",
  c!"",
  c!"    STATE in_req_clus",
  c!"        FC ; FCS -> cs",
  c!"        FC ; FCP -> c2",
  c!"",
  c!"    # Coming in after seeing a stage 3 hyphenation triple",
  c!"    # ending in a non-syllabic",
  c!"    STATE in_after_c -> c1",
  c!"",
  c!"    # Coming in after seeing a stage 3 hyphenation triple",
  c!"    # ending in a syllabic",
  c!"    STATE in_after_s -> cs",
  c!"",
  c!"ENDBLOCK",
  c!"#}}}",
  c!"#{{{  BLOCK FUIVLA_START_V",
  c!"BLOCK FUIVLA_START_V",
  c!"# fu'ivla starting with up to 3 vowels, maybe with apostrophes",
  c!"# between them, then a cluster.",
  c!"",
  c!"    cons    : FV_INTERNAL_CONS_GROUP",
  c!"    later_v : FV_VOWELS",
  c!"",
  c!"    STATE in",
  c!"        V        -> v1",
  c!"",
  c!"    STATE v1",
  c!"        FVV      -> v2",
  c!"        APOS ; V -> v2",
  c!"                 -> cons.in_req_clus",
  c!"",
  c!"    STATE v2",
  c!"        FVV      -> v3",
  c!"        APOS ; V -> v3",
  c!"                 -> cons.in_req_clus",
  c!"",
  c!"    STATE v3     -> cons.in_req_clus",
  c!"",
  c!"    STATE cons.exit -> later_v.in",
  c!"    ",
  c!"    STATE later_v.ex_single",
  c!"        -> exit, cons.in",
  c!"    ",
  c!"    STATE later_v.ex_multi",
  c!"        -> exit, cons.in",
  c!"",
  c!"ENDBLOCK",
  c!"#}}}",
  c!"",
  c!"###########################################################",
  c!"",
  c!"#{{{  BLOCK FUIVLA_START_CV",
  c!"BLOCK FUIVLA_START_CV",
  c!"# fu'ivla starting with a single consonant and up to 2",
  c!"# vowels, maybe with apostrophes between, then a cluster.",
  c!"    cons    : FV_INTERNAL_CONS_GROUP",
  c!"    later_v : FV_VOWELS",
  c!"",
  c!"    STATE in",
  c!"        FC -> c",
  c!"",
  c!"    STATE c",
  c!"        V        -> v1",
  c!"",
  c!"    STATE v1",
  c!"        FVV      -> v2",
  c!"        APOS ; V -> v2",
  c!"                 -> cons.in_req_clus",
  c!"                 "]

/-- Lines 701 to 800 of `morf_nfa.in`. -/
def text7 : List (List Char) := [
  c!"    STATE v2     -> cons.in_req_clus",
  c!"        ",
  c!"    STATE cons.exit -> later_v.in",
  c!"    ",
  c!"    STATE later_v.ex_single",
  c!"        -> exit, cons.in",
  c!"    ",
  c!"    STATE later_v.ex_multi",
  c!"        -> exit, cons.in",
  c!"",
  c!"ENDBLOCK",
  c!"#}}}",
  c!"#{{{  BLOCK FUIVLA_START_CC",
  c!"BLOCK FUIVLA_START_CC",
  c!"    init_cc : FV_INITIAL_CLUSTER",
  c!"    early_v : FV_VOWELS",
  c!"    later_c : FV_INTERNAL_CONS_GROUP",
  c!"    later_v : FV_VOWELS",
  c!"",
  c!"    STATE in",
  c!"        FC -> goto_slinkui",
  c!"           -> init_cc.in",
  c!"",
  c!"    STATE init_cc.exit -> early_v.in",
  c!"    STATE early_v.ex_multi -> exit, later_c.in",
  c!"    STATE early_v.ex_single -> later_c.in",
  c!"    STATE later_c.exit -> later_v.in",
  c!"    STATE later_v.ex_multi -> exit, later_c.in",
  c!"    STATE later_v.ex_single -> exit, later_c.in",
  c!"",
  c!"ENDBLOCK",
  c!"#}}}",
  c!"#{{{  BLOCK STAGE3_TAIL",
  c!"BLOCK STAGE3_TAIL",
  c!"",
  c!"    later_c : FV_INTERNAL_CONS_GROUP",
  c!"    later_v : FV_VOWELS",
  c!"",
  c!"    STATE in -> before_hyph",
  c!"",
  c!"    # Central letter of hyphen (l,n or r) is always syllabic",
  c!"    STATE before_hyph",
  c!"        CSI|CS|HS|NR -> after_hyph",
  c!"",
  c!"    STATE after_hyph",
  c!"        H  -> goto_c",
  c!"        HS -> goto_s",
  c!"",
  c!"    STATE goto_c -> later_c.in_after_c",
  c!"    STATE goto_s -> later_c.in_after_s",
  c!"",
  c!"    STATE later_c.exit -> later_v.in",
  c!"    STATE later_v.ex_multi -> exit, later_c.in",
  c!"    STATE later_v.ex_single -> exit, later_c.in",
  c!"",
  c!"ENDBLOCK",
  c!"#}}}",
  c!"#{{{  BLOCK STAGE3_SHORT",
  c!"BLOCK STAGE3_SHORT",
  c!"# Recognize a stage-3 fu'ivla starting CVC",
  c!"",
  c!"    tail : STAGE3_TAIL",
  c!"",
  c!"    STATE in",
  c!"        CNR ; V ; CNR -> tail.in",
  c!"",
  c!"    STATE tail.goto_c (AT_S3_3)",
  c!"    STATE tail.goto_s (AT_S3_3)",
  c!"    STATE tail.exit -> exit",
  c!"",
  c!"ENDBLOCK",
  c!"#}}}",
  c!"#{{{  BLOCK STAGE3_LONG",
  c!"BLOCK STAGE3_LONG",
  c!"# Recognize a stage-3 fu'ivla starting CVCC or CCVC",
  c!"",
  c!"    tail : STAGE3_TAIL",
  c!"",
  c!"    STATE in",
  c!"        C   ; LCI ; V   ; CNR -> tail.in",
  c!"        CNR ; V   ; CNR ; LCP -> tail.in",
  c!"",
  c!"    STATE tail.goto_c (AT_S3_4)",
  c!"    STATE tail.goto_s (AT_S3_4)",
  c!"    STATE tail.exit -> exit",
  c!"",
  c!"ENDBLOCK",
  c!"#}}}",
  c!"###########################################################",
  c!"# Recognize an \"extended\" stage-3, i.e. one with multiple",
  c!"# rafsi prior to the hyphen.",
  c!"",
  c!"#{{{ BLOCK X_STAGE3_CC_HEAD",
  c!"BLOCK X_STAGE3_CC_HEAD",
  c!"    STATE in",
  c!"        CNR ; LCI ; V ; CNR -> exit",
  c!"ENDBLOCK",
  c!"#}}}",
  c!"#{{{  BLOCK X_STAGE3_CV_HEAD",
  c!"BLOCK X_STAGE3_CV_HEAD"]

/-- Lines 801 to 900 of `morf_nfa.in`. -/
def text8 : List (List Char) := [
  c!"    STATE in",
  c!"        CNR ; V ; APOS ; V -> after_cvv",
  c!"        CNR ; V ; VV       -> after_cvv",
  c!"        CNR ; V ; CNR      -> after_cvc",
  c!"",
  c!"    STATE after_cvv",
  c!"        R ; CP | CS      -> exit",
  c!"        N ; NR           -> exit",
  c!"",
  c!"    STATE after_cvc",
  c!"        CP|CS|NR         -> exit",
  c!"ENDBLOCK",
  c!"#}}}",
  c!"#{{{ BLOCK X_STAGE3_OTHER_RAFSI",
  c!"BLOCK X_STAGE3_OTHER_RAFSI",
  c!"    STATE in",
  c!"        LCI ; V  ; CNR   -> in",
  c!"        V   ; VV ; CNR   -> in",
  c!"        ",
  c!"        V   ; CNR ; LCP  -> in",
  c!"        ",
  c!"        V   ; CNR        -> exit3",
  c!"        LCI ; V   ; CNR  -> exit4",
  c!"        V   ; CNR ; LCP  -> exit4",
  c!"ENDBLOCK",
  c!"#}}}",
  c!"#{{{ BLOCK X_STAGE3 ",
  c!"BLOCK X_STAGE3",
  c!"    cc_head : X_STAGE3_CC_HEAD",
  c!"    cv_head : X_STAGE3_CV_HEAD",
  c!"    other_rafsi : X_STAGE3_OTHER_RAFSI",
  c!"    short_tail : STAGE3_TAIL",
  c!"    long_tail  : STAGE3_TAIL",
  c!"    ",
  c!"    STATE in -> cc_head.in, cv_head.in",
  c!"    STATE cc_head.exit -> other_rafsi.in",
  c!"    STATE cv_head.exit -> other_rafsi.in",
  c!"    STATE other_rafsi.exit3 -> short_tail.in",
  c!"    STATE other_rafsi.exit4 -> long_tail.in",
  c!"    STATE short_tail.exit = TAG_X_STAGE3_CVC",
  c!"    STATE long_tail.exit = TAG_X_STAGE3_LONG",
  c!"    ",
  c!"# Add attributes for grabbing hyphen position",
  c!"    STATE short_tail.goto_c (AT_XS3_3)",
  c!"    STATE short_tail.goto_s (AT_XS3_3)",
  c!"    STATE long_tail.goto_c (AT_XS3_4)",
  c!"    STATE long_tail.goto_s (AT_XS3_4)",
  c!"    ",
  c!"ENDBLOCK",
  c!"#}}}",
  c!"",
  c!"###########################################################",
  c!"#{{{ BLOCK FUIVLA",
  c!"BLOCK FUIVLA",
  c!"# Recognize a fuivla",
  c!"",
  c!"    start_cc : FUIVLA_START_CC",
  c!"    start_cv : FUIVLA_START_CV",
  c!"    start_v  : FUIVLA_START_V",
  c!"    slinkui  : SLINKUI",
  c!"    stage3_short : STAGE3_SHORT",
  c!"    stage3_long  : STAGE3_LONG",
  c!"    xstage3 : X_STAGE3",
  c!"",
  c!"    STATE in_no_prefix -> start_cc.in, start_cv.in, start_v.in,",
  c!"                          stage3_short.in, stage3_long.in,",
  c!"                          xstage3.in",
  c!"                          ",
  c!"    STATE in_prefixed  -> start_cc.in, start_cv.in,",
  c!"                          stage3_short.in, stage3_long.in,",
  c!"                          xstage3.in",
  c!"",
  c!"    STATE start_cc.goto_slinkui -> slinkui.in_after_c",
  c!"",
  c!"    STATE start_cc.exit = TAG_FUIVLA_0",
  c!"    STATE start_cv.exit = TAG_FUIVLA_1",
  c!"    STATE start_v.exit  = TAG_FUIVLA_1",
  c!"    STATE stage3_short.exit = TAG_STAGE3_CVC",
  c!"    STATE stage3_long.exit = TAG_STAGE3_LONG",
  c!"",
  c!"ENDBLOCK",
  c!"#}}}",
  c!"###########################################################",
  c!"#{{{ BLOCK CMENE",
  c!"BLOCK CMENE",
  c!"# Recognize a cmene.  Has to end with consonant, and y is treated like a vowel.",
  c!"# Take care with just a y occurring between consonants; the front end returns",
  c!"# consonant pair tokens in this case (only real vowels clear the front-end",
  c!"# state machine); that behaviour is needed so that when ..CyC.. occurs in",
  c!"# lujvo, the lujvo matching NFA can check whether the consonant cluster was",
  c!"# such as to require the y.  (Extra y's are illegal if not necessary.) Checks",
  c!"# for la, doi etc within the word are done later.  It's too hard to do those",
  c!"# checks and word splits in here without conflicing with the processing of",
  c!"# lujvo etc.",
  c!"",
  c!"# Note, uppercase validation is also separate.  The front end tracks whether an",
  c!"# uppercase letter has been seen, then case-folds the letter.  At the end the",
  c!"# condition (had_uppercase & !cmene) implies a bad word.",
  c!"    STATE in",
  c!"        CNR     -> c"]

/-- Lines 901 to 1000 of `morf_nfa.in`. -/
def text9 : List (List Char) := [
  c!"        V       -> v",
  c!"        Y ; CNR -> c",
  c!"",
  c!"    STATE c",
  c!"        V        -> v",
  c!"        Y        -> y",
  c!"        LCP|HS|H -> c",
  c!"                 -> exit",
  c!"",
  c!"    STATE v",
  c!"        FVV  |VY -> v",
  c!"        CNR      -> c",
  c!"        APOS     -> a",
  c!"",
  c!"    STATE a",
  c!"        V|Y -> v",
  c!"",
  c!"    STATE y",
  c!"        APOS           -> a",
  c!"        VY             -> v",
  c!"        YY             -> y",
  c!"        LCP|HS|H|CN|BT -> c",
  c!"        CP ; BT        -> c # deal with nytc, nyts, nydj, nydz",
  c!"    ",
  c!"    STATE exit",
  c!"        = TAG_CMENE",
  c!"ENDBLOCK",
  c!"#}}}",
  c!"#{{{ BLOCK WORD",
  c!"BLOCK WORD",
  c!"# Top level NFA to recognize a word.",
  c!"    gismu : GISMU",
  c!"    lujvo : LUJVO",
  c!"    cultural_lujvo : CULTURAL_LUJVO",
  c!"    lujvo_no_y_bad_vowels : LUJVO_NO_Y_BAD_VOWELS",
  c!"    cms : CMAVOSEQ",
  c!"    cmene : CMENE",
  c!"    fuivla : FUIVLA",
  c!"    ",
  c!"    STATE in                  -> gismu.in, lujvo.in, cultural_lujvo.in,",
  c!"                                 fuivla.in_no_prefix, cms.in, cmene.in,",
  c!"                                 lujvo_no_y_bad_vowels.in",
  c!"    STATE cms.exit_prefixable -> gismu.in, lujvo.in, cultural_lujvo.in,",
  c!"                                 fuivla.in_prefixed,",
  c!"                                 lujvo_no_y_bad_vowels.in",
  c!"",
  c!"    #####",
  c!"    STATE in     # ENTRY STATE NAMED LAST IN FILE",
  c!"",
  c!"ENDBLOCK",
  c!"#}}}",
  c!"###########################################################",
  c!"# Results definition section",
  c!"# This is the priority encoding logic to determine",
  c!"# the final word type",
  c!"",
  c!"Result TAG_GISMU_0 -> R_GISMU_0",
  c!"Result TAG_GISMU_1 -> R_GISMU_1",
  c!"SymResult TAG_LUJVO_0 -> R_LUJVO_0",
  c!"SymResult TAG_LUJVO_1 & ~TAG_LUJVO_0 -> R_LUJVO_1",
  c!"Result TAG_LUJVO_1T & ~TAG_LUJVO_TAIL_OK -> R_BAD_TOSMABRU",
  c!"# Can't do this in a single stage, because the name conflicts with",
  c!"# R_LUJVO_1 above.",
  c!"Symbol S_LUJVO_1T = TAG_LUJVO_1T & TAG_LUJVO_TAIL_OK",
  c!"Result S_LUJVO_1T -> R_LUJVO_1",
  c!"",
  c!"# 'cultural' lujvo, i.e. ones containing >=1 cultural rafsi (CCVVCV).",
  c!"# These have some simplifications; we know one of these lujvo must contain 'y',",
  c!"# so these don't have to enter into checking fu'ivla validity later on.",
  c!"",
  c!"# Recall that the CULTURAL_LUJVO block matches all standard lujvo too, so",
  c!"# these have to be factored out.",
  c!"",
  c!"# Fortunately, there is direct equivalence between the ordinary and cultural",
  c!"# varieties in terms of the 0/1/1T status.",
  c!"",
  c!"Symbol S_CULTURAL_0 = TAG_CULTURAL_LUJVO_0 & ~TAG_LUJVO_0",
  c!"Symbol S_CULTURAL_1 = TAG_CULTURAL_LUJVO_1 & ~TAG_LUJVO_1",
  c!"Symbol S_CULTURAL_1T = TAG_CULTURAL_LUJVO_1T & ~TAG_LUJVO_1T",
  c!"",
  c!"Symbol S_CULTURAL_TAIL_OK = TAG_CULTURAL_LUJVO_TAIL_OK",
  c!"",
  c!"Result S_CULTURAL_0                        -> R_CULTURAL_LUJVO_0",
  c!"Result S_CULTURAL_1  & ~S_CULTURAL_0       -> R_CULTURAL_LUJVO_1",
  c!"Result S_CULTURAL_1T & ~S_CULTURAL_TAIL_OK -> R_CULTURAL_BAD_TOSMABRU",
  c!"Result S_CULTURAL_1T &  S_CULTURAL_TAIL_OK -> R_CULTURAL_LUJVO_1",
  c!"",
  c!"Symbol VALID_LUJVO = S_LUJVO_1T | R_LUJVO_1 | R_LUJVO_0",
  c!"Symbol VALID_GISMU = TAG_GISMU_0 | TAG_GISMU_1",
  c!"Symbol VLG = VALID_LUJVO | VALID_GISMU",
  c!"",
  c!"Result               ~VLG &  TAG_FUIVLA_0 &  TAG_SLINKUI_0 & ~TAG_FUIVLA_1 -> R_BAD_SLINKUI",
  c!"Symbol S_FUIVLA_0  = ~VLG &  TAG_FUIVLA_0 & ~TAG_SLINKUI_0",
  c!"Symbol S_FUIVLA_1A = ~VLG &  TAG_FUIVLA_0 &  TAG_SLINKUI_0 &  TAG_FUIVLA_1",
  c!"Symbol S_FUIVLA_1B = ~VLG & ~TAG_FUIVLA_0 &                   TAG_FUIVLA_1",
  c!"Symbol S_FUIVLA_1  = S_FUIVLA_1A | S_FUIVLA_1B",
  c!"",
  c!"# The logic here is that if a stage 3 fu'ivla could start with either a CVC or",
  c!"# a 4 letter rafsi prefix, prefer the 4 letter form.  Otherwise, you could not",
  c!"# write a stage 3 fu'ivla starting with that rafsi!  (If this renders a"]

/-- Lines 1001 to 1044 of `morf_nfa.in`. -/
def text10 : List (List Char) := [
  c!"# particular CVC rafsi impossible, you just have to use its corresponding 4",
  c!"# letter form to work around this.)",
  c!"",
  c!"Symbol ANY_STAGE3  = TAG_STAGE3_LONG | TAG_STAGE3_CVC | TAG_X_STAGE3_CVC | TAG_X_STAGE3_LONG",
  c!"# Standard stage-3 (1 rafsi + hyphen + fu'ivla tail)",
  c!"Result S_FUIVLA_0 &  TAG_STAGE3_LONG -> R_STAGE3_0",
  c!"Result S_FUIVLA_1 &  TAG_STAGE3_LONG -> R_STAGE3_1",
  c!"Result S_FUIVLA_1 &  TAG_STAGE3_CVC & !TAG_STAGE3_LONG -> R_STAGE3_1_CVC",
  c!"# Extended stage-3 (>1 rafsi + hyphen + fu'ivla tail)",
  c!"Result S_FUIVLA_0 &  TAG_X_STAGE3_LONG -> R_X_STAGE3_0",
  c!"Result S_FUIVLA_0 &  TAG_X_STAGE3_CVC & !TAG_X_STAGE3_LONG -> R_X_STAGE3_0_CVC",
  c!"Result S_FUIVLA_1 &  TAG_X_STAGE3_LONG -> R_X_STAGE3_1",
  c!"Result S_FUIVLA_1 &  TAG_X_STAGE3_CVC & !TAG_X_STAGE3_LONG -> R_X_STAGE3_1_CVC",
  c!"",
  c!"Result S_FUIVLA_0 & ~ANY_STAGE3 & ~TAG_LUJVO_NO_Y_BAD_VOWELS -> R_STAGE4_0",
  c!"Result S_FUIVLA_1 & ~ANY_STAGE3 & ~TAG_LUJVO_NO_Y_BAD_VOWELS -> R_STAGE4_1",
  c!"",
  c!"# All of the following are disjoint with each other and with any",
  c!"# of the earlier ones",
  c!"",
  c!"Result TAG_CMENE -> R_CMENE",
  c!"Result TAG_CMAVOS -> R_CMAVOS",
  c!"Result TAG_CMAVOS_END_CY -> R_CMAVOS_END_CY",
  c!"",
  c!"# The default case if nothing else matches",
  c!"DefResult R_UNKNOWN",
  c!"",
  c!"# C type of exit values",
  c!"Type \"enum raw_category\"",
  c!"",
  c!"# C type of attribute table",
  c!"Attr Type \"enum state_attribute\"",
  c!"",
  c!"# Attribute tags",
  c!"Attr Result AT_S3_3",
  c!"Attr Result AT_S3_4",
  c!"Attr Result AT_XS3_3",
  c!"Attr Result AT_XS3_4",
  c!"",
  c!"# The default attribute if nothing else matches",
  c!"Attr DefResult AT_UNKNOWN",
  c!"",
  c!"# vim:cms=#%s",
  c!""]

/-- The whole of `morf_nfa.in`. -/
def text : List Char := (text0 ++ text1 ++ text2 ++ text3 ++ text4 ++ text5 ++ text6 ++ text7 ++ text8 ++ text9 ++ text10).flatMap (· ++ ['\n'])

/-- The declarations in `MorfSrc` are those of the file. -/
theorem text_source : DfaSrc.ofText text = some morfSource := by decide +kernel

end Jbo.Morf
