{
 "claims": [
  {
   "property": "C01",
   "status": "proved",
   "theorems": [
    "Jbo.Dict.compile_lookup",
    "Jbo.Dict.recompile_lookup",
    "Jbo.Dict.qsorted_exists"
   ],
   "note": "End to end: history -> sort (any qsort) -> rationalise -> file bytes -> load -> bisection; also on top of an existing file."
  },
  {
   "property": "C02",
   "status": "partial",
   "theorems": [
    "Jbo.Dict.noninterference_partial",
    "Jbo.Dict.long_entry_overflows",
    "Jbo.Dict.long_value_hides_other_word"
   ],
   "note": "Unrestricted claim is false of the code; proved for strings up to 255 bytes, with the failing case shown."
  },
  {
   "property": "C03",
   "status": "proved",
   "theorems": [
    "Jbo.Dict.lookup_sound",
    "Jbo.Dict.lookup_exact"
   ],
   "note": "Soundness on any table, exactness on sorted ones."
  },
  {
   "property": "C04",
   "status": "proved",
   "theorems": [
    "Jbo.Dict.place_drops_refinements",
    "Jbo.Dict.place_defined"
   ],
   "note": "canon_lujvo is an arbitrary function parameter."
  },
  {
   "property": "C05",
   "status": "proved",
   "theorems": [
    "Jbo.Erasure.si_refines_replay",
    "Jbo.Erasure.si_erases_previous",
    "Jbo.Erasure.si_quote_shortfall",
    "Jbo.Erasure.si_si_vanishes",
    "Jbo.Erasure.si_after_garbage_aborts"
   ],
   "note": "handle_si equals the word-by-word stack replay for every token list; abort exactly on unsupported tokens (garbage, marker, zei, bu)."
  },
  {
   "property": "C06",
   "status": "proved",
   "theorems": [
    "Jbo.Erasure.sa_erases_to_class",
    "Jbo.Erasure.sa_absent"
   ],
   "note": "Step equation for the first sa, final/absent sa."
  },
  {
   "property": "C07",
   "status": "proved",
   "theorems": [
    "Jbo.Erasure.su_erases_to_opener",
    "Jbo.Erasure.su_su_erases_all",
    "Jbo.Erasure.su_absent"
   ],
   "note": "Step equations for the first su."
  },
  {
   "property": "C08",
   "status": "proved",
   "theorems": [
    "Jbo.Erasure.erasures_conserve",
    "Jbo.Erasure.erasures_absent"
   ],
   "note": "Survivors are a subsequence of the input up to relabelling as partly erased."
  },
  {
   "property": "C09",
   "status": "proved",
   "theorems": [
    "Jbo.Lex2.zo_quotes_next",
    "Jbo.Lex2.zo_quotes_zoi",
    "Jbo.Lex2.zo_free",
    "Jbo.Lex2.zo_final_reported",
    "Jbo.Lex2.zo_conserves"
   ],
   "note": "all token lists; zo before a token other than a plain word or zoi-quote asserts in the code (cannot come from the lexer at that stage)"
  },
  {
   "property": "C10",
   "status": "proved",
   "theorems": [
    "Jbo.Lex2.lohu_quotes",
    "Jbo.Lex2.lohu_unterminated",
    "Jbo.Lex2.lohu_none_left",
    "Jbo.Lex2.lohu_inner_text",
    "Jbo.Lex2.lohu_empty_aborts"
   ],
   "note": "the empty quotation is a proved defect (assertion failure)"
  },
  {
   "property": "C100",
   "status": "partial",
   "theorems": [
    "Jbo.CmMain.gloss_text",
    "Jbo.CmMain.text_known",
    "Jbo.CmMain.text_scanned",
    "Jbo.CmMain.gloss_words",
    "Jbo.CmMain.display_shown",
    "Jbo.CmMain.words_known",
    "Jbo.CmMain.lujvo_printed",
    "Jbo.CmMain.brackets_doubled"
   ],
   "note": "Proved for texts of words, blanks, full stops, signs, empty lines and balanced brackets: whenever the program does not crash, and it does not before the display if the cmavo are known and short. Text in brackets is not shown as written: brackets_doubled shows that the brackets get brackets of their own. Not shown: texts with letters that Lojban does not have."
  },
  {
   "property": "C101",
   "status": "partial",
   "theorems": [
    "Jbo.CmMain.parse_means",
    "Jbo.CmMain.main_status",
    "Jbo.CmMain.width_missing"
   ],
   "note": "Holds for command lines in which -w has a value; -w as the last argument gives atoi a null pointer (width_missing)."
  },
  {
   "property": "C102",
   "status": "partial",
   "theorems": [
    "Jbo.Trace.log_exact",
    "Jbo.Trace.log_fits_partial",
    "Jbo.Trace.deep_overruns",
    "Jbo.Trace.nu_overruns",
    "Jbo.Trace.parse_built",
    "Jbo.Trace.nu_parse"
   ],
   "note": "The claim is false of the code: more than 1024 reductions in a row are written past the end. log_exact: what the log holds, and exactly when it overruns. nu_overruns: a text that does so, 53 times nu before a brivla, and not with fewer. log_fits_partial: trees of at most 1024 levels are safe."
  },
  {
   "property": "C103",
   "status": "partial",
   "theorems": [
    "Jbo.Trace.report_shown_partial",
    "Jbo.Trace.rule_shown_partial",
    "Jbo.Trace.state_shown",
    "Jbo.Trace.next_shown",
    "Jbo.Trace.last_rule"
   ],
   "note": "The report is as told on the error stream if the last rule of the grammar is not in it. The claim is false in two points: for the last rule the index is read past its end (last_rule), and the indentation of each rule goes to the output of the program (report_shown_partial counts these blanks)."
  },
  {
   "property": "C104",
   "status": "proved",
   "theorems": [
    "Jbo.Ext.records",
    "Jbo.Ext.apart"
   ],
   "note": "records: after any sequence of legal steps, any further legal step neither reads outside nor loops, and its answer is right; legal means that new returns fresh addresses and that fields are reached through records that were handed out."
  },
  {
   "property": "C105",
   "status": "proved",
   "theorems": [
    "Jbo.Make.made",
    "Jbo.Make.ancestors",
    "Jbo.Make.compressed",
    "Jbo.Make.wraps_keep"
   ],
   "note": "made: links, children and starts after the parser; ancestors: the way up after expand_bahe_ui, whose steps are modelled one by one (wrap); compressed: the loop of compress_children, in place."
  },
  {
   "property": "C106",
   "status": "proved",
   "theorems": [
    "Jbo.EliTab.can_shift_exact",
    "Jbo.EliTab.subscript_exact",
    "Jbo.EliTab.single_subscript",
    "Jbo.EliTab.below_table",
    "Jbo.EliTab.grammar_of_report"
   ],
   "note": "The end of the input has the code 0, which is below the table: below_table says what is read then."
  },
  {
   "property": "C107",
   "status": "proved",
   "theorems": [
    "Jbo.Uncom.comments_gone",
    "Jbo.Uncom.text_unchanged",
    "Jbo.Uncom.unclosed_lost",
    "Jbo.Uncom.not_idempotent"
   ],
   "note": "The rules are modelled by hand as longest match; that flex makes such a scanner of them is trusted."
  },
  {
   "property": "C108",
   "status": "proved",
   "theorems": [
    "Jbo.Embed.embedded_lookup",
    "Jbo.Embed.readTable_table",
    "Jbo.Embed.plain_line_same",
    "Jbo.Embed.lines_differ",
    "Jbo.Embed.backslash_breaks",
    "Jbo.Embed.backslash_lost"
   ],
   "note": "The hypothesis on backslashes is needed (backslash_breaks, backslash_lost); the sources in the repository have none."
  },
  {
   "property": "C109",
   "status": "proved",
   "theorems": [
    "Jbo.MkDict.dictionary_built",
    "Jbo.MkDict.rafsi_found",
    "Jbo.MkDict.gismu_line",
    "Jbo.MkDict.cmavo_line"
   ],
   "note": "dictionary_built: mkdict, dict2inc and the table together, for lists laid out in columns without ':', quotes, backslashes. rafsi_found: the same with any further clean sources that are silent about the key."
  },
  {
   "property": "C11",
   "status": "proved",
   "theorems": [
    "Jbo.Lex2.zei_joins",
    "Jbo.Lex2.zei_free",
    "Jbo.Lex2.zei_leading_bad",
    "Jbo.Lex2.zei_trailing_bad",
    "Jbo.Lex2.zei_final_bad"
   ],
   "note": ""
  },
  {
   "property": "C110",
   "status": "proved",
   "theorems": [
    "Jbo.CanonTab.same_as_dictionary",
    "Jbo.CanonTab.component_found",
    "Jbo.CanonTab.table_sorted",
    "Jbo.CanonTab.six_letters_differ"
   ],
   "note": "The hypothesis of five letters is needed (six_letters_differ). bsearch is any function with the contract of the C standard."
  },
  {
   "property": "C111",
   "status": "partial",
   "theorems": [
    "Jbo.Rtg.pick_each_partial",
    "Jbo.Rtg.last_never",
    "Jbo.Rtg.pick_mem",
    "Jbo.Rtg.pickAll_each",
    "Jbo.Rtg.text_words",
    "Jbo.Rtg.text_lines"
   ],
   "note": "False of the code for the last word of each list: pick multiplies by the last index instead of the number of words (last_never), so ji, ke'i, ba, vu, zu and others are never said. BAI and CAhA, which use the number of words, reach all (pickAll_each)."
  },
  {
   "property": "C112",
   "status": "partial",
   "theorems": [
    "Jbo.DfaScan.scan_laid_partial",
    "Jbo.DfaScan.scan_tokens",
    "Jbo.DfaScan.block_lags",
    "Jbo.DfaScan.last_comment_read",
    "Jbo.DfaScan.empty_string_lost",
    "Jbo.DfaScan.string_lags"
   ],
   "note": "Proved for files without %{ and with strings on one line (scan_laid_partial); the tokens alone for all strings (scan_tokens). False in general: after a %{ block the numbers are two short (block_lags), line ends in strings are not counted (string_lags), a comment on a last line without end is read as tokens (last_comment_read), the empty string is no token (empty_string_lost)."
  },
  {
   "property": "C113",
   "status": "proved",
   "theorems": [
    "Jbo.ListGloss.lujvo_from_lists"
   ],
   "note": "Composition of dictionary_built (C109) and lujvo_meant_partial (C96); conversions are excluded here because of the defects of C96."
  },
  {
   "property": "C114",
   "status": "proved",
   "theorems": [
    "Jbo.DfaExpr.parse_reads",
    "Jbo.DfaExpr.one_meaning"
   ],
   "note": "Shift-reduce parser with the conflict rules of bison against a grammar in layers, both directions."
  },
  {
   "property": "C115",
   "status": "proved",
   "theorems": [
    "Jbo.DfaParse.parse_file",
    "Jbo.DfaParse.one_reading",
    "Jbo.DfaParse.text_read"
   ],
   "note": "Predictive reading of the conflict-free rules against the written form, both directions; expressions by C114, texts by C112. The tables of bison are not modelled."
  },
  {
   "property": "C116",
   "status": "proved",
   "theorems": [
    "Jbo.Bc.text_source",
    "Jbo.Morf.text_source",
    "Jbo.DfaSrc.source_order",
    "Jbo.DfaSrc.ident_inj",
    "Jbo.DfaSrc.bc_inOrder",
    "Jbo.DfaSrc.stag_inOrder",
    "Jbo.DfaSrc.morf_inOrder",
    "Jbo.DfaSrc.bc_distinct",
    "Jbo.DfaSrc.stag_distinct",
    "Jbo.DfaSrc.morf_distinct"
   ],
   "note": "The texts are the bytes of the files as literals; the kernel runs the models of C112, C114 and C115 on them. The assumptions of the model of blocks are checked for the three files."
  },
  {
   "property": "C117",
   "status": "proved",
   "theorems": [
    "Jbo.Stag.text_source",
    "Jbo.Stag.made",
    "Jbo.Stag.tables_recognise",
    "Jbo.Stag.tables_safe",
    "Jbo.Stag.no_token",
    "Jbo.Stag.categorize_tables"
   ],
   "note": "From the bytes of stag_nfa.in to the automaton that categorize_tenses runs; the language is the regular expression of CategSpec."
  },
  {
   "property": "C118",
   "status": "proved",
   "theorems": [
    "Jbo.Dfasyn.instantiate_copies",
    "Jbo.Dfasyn.instantiate_unknown",
    "Jbo.Dfasyn.compile_wf",
    "Jbo.DfaSrc.file_tables"
   ],
   "note": "Discharges the hypotheses of C49 about the NFA for every input file. The simplification of instantiate (no two instances of a block share a name) stays; DfaSrcOk checks it for the three files."
  },
  {
   "property": "C12",
   "status": "partial",
   "theorems": [
    "Jbo.Lex2.folding_conserves_partial",
    "Jbo.Lex2.bahe_conserves",
    "Jbo.Lex2.bahe_none_left",
    "Jbo.Lex2.pairing_maximal",
    "Jbo.Lex2.bahe_before_letter_lost",
    "Jbo.Lex2.bahe_before_nai_lost",
    "Jbo.Lex2.cuhi_nai_lost",
    "Jbo.Lex2.leading_bu_aborts"
   ],
   "note": "false as stated: three lossy patterns and one abort are proved; conservation proved for all texts avoiding them"
  },
  {
   "property": "C13",
   "status": "proved",
   "theorems": [
    "Jbo.Lex2.indicators_folded",
    "Jbo.Lex2.folded_unique"
   ],
   "note": ""
  },
  {
   "property": "C14",
   "status": "proved",
   "theorems": [
    "Jbo.Tree.expand_source_order",
    "Jbo.Tree.expand_all_visible",
    "Jbo.Tree.expand_plain",
    "Jbo.Tree.expand_twice_repeats"
   ],
   "note": "words of NAI/CAI attached to an indicator are properties of its leaf"
  },
  {
   "property": "C15",
   "status": "proved",
   "theorems": [
    "Jbo.Tree.compress_leaves",
    "Jbo.Tree.compress_compact",
    "Jbo.Tree.compress_idempotent",
    "Jbo.Tree.compress_exact",
    "Jbo.Tree.polish_append_injective"
   ],
   "note": ""
  },
  {
   "property": "C16",
   "status": "proved",
   "theorems": [
    "Jbo.Lex1.zoi_quote",
    "Jbo.Lex1.scan_nonempty",
    "Jbo.Lex1.zoi_unclosed_reported",
    "Jbo.Lex1.trailing_zoi_dropped",
    "Jbo.Lex1.long_delim_overflows",
    "Jbo.Lex1.zoi_text_not_character_exact"
   ],
   "note": "Word-level verbatim quotation for every morphology; three defects shown as theorems (trailing zoi, 64-byte delimiter buffer, digits rewritten)."
  },
  {
   "property": "C17",
   "status": "partial",
   "theorems": [
    "Jbo.Lex1.scan_positions_partial",
    "Jbo.Lex1.scan_words",
    "Jbo.Lex1.digit_position_stale",
    "Jbo.Lex1.pieces_glue",
    "Jbo.Lex1.piece_column"
   ],
   "note": "True for texts without digits and colons; false after a digit (witness)."
  },
  {
   "property": "C18",
   "status": "proved",
   "theorems": [
    "Jbo.Lex1.comment_is_space",
    "Jbo.Lex1.scan_ends_iff",
    "Jbo.Lex1.eof_in_comment_stuck",
    "Jbo.Lex1.eof_in_comment_forever",
    "Jbo.Lex1.scan_words"
   ],
   "note": "Comments act as a space; unclosed comment at EOF never ends."
  },
  {
   "property": "C19",
   "status": "proved",
   "theorems": [
    "Jbo.Lex1.hash_injective",
    "Jbo.Lex1.hash_safe",
    "Jbo.Lex1.lookup_iff",
    "Jbo.Lex1.cells_hash",
    "Jbo.Lex1.spelling_unique",
    "Jbo.Lex1.cells_code",
    "Jbo.Lex1.vae_has_moi_code",
    "Jbo.Lex1.hash_reads_outside",
    "Jbo.Lex1.hash_ignores_tail"
   ],
   "note": "Whole table transcribed and checked; out-of-range reads on malformed strings shown."
  },
  {
   "property": "C20",
   "status": "proved",
   "theorems": [
    "Jbo.Lujvo.best_is_minimum",
    "Jbo.Lujvo.makelujvo_spec",
    "Jbo.Lujvo.shown_spec",
    "Jbo.Lujvo.mem_forms"
   ],
   "note": "Any ordering qsort may produce is covered (SortedPerm). At or above 65536 choices the search is cut, which is in makelujvo_spec."
  },
  {
   "property": "C21",
   "status": "proved",
   "theorems": [
    "Jbo.Lujvo.visit_all",
    "Jbo.Lujvo.visit_spec",
    "Jbo.Lujvo.limit_warning_spurious"
   ],
   "note": "The warning is also printed when exactly 65536 choices were all visited (limit_warning_spurious)."
  },
  {
   "property": "C22",
   "status": "proved",
   "theorems": [
    "Jbo.Lujvo.makeOne_spec",
    "Jbo.Lujvo.every_form_valid"
   ],
   "note": "Score of each stored form equals Spec.score, which counts letters of the finished word."
  },
  {
   "property": "C23",
   "status": "proved",
   "theorems": [
    "Jbo.Lujvo.every_form_clean",
    "Jbo.Lujvo.clean_valid",
    "Jbo.Lujvo.every_form_valid"
   ],
   "note": "No forbidden pair or triple at any position of any stored form."
  },
  {
   "property": "C24",
   "status": "proved",
   "theorems": [
    "Jbo.Lujvo.valid_sound",
    "Jbo.Lujvo.valid_complete",
    "Jbo.Lujvo.cc_iff",
    "Jbo.Lujvo.valid_uninit",
    "Jbo.Lujvo.valid_accepts_bad_initial"
   ],
   "note": "Sound against the grammar with a medial pair allowed in a final CCVCV; two witnesses show the uninitialised read and that the final CCVCV pair is not tested as an initial pair."
  },
  {
   "property": "C25",
   "status": "proved",
   "theorems": [
    "Jbo.Lujvo.canon_glued",
    "Jbo.Lujvo.split_glued",
    "Jbo.Lujvo.canon_id",
    "Jbo.Lujvo.canon_idem",
    "Jbo.Lujvo.canon_of_maker",
    "Jbo.Lujvo.brod_read_back"
   ],
   "note": "Round trip with the maker; the only exception is the ambiguous brod, with a witness."
  },
  {
   "property": "C26",
   "status": "proved",
   "theorems": [
    "Jbo.Dfasyn.epsilonClosure_correct",
    "Jbo.Dfasyn.buildDfa_correct",
    "Jbo.Dfasyn.buildDfa_represents",
    "Jbo.Dfasyn.buildDfa_ambiguous_iff"
   ],
   "note": "Closure worklist, subset construction and evaluator; termination within 2^n states is part of the statement. Words beyond an early result are outside (the builder prunes there, see C29)."
  },
  {
   "property": "C27",
   "status": "partial",
   "theorems": [
    "Jbo.Dfasyn.compressDfa_correct_partial",
    "Jbo.Dfasyn.compressDfa_good",
    "Jbo.Dfasyn.attribute_of_nonaccepting_lost"
   ],
   "note": "For every qsort and every DFA: terminates, preserves jamming, result and the attribute of accepting states, and merges exactly the indistinguishable states. Attributes of non-accepting states are not preserved: that is false of the code, see the witness."
  },
  {
   "property": "C28",
   "status": "proved",
   "theorems": [
    "Jbo.Dfasyn.findDefaults_ok",
    "Jbo.Dfasyn.nextState_correct",
    "Jbo.Dfasyn.nextFlat_correct",
    "Jbo.Dfasyn.row_length",
    "Jbo.Dfasyn.token_number_truncated",
    "Jbo.Dfasyn.state_number_truncated"
   ],
   "note": "For every DFA that fits the C types of the tables (at most 256 tokens, 32768 states, 65535 entries). Beyond these limits the generated tables are wrong, see the two witnesses."
  },
  {
   "property": "C29",
   "status": "proved",
   "theorems": [
    "Jbo.Dfasyn.buildDfa_represents",
    "Jbo.Dfasyn.buildDfa_correct"
   ],
   "note": "On every word that a caller who stops at early results reads to the end, the pruned automaton shows the verdict of the unpruned NFA semantics."
  },
  {
   "property": "C30",
   "status": "proved",
   "theorems": [
    "Jbo.Dfasyn.eval_iff",
    "Jbo.Dfasyn.evaluateResult_iff",
    "Jbo.Dfasyn.evaluateResult_count",
    "Jbo.Dfasyn.wild_order",
    "Jbo.Dfasyn.recursion_iff",
    "Jbo.Dfasyn.cyclic_symbol_recursion"
   ],
   "note": "Relational semantics of expressions; cyclic symbol definitions make the C code recurse for ever (witness)."
  },
  {
   "property": "C31",
   "status": "partial",
   "theorems": [
    "Jbo.Dfasyn.signature_bound_partial",
    "Jbo.Dfasyn.signature_bound_false",
    "Jbo.Dfasyn.filter_hides_default",
    "Jbo.Dfasyn.no_default_reason",
    "Jbo.Dfasyn.countBitsSet_eq"
   ],
   "note": "The claim as stated (and as commented in tabcompr.c) is false; the bound with factor two is proved, with witnesses of the violation and of a hidden default. The filter only affects table size, not behaviour (C28)."
  },
  {
   "property": "C32",
   "status": "proved",
   "theorems": [
    "Jbo.Categ.categorize_words",
    "Jbo.Categ.categorize_unmarked"
   ],
   "note": "All nineteen passes modelled function by function. For every text: the same words come out, and no assertion fails, no search runs round the list, no null pointer is read except in the tense pass, exactly for the stuck texts; a text with nothing to mark is unchanged."
  },
  {
   "property": "C33",
   "status": "proved",
   "theorems": [
    "Jbo.Categ.tenses_spec",
    "Jbo.Categ.marked_unique",
    "Jbo.Categ.tenses_crash_iff",
    "Jbo.Categ.number_at_end_crashes",
    "Jbo.Categ.stagDfa_recognises"
   ],
   "note": "The language of stag_nfa.in is given as a regular expression; marking is the unique left to right longest match; the crash happens exactly for stuck texts, in particular for every text ending in a number after a word that is in no tense (a defect: li pa crashes)."
  },
  {
   "property": "C34",
   "status": "proved",
   "theorems": [
    "Jbo.Memory.statistics_exact",
    "Jbo.Memory.inUse_mod"
   ],
   "note": "64-bit counters; exact below 2^64, modulo 2^64 otherwise."
  },
  {
   "property": "C35",
   "status": "proved",
   "theorems": [
    "Jbo.Trans.splitComps_spec",
    "Jbo.Trans.placeOf_inverse",
    "Jbo.Trans.placeOf_twice",
    "Jbo.Trans.table_perm",
    "Jbo.Trans.canon_fits",
    "Jbo.Trans.many_parts_overflow",
    "Jbo.Trans.tu2Conv_spec",
    "Jbo.Trans.tu2Conv_met",
    "Jbo.Trans.placeThrough_convs"
   ],
   "note": "Components and place tables of lujvo, and conversions met on the way outward in the tree. Words of at most 98 letters fit the array of 32 components; a lujvo of 33 parts overflows it."
  },
  {
   "property": "C36",
   "status": "proved",
   "theorems": [
    "Jbo.Mt.getmt_is_mt19937",
    "Jbo.Mt.getmt_fits",
    "Jbo.Mt.seed_upper_half",
    "Jbo.Mt.seeded_exists",
    "Jbo.Mt.seeded_unique",
    "Jbo.Mt.reloadMem_ok",
    "Jbo.Mt.seed_not_reference"
   ],
   "note": "every output for every seed, with bounds of the array; the seeding differs from the reference one (seed_not_reference). The bytes written by main are not modelled."
  },
  {
   "property": "C37",
   "status": "proved",
   "theorems": [
    "Jbo.Cm.textBlocks_spec",
    "Jbo.Cm.row_length",
    "Jbo.Cm.entry_column",
    "Jbo.Cm.fill_flatten",
    "Jbo.Cm.fill_width",
    "Jbo.Cm.fill_tight",
    "Jbo.Cm.fill_unique",
    "Jbo.Cm.textBlocks_ok",
    "Jbo.Cm.long_paren_overflows"
   ],
   "note": "Overflow of the 512 byte buffers characterised exactly."
  },
  {
   "property": "C38",
   "status": "proved",
   "theorems": [
    "Jbo.Cm.tryFragment_spec",
    "Jbo.Cm.tryFragment_covers",
    "Jbo.Cm.cover_pieces",
    "Jbo.Cm.cover_unique",
    "Jbo.Cm.known_cmavo",
    "Jbo.Cm.unknown_cmavo",
    "Jbo.Cm.selmao_overflow",
    "Jbo.Cm.doNode_text",
    "Jbo.Cm.other_words",
    "Jbo.Cm.bare_vowel_reads_out",
    "Jbo.Cm.dotted_vowel_not_found"
   ],
   "note": "The dictionary is a parameter. The read before the buffer is characterised exactly (Bare)."
  },
  {
   "property": "C39",
   "status": "proved",
   "theorems": [
    "Jbo.Elide.same_words",
    "Jbo.Elide.skipping_early"
   ],
   "note": "Any text, any grammar table and any interleaving of yylex calls, shifts, reductions and skips that the run survives. Hypothesis: words are skipped after an error only when the last word read is not elidable; skipping_early shows that it is needed."
  },
  {
   "property": "C40",
   "status": "proved",
   "theorems": [
    "Jbo.Morf.starts_partition",
    "Jbo.Morf.CutInto.increasing",
    "Jbo.Morf.no_letters_no_start"
   ],
   "note": "starts_partition: the reported positions cut the word into consecutive nonempty pieces; the tables are any that dfasyn makes from morf_nfa.in. no_letters_no_start: a word of commas only has no start (then *buf_end points before the array)."
  },
  {
   "property": "C41",
   "status": "proved",
   "theorems": [
    "Jbo.Morf.commas",
    "Jbo.Morf.case_only_flag",
    "Jbo.Morf.caps_effect"
   ],
   "note": "the whole result, not only the state: commas only move positions, case matters only through the capitals flag, whose effect is given by Capital"
  },
  {
   "property": "C42",
   "status": "proved",
   "theorems": [
    "Jbo.Bc.bad_cmene_exact",
    "Jbo.Bc.says_unique",
    "Jbo.Bc.accepted_iff",
    "Jbo.Bc.bad_cmene_letters",
    "Jbo.Bc.no_letters_unset",
    "Jbo.Bc.reads_outside",
    "Jbo.Bc.tables_exist"
   ],
   "note": "is_bad_cmene on the tables that dfasyn makes from bctables.in (source text modelled, compiled and certified in the kernel), for any qsort, with or without -ud"
  },
  {
   "property": "C43",
   "status": "partial",
   "theorems": [
    "Jbo.Dict.doFile_line",
    "Jbo.Dict.doFile_comment",
    "Jbo.Dict.doFile_unterminated_truncates"
   ],
   "note": "Holds for newline-terminated lines; the unterminated last line loses a byte (shown)."
  },
  {
   "property": "C44",
   "status": "partial",
   "theorems": [
    "Jbo.Tree.print_balanced",
    "Jbo.Tree.render_matches",
    "Jbo.Tree.print_apart",
    "Jbo.Tree.print_mirrors_partial",
    "Jbo.Tree.print_words_partial",
    "Jbo.Tree.pei_nai_not_shown",
    "Jbo.Tree.cai_cai_not_shown",
    "Jbo.Tree.fuho_nai_not_shown"
   ],
   "note": "nesting and separation for all trees; word fidelity for leaves the printer can show (three witnesses of lost words); glossing not modelled"
  },
  {
   "property": "C45",
   "status": "proved",
   "theorems": [
    "Jbo.Tree.display_injective"
   ],
   "note": "lines modelled as (kind, content, indent), not characters"
  },
  {
   "property": "C46",
   "status": "proved",
   "theorems": [
    "Jbo.Lujvo.makelujvo_ok_iff",
    "Jbo.Lujvo.long_word_overflows"
   ],
   "note": ""
  },
  {
   "property": "C47",
   "status": "proved",
   "theorems": [
    "Jbo.Lujvo.star_iff",
    "Jbo.Lujvo.flag_lost_iff",
    "Jbo.Lujvo.annotate_eq"
   ],
   "note": ""
  },
  {
   "property": "C48",
   "status": "proved",
   "theorems": [
    "Jbo.Lujvo.short_ok",
    "Jbo.Lujvo.long_ok",
    "Jbo.Lujvo.r2g_sorted",
    "Jbo.Lujvo.lookup_of_mem",
    "Jbo.Lujvo.source_allowed"
   ],
   "note": "Complete finite tables."
  },
  {
   "property": "C49",
   "status": "proved",
   "theorems": [
    "Jbo.Dfasyn.generated_correct",
    "Jbo.Dfasyn.dfasyn_ends",
    "Jbo.Dfasyn.tabRun_eq"
   ],
   "note": "End to end over closure, subset construction, merging, default states and bisection tables; the attribute is guaranteed where there is a result, or everywhere with -ud (see C27)."
  },
  {
   "property": "C50",
   "status": "proved",
   "theorems": [
    "Jbo.Categ.markFree_iff",
    "Jbo.Categ.number_mai_not_flagged"
   ],
   "note": "A defect: the marker case is dead. Both directions over all lists."
  },
  {
   "property": "C51",
   "status": "proved",
   "theorems": [
    "Jbo.Categ.categorize_places",
    "Jbo.Categ.categorize_complete",
    "Jbo.Categ.categorize_exact",
    "Jbo.Categ.late_unique"
   ],
   "note": "Place for every marker kind; completeness as equal counts for the connective markers; exactness of the eleven passes from ibo on as a deterministic specification (Late), and of the gek pass as a count."
  },
  {
   "property": "C52",
   "status": "proved",
   "theorems": [
    "Jbo.Trans.makePlural_spec",
    "Jbo.Trans.appendEr_spec",
    "Jbo.Trans.appendIng_spec",
    "Jbo.Trans.makePlural_no_star",
    "Jbo.Trans.appendEr_no_star",
    "Jbo.Trans.appendIng_no_star",
    "Jbo.Trans.basicTrans_spec",
    "Jbo.Trans.qualifier_keeps_star",
    "Jbo.Trans.substance_keeps_star"
   ],
   "note": "Glosses with stars in other positions are outside the statement; the buffers of 65536 bytes are not modelled."
  },
  {
   "property": "C53",
   "status": "proved",
   "theorems": [
    "Jbo.Trans.fixTrans_table",
    "Jbo.Trans.fixTrans_none",
    "Jbo.Trans.fixTrans_plain"
   ],
   "note": "The table is stated for words without stars; with stars C52 applies."
  },
  {
   "property": "C54",
   "status": "proved",
   "theorems": [
    "Jbo.Trans.direct_order",
    "Jbo.Trans.adv_entry",
    "Jbo.Trans.adv_explicit",
    "Jbo.Trans.adv_redirect",
    "Jbo.Trans.adv_zero",
    "Jbo.Trans.adv_circle",
    "Jbo.Trans.self_redirect",
    "Jbo.Trans.adv_le",
    "Jbo.Trans.adv_stable",
    "Jbo.Trans.templateCut_shorter",
    "Jbo.Trans.adv_terminates",
    "Jbo.Trans.adv_bad_class",
    "Jbo.Trans.prefix_reads_out",
    "Jbo.Trans.percent_reads_out",
    "Jbo.Trans.sixth_place_reads_out",
    "Jbo.Trans.bad_class_crashes",
    "Jbo.Trans.adv_headword",
    "Jbo.Trans.adv_uncertain"
   ],
   "note": "The dictionary and morf_scan are parameters."
  },
  {
   "property": "C55",
   "status": "proved",
   "theorems": [
    "Jbo.Trans.suffix_cut",
    "Jbo.Trans.prefix_cut",
    "Jbo.Trans.precOrder_spec",
    "Jbo.Trans.precs_first",
    "Jbo.Trans.template_none",
    "Jbo.Trans.template_some",
    "Jbo.Trans.substBase_spec",
    "Jbo.Trans.transLujvo_spec",
    "Jbo.Trans.prefixParts_spec",
    "Jbo.Trans.fuivla_spec"
   ],
   "note": "The dictionary and morf_scan are parameters."
  },
  {
   "property": "C56",
   "status": "proved",
   "theorems": [
    "Jbo.Morf.brivla_splits"
   ],
   "note": "for the tables that dfasyn makes from morf_nfa.in"
  },
  {
   "property": "C57",
   "status": "proved",
   "theorems": [
    "Jbo.Morf.cmavos_split"
   ],
   "note": "for the tables that dfasyn makes from morf_nfa.in"
  },
  {
   "property": "C58",
   "status": "proved",
   "theorems": [
    "Jbo.Morf.scan_safe",
    "Jbo.Morf.name_answer",
    "Jbo.Morf.byyn_crashes"
   ],
   "note": "byyn_crashes shows that the exception is real"
  },
  {
   "property": "C59",
   "status": "proved",
   "theorems": [
    "Jbo.Elide.minimal_exact",
    "Jbo.Elide.guarded_covers",
    "Jbo.Elide.report_covers",
    "Jbo.Elide.all_or_patterns"
   ],
   "note": "The specification of a sufficient set (Guarded) speaks of hazards only and does not mention the search."
  },
  {
   "property": "C60",
   "status": "proved",
   "theorems": [
    "Jbo.Elide.monitor_reports",
    "Jbo.Elide.subscript_overflow"
   ],
   "note": "Valid describes the order of events of a Bison parser (ask for a word when there is none, shift when there is one); monitor_reports proves safety when no subscript is reduced on a full buffer, subscript_overflow is the failing run."
  },
  {
   "property": "C61",
   "status": "partial",
   "theorems": [
    "Jbo.Elide.monitor_reports",
    "Jbo.Elide.elidable_iff",
    "Jbo.Elide.boi_iff",
    "Jbo.Elide.marker_iff",
    "Jbo.Elide.number_flag_partial",
    "Jbo.Elide.number_flag_missed",
    "Jbo.Elide.number_flag_stale"
   ],
   "note": "Everything is proved except what the flag prev_token_was_pa_etc means: it is right when the previous buffer held one word (number_flag_partial) and wrong in general: number_flag_missed (boi reported omittable between two numbers) and number_flag_stale (an old number held against a later boi)."
  },
  {
   "property": "C62",
   "status": "proved",
   "theorems": [
    "Jbo.Morf.lujvo_exact",
    "Jbo.Morf.lujvo_exact_front",
    "Jbo.Morf.last_word_exact"
   ],
   "note": "The grammar is Spec.IsLujvo (LujvoSpec, MorfLujvoSpec). The product of the compiled scanner automaton, the letter tables and an automaton for the grammar is certified in the kernel; invariants over every word."
  },
  {
   "property": "C63",
   "status": "proved",
   "theorems": [
    "Jbo.Morf.gismu_exact",
    "Jbo.Morf.gismu_exact_front",
    "Jbo.Morf.last_word_exact"
   ],
   "note": "Same product as C62."
  },
  {
   "property": "C64",
   "status": "proved",
   "theorems": [
    "Jbo.Lujvo.every_form_lujvo",
    "Jbo.Lujvo.made_is_read"
   ],
   "note": "Uses C22/C23 (forms are lujvo) and C62."
  },
  {
   "property": "C65",
   "status": "proved",
   "theorems": [
    "Jbo.Terms.labels_exact",
    "Jbo.Terms.places_exact",
    "Jbo.Terms.places_total",
    "Jbo.Terms.places_det",
    "Jbo.Terms.bare_distinct"
   ],
   "note": "limits are in the statement; twenty_terms and twenty_jai show reads past the arrays just beyond them"
  },
  {
   "property": "C66",
   "status": "partial",
   "theorems": [
    "Jbo.Terms.jai_places_partial",
    "Jbo.Terms.jai_label_wrong",
    "Jbo.Terms.jai_held_wrong"
   ],
   "note": "false of the code: a jai alone still shows x1 for the new place, and jai around a selbri whose first place is filled with be fa leaves the mark of the filled place; proved for the rest"
  },
  {
   "property": "C67",
   "status": "partial",
   "theorems": [
    "Jbo.Terms.statement_exact_partial",
    "Jbo.Terms.statement_labels_partial",
    "Jbo.Terms.bridi_shares_partial",
    "Jbo.Terms.abstraction_labels_partial",
    "Jbo.Terms.relative_labels_partial",
    "Jbo.Terms.ke_uninit",
    "Jbo.Terms.Ex.ke_witness"
   ],
   "note": "false of the code: gi'e ke without terms after it passes a vector that was never assigned (ke_uninit, for all such trees); proved for all other trees within the limits of C65"
  },
  {
   "property": "C68",
   "status": "proved",
   "theorems": [
    "Jbo.Terms.conversion_exact",
    "Jbo.Terms.conversion_jai",
    "Jbo.Terms.conversion_label"
   ],
   "note": ""
  },
  {
   "property": "C69",
   "status": "proved",
   "theorems": [
    "Jbo.Terms.selbri_jobs",
    "Jbo.Terms.selbri_labels"
   ],
   "note": "units with cei are not labelled by the program; the specification says so"
  },
  {
   "property": "C70",
   "status": "partial",
   "theorems": [
    "Jbo.Gram.text_labels_partial",
    "Jbo.Gram.sb_read",
    "Jbo.Gram.br_read"
   ],
   "note": "Holds for every tree of the grammar whose sentences have at most 14 terms and 19 conversions, no jai, and terms after gi'e ... ke; outside these limits the program overruns its arrays or uses a vector without a value (C66, C67)."
  },
  {
   "property": "C71",
   "status": "partial",
   "theorems": [
    "Jbo.Connect.connectives_partial",
    "Jbo.Connect.connectives_any",
    "Jbo.Connect.pattern_shown",
    "Jbo.Connect.jaha_negated"
   ],
   "note": "Full statement is false: ja'a before a connective is taken for na (jaha_negated). connectives_partial: the statement for texts without ja'a in a connective; connectives_any: for all texts with every word of NA negating."
  },
  {
   "property": "C72",
   "status": "partial",
   "theorems": [
    "Jbo.Tenses.tenses_partial",
    "Jbo.Tenses.tenses_any",
    "Jbo.Tenses.subscript_loses_context"
   ],
   "note": "Full statement is false: a tense with a free modifier after it gets no context (subscript_loses_context). tenses_partial: the statement for texts without such; tenses_any: for all texts with the mute nodes as the code has them."
  },
  {
   "property": "C73",
   "status": "partial",
   "theorems": [
    "Jbo.Relative.relatives_partial",
    "Jbo.Relative.relatives_any",
    "Jbo.Relative.goi_takes_keha"
   ],
   "note": "Proved in full for texts in which no ke'a stands right in a phrase with GOI; with one, ke'a is linked to that phrase instead of the clause with NOI (goi_takes_keha). relatives_any says exactly what is linked on all trees."
  },
  {
   "property": "C74",
   "status": "proved",
   "theorems": [
    "Jbo.Errscan.warned"
   ],
   "note": "All trees of the grammar."
  },
  {
   "property": "C75",
   "status": "partial",
   "theorems": [
    "Jbo.Convert.se_bai_partial",
    "Jbo.Convert.se_bai_any",
    "Jbo.Convert.marked_bai_lost"
   ],
   "note": "Proved in full for texts in which no word of BAI has an indicator or ba'e; with one the place is hung on the wrong node and is lost (marked_bai_lost). se_bai_any says exactly what is hung where on all trees."
  },
  {
   "property": "C76",
   "status": "partial",
   "theorems": [
    "Jbo.Convert.places_partial",
    "Jbo.Convert.places_any",
    "Jbo.Convert.bo_converted",
    "Jbo.Convert.guhe_not_converted"
   ],
   "note": "Proved in full for texts without bo and forethought connections in tanru; the two witnesses show that it is false with them. places_any says exactly which place is computed on all trees."
  },
  {
   "property": "C77",
   "status": "partial",
   "theorems": [
    "Jbo.Convert.forms_partial",
    "Jbo.Convert.forms_any",
    "Jbo.Convert.marked_jai_lost"
   ],
   "note": "Proved in full for texts in which no JAI has an indicator or ba'e; with one the form is hung on the wrong node (marked_jai_lost). forms_any says exactly what is hung where on all trees."
  },
  {
   "property": "C78",
   "status": "partial",
   "theorems": [
    "Jbo.Convert.tertau_partial",
    "Jbo.Convert.tertau_any",
    "Jbo.Convert.bo_tertau",
    "Jbo.Convert.marked_zei_lost"
   ],
   "note": "False for A bo B (bo_tertau), for zei-lujvo with an indicator (marked_zei_lost) and for JAI with a tag and an indicator; proved without these, and tertau_any says exactly what happens on all trees."
  },
  {
   "property": "C79",
   "status": "proved",
   "theorems": [
    "Jbo.Output.display",
    "Jbo.Output.display_words",
    "Jbo.Output.display_nested",
    "Jbo.Output.display_ends"
   ],
   "note": "display_ends: the output ends when the connectives are those of connectives_processing; the other three hold for whatever ends. Numbers of nodes stand for addresses, so display_ends asks that they differ."
  },
  {
   "property": "C80",
   "status": "partial",
   "theorems": [
    "Jbo.Output.numbers_run",
    "Jbo.Output.reference_numbered",
    "Jbo.Output.keha_refers_partial",
    "Jbo.Output.keha_number",
    "Jbo.Output.owner_unnumbered"
   ],
   "note": "Numbering and uniqueness are proved in full; the reference of ke'a for all antecedents but the sumti between le and the clause, which never gets a bracket, so that #0 is shown (owner_unnumbered)."
  },
  {
   "property": "C81",
   "status": "partial",
   "theorems": [
    "Jbo.TextBlk.blocks_show_tree",
    "Jbo.TextBlk.display_blocks",
    "Jbo.TextBlk.output_ordered",
    "Jbo.TextBlk.blocks_lojban",
    "Jbo.TextBlk.blocks_english",
    "Jbo.TextBlk.render_even",
    "Jbo.TextBlk.display_fits_partial",
    "Jbo.TextBlk.long_word_overflows",
    "Jbo.TextBlk.wide_overflows",
    "Jbo.TextBlk.labels_lost",
    "Jbo.TextBlk.gap_early",
    "Jbo.TextBlk.brackets_mirror",
    "Jbo.TextBlk.brackets_differ",
    "Jbo.TextBlk.texts_kept",
    "Jbo.TextBlk.breaks_shown"
   ],
   "note": "Layout, completeness and width are proved for every tree of the grammar, given that the driver does not write outside of its buffers.  The last clause is false: a word of 511 characters always overflows, and so can a width above 511 (witnesses); display_fits_partial proves it for widths up to 511 and blocks that fit."
  },
  {
   "property": "C82",
   "status": "proved",
   "theorems": [
    "Jbo.Flow.flow_shows_tree",
    "Jbo.Flow.texts_apart",
    "Jbo.Flow.pieces_seen",
    "Jbo.Flow.pieces_glosses",
    "Jbo.Flow.pieces_labels",
    "Jbo.Flow.latex_marks_differ",
    "Jbo.Flow.words_printed",
    "Jbo.Flow.glosses_printed",
    "Jbo.Flow.labels_printed",
    "Jbo.Flow.numbers_printed",
    "Jbo.Flow.text_marks",
    "Jbo.Flow.latex_marks",
    "Jbo.Flow.html_marks",
    "Jbo.Flow.specials"
   ],
   "note": "The pieces given out, with white space between any two texts. Found: plain text prints the same mark for ceil and floor, opened and closed (text_marks_alike), HTML prints ceil and floor as round (html_marks_alike), and a word leaves pending ends of line pending (word_keeps_eols)."
  },
  {
   "property": "C83",
   "status": "partial",
   "theorems": [
    "Jbo.Flow.html_nested_partial",
    "Jbo.Flow.htmlsafe_escapes_partial",
    "Jbo.Flow.htmlsafe_overruns",
    "Jbo.Flow.jai_label_unclosed",
    "Jbo.Flow.lojban_raw"
   ],
   "note": "False in general: every gloss with &, < or > runs out of the buffer of make_htmlsafe (htmlsafe_overruns), Lojban text and labels of jai are printed raw. Proved: if a page is printed and raw texts have no < and >, the body is well nested; plain glosses come out as they should."
  },
  {
   "property": "C84",
   "status": "partial",
   "theorems": [
    "Jbo.Flow.latex_clean_partial",
    "Jbo.Flow.texsafe_typeset",
    "Jbo.Flow.texsafe_clean",
    "Jbo.Flow.jai_label_hash",
    "Jbo.Flow.texsafe_backslash",
    "Jbo.Flow.texSafe_iff"
   ],
   "note": "False in general: the # of labels of jai is bare, Lojban text is raw, backslash and $ in glosses are not escaped. Proved for texts without these."
  },
  {
   "property": "C85",
   "status": "partial",
   "theorems": [
    "Jbo.LatexBlk.conserved",
    "Jbo.LatexBlk.shows_tree_partial",
    "Jbo.LatexBlk.trailing_word_lost",
    "Jbo.LatexBlk.last_i_lost",
    "Jbo.LatexBlk.block_clean_partial",
    "Jbo.LatexBlk.block_label_hash",
    "Jbo.LatexBlk.block_printed",
    "Jbo.LatexBlk.brackets_printed"
   ],
   "note": "False in general: the epilogue flushes no block, so a word after the last bracket is never printed (trailing_word_lost; the text mi klama .i, last_i_lost), and the # of labels of jai is bare. Proved: what is printed followed by the buffers is all that was given; all words and glosses are printed if none comes after the last bracket; TeX reads it for texts without special characters. Labels whose text never comes stay in their buffer."
  },
  {
   "property": "C86",
   "status": "partial",
   "theorems": [
    "Jbo.Output.labels_refer_partial",
    "Jbo.Output.processing_good",
    "Jbo.Output.zei_numbered",
    "Jbo.Output.moi_unnumbered"
   ],
   "note": "For all labels except that of a term linked with be/bei to a number with moi; there the claim is false (moi_unnumbered: the label shows #0)."
  },
  {
   "property": "C87",
   "status": "proved",
   "theorems": [
    "Jbo.Gloss.gloss_first",
    "Jbo.Gloss.bai_gloss",
    "Jbo.Gloss.koha_gloss",
    "Jbo.Gloss.role_gloss",
    "Jbo.Gloss.plain_brivla_gloss",
    "Jbo.Gloss.indicator_gloss",
    "Jbo.Gloss.cluster_gloss",
    "Jbo.Gloss.cmavoText_words",
    "Jbo.Gloss.time_offset_gloss",
    "Jbo.Gloss.jai_bai",
    "Jbo.Gloss.offset_dropped",
    "Jbo.Gloss.quote_gloss",
    "Jbo.Gloss.zei_gloss",
    "Jbo.Gloss.pattern_gloss"
   ],
   "note": "One theorem for each kind of word; role_gloss leads to adv_translate, whose choice is C54. Defects: a word in BAI after jai is marked (CONV?) without a conversion (jai_bai); a tense such as puzi without a context has no gloss although one is found (offset_dropped); an indicator without an entry loses the gloss of its degree (indicator_gloss)."
  },
  {
   "property": "C88",
   "status": "partial",
   "theorems": [
    "Jbo.Gloss.spelling",
    "Jbo.Gloss.shown_stopped",
    "Jbo.Gloss.display_spelled",
    "Jbo.Gloss.indicators_shown_partial",
    "Jbo.Gloss.nai_lost"
   ],
   "note": "The spelling is complete. That no word of an indicator is lost is false: nai after cu'i that belongs to an indicator, and nai or a degree after y, da'o, fu'e and fu'o, are not shown (nai_lost); indicators_shown_partial proves the rest."
  },
  {
   "property": "C89",
   "status": "partial",
   "theorems": [
    "Jbo.Gloss.word_fits_partial",
    "Jbo.Gloss.zoi_fits",
    "Jbo.Gloss.lohu_overflow",
    "Jbo.Gloss.entry_overflow",
    "Jbo.Gloss.number_overflow",
    "Jbo.Gloss.degree_missing",
    "Jbo.Gloss.uipeinai"
   ],
   "note": "False as stated: long quotations, long entries and long numbers before moi run over, and ui pei nai reads a null pointer because no file of the dictionary has peinai. word_fits_partial gives a bound under which it holds."
  },
  {
   "property": "C90",
   "status": "proved",
   "theorems": [
    "Jbo.Gloss.format_number",
    "Jbo.Gloss.format_plain",
    "Jbo.Gloss.format_undefined",
    "Jbo.Gloss.format_twice",
    "Jbo.Gloss.label_me",
    "Jbo.Gloss.label_moi",
    "Jbo.Gloss.label_other"
   ],
   "note": "For entries with at most one percent sign, in %d; format_undefined and format_twice prove that other entries make sprintf read an argument that is not there."
  },
  {
   "property": "C91",
   "status": "partial",
   "theorems": [
    "Jbo.Main.command_line_partial",
    "Jbo.Main.options_read",
    "Jbo.Main.first_stop",
    "Jbo.Main.all_read",
    "Jbo.Main.atoi_number",
    "Jbo.Main.width_missing"
   ],
   "note": "False as stated: -w as the last argument makes atoi read a null pointer (width_missing). command_line_partial is the claim for all other command lines; all_read says that there are no more cases."
  },
  {
   "property": "C92",
   "status": "proved",
   "theorems": [
    "Jbo.Main.shown_when_good",
    "Jbo.Main.status_of",
    "Jbo.Main.passes_in_order"
   ],
   "note": "Passes that crash are excluded here; which trees they fail on is C65-C80."
  },
  {
   "property": "C93",
   "status": "partial",
   "theorems": [
    "Jbo.Convert.form_unset",
    "Jbo.Convert.form_known_partial",
    "Jbo.Convert.vocative_unset"
   ],
   "note": "False of the code: after a vocative (doi broda), ni'e and na'u the record is made by selbri_scan and in_selbri is read without a value. form_unset says at exactly which words; form_known_partial proves the claim for texts without such words."
  },
  {
   "property": "C94",
   "status": "partial",
   "theorems": [
    "Jbo.Pipeline.passes_end",
    "Jbo.Pipeline.whole_ends",
    "Jbo.Pipeline.whole_shown_partial",
    "Jbo.Pipeline.whole_brackets",
    "Jbo.Pipeline.whole_words",
    "Jbo.Pipeline.whole_labels_partial",
    "Jbo.Pipeline.whole_keha_partial",
    "Jbo.Pipeline.whole_fits_partial",
    "Jbo.Pipeline.bai_place",
    "Jbo.Pipeline.jai_tags"
   ],
   "note": "The only pass that may not end is terms_processing (C65-C67); all others and the display then end for every tree. Glosses and labels that do not fit their buffers are the subject of C89 and are asked not to occur. Labels with the number before moi at linked terms, and ke'a with a bare koha as antecedent, are excluded as in C86 and C80."
  },
  {
   "property": "C95",
   "status": "proved",
   "theorems": [
    "Jbo.Output.Labels.display_labels",
    "Jbo.Pipeline.whole_terms"
   ],
   "note": "display_labels: whatever the labels; whole_terms: the labels of terms_processing, with words, numbers and places. Labels whose text overflows its buffer are left out of the model of the display (C89)."
  },
  {
   "property": "C96",
   "status": "partial",
   "theorems": [
    "Jbo.CmTrans.lujvo_glossed",
    "Jbo.CmTrans.lujvo_meant_partial",
    "Jbo.CmTrans.lujvo_leading",
    "Jbo.CmTrans.conversion_spreads"
   ],
   "note": "lujvo_glossed says exactly what the gloss of every lujvo is. The claim fails for lujvo that begin with a conversion (a hyphen stands first) and for a conversion before a rafsi (it is applied to every later component): lujvo_leading, conversion_spreads."
  },
  {
   "property": "C97",
   "status": "proved",
   "theorems": [
    "Jbo.CmTrans.lujvo_not_fuivla",
    "Jbo.CmTrans.fuivla_glossed",
    "Jbo.CmTrans.lujvo_ends",
    "Jbo.CmTrans.unknown_fits",
    "Jbo.CmTrans.not_fuivla"
   ],
   "note": "Of the rules for initial pairs only that l, n and r do not begin one is used."
  },
  {
   "property": "C98",
   "status": "proved",
   "theorems": [
    "Jbo.CmScan.accepts_iff",
    "Jbo.CmScan.lang_CM",
    "Jbo.CmScan.lang_name",
    "Jbo.CmScan.lang_BM",
    "Jbo.CmScan.cluster_no_cmavo",
    "Jbo.CmScan.word_found",
    "Jbo.CmScan.is_some",
    "Jbo.CmScan.is_unique",
    "Jbo.CmScan.text_words",
    "Jbo.CmScan.gismu_found",
    "Jbo.CmScan.lujvo_found"
   ],
   "note": "The rules are modelled as regular expressions with longest match and first rule; that flex makes such a scanner of them is trusted."
  },
  {
   "property": "C99",
   "status": "proved",
   "theorems": [
    "Jbo.CmScan.some_rule",
    "Jbo.CmScan.scan_all",
    "Jbo.CmScan.brackets_found",
    "Jbo.CmScan.scan_mono"
   ],
   "note": ""
  }
 ]
}
