# Formal model of jbofihe in Lean 4

Everything lives in `lean/Verif/`.  The C code in `/repo` is read as text and never run; each Lean
definition cites the file and lines it models, and says so where it simplifies.

* `Verif/<Area>.lean` – the model: total, executable functions, one for each C function;
* `Verif/<Area>Spec.lean` – a small specification that does not use the model's helpers;
* `Verif/<Area>…Lemmas/Abs/Inv/Cert.lean` – helper lemmas, invariants, certificates checked in the kernel;
* `Verif/<Area>…Thm.lean` – the theorems named in `MANIFEST.json`, each with an `example` that meets its
  hypotheses in a non-trivial way.

## Trusted base

* Lean's kernel.  Every theorem depends on no axioms other than `propext`, `Classical.choice` and `Quot.sound`.
  There is no `sorry`, no own axiom, no `native_decide` or `bv_decide`.  `decide +kernel` is used for whole
  finite tables (the cmavo table, the rafsi tables, the consonant pairs), for certificates about automata, and
  for closed witnesses of defects.
* The transcription of C into Lean.  C strings are lists of characters or bytes without the NUL, linked
  lists are lists (or zippers), arrays are lists or functions.  The comment on each definition gives the
  lines it was read from.
* Undefined behaviour is an outcome of its own: reads and writes outside an array, reads of memory never
  written, failed assertions, null pointers, endless loops and `exit` are values of an error type (`Crash`,
  `Fail`, `none`, …), wherever the property is about them.  Machine integers are modelled with their width
  where it matters (statistics counters, file length bytes, Mersenne Twister, dfasyn table types).
* `qsort` is any function that returns a sorted permutation; `malloc` never fails; stdio has no errors.
* The tables of `morf_scan` and `is_bad_cmene` are not transcribed from generated files: the sources
  `morf_nfa.in`, `bctables.in` and `stag_nfa.in` are, and the theorems hold for all tables that the modelled dfasyn
  makes from them.

## What is modelled

| C source | Lean | parts that are not modelled |
|---|---|---|
| `smujajgau.c`, `dictaccs.c` | `Dict*` | command line, messages |
| `erasure.c` | `Erasure*` | – |
| `lex1.c` | `Lex1*`, `CmavoTable` | messages; buffers of 64K; the morphology is a parameter of this model |
| `lex2.c` (preprocessing passes) | `Lex2*` | messages |
| `elide.c`, `yylex1` and `error_advance` of `lex2.c` | `Elide*` | the text of the report; the grammar is a parameter (a table and the order of events) |
| `output2elide.pl`, `can_shift_in_state` of `elide.c` | `EliTab*` | the regular expressions that cut the lines, the forms of older bisons |
| `uncom.l` | `Uncom*` | flex itself |
| `dict2inc.pl`, `dict_lookup` of `dictaccs.c` with `EMBEDDED_DICTIONARY` | `Embed*` | Perl's hash and sort (insertion in order instead), the C compiler beyond literals of the script's form |
| `mkdict.pl` (both loops) | `MkDict*` | the reading of the files; lines shorter than a column start (Perl's undef is the empty string here) |
| `canonluj.pl`, `lookup_component` of `canonluj.c` | `CanonTab*` | the table as C text (it is the list of its entries) |
| `categ.c`, `stag_nfa.in` | `Categ*`, `Stag*` | – |
| `tree.c` | `Tree*`, `Block*` | glosses in the bracketed output |
| `morf.c`, `mk_vfetab.pl`, `mk_cctab.pl`, `morf_nfa.in` | `Morf*` | – |
| `bccheck.c`, `bctables.in` | `Bc*` | – |
| `jvocuhadju.c`, `lujvofns.c`, `canonluj.c`, `canonluj.inc` | `Lujvo*` | `getopt`, messages |
| `translate.c` | `Trans*` | buffers of 64K |
| `cm_gather.c`, `cm_output.c` | `Cm*` | the format `OF_PLIST` |
| `cm_translate.c` | `CmTrans*` | the copy of `dict_lookup` into a static buffer |
| `cm_scan.l` | `CmScan*` | the tables that flex makes of the rules; buffers of flex |
| `cm_main.c` | `CmMain*`, `CmText*` | messages; the format `OF_PLIST` (compiled in only with `PLIST`) |
| `tracebk.c`, tables of `output2table.pl` | `Trace*` | how `output2table.pl` reads the text that bison writes (its rules and states are the input); Bison's tables: which actions the parser takes for a text (all that can build the tree are allowed) |
| `properties.c` | `Ext*` | sizes of the structures (fields are numbered) |
| `functions.c` (making of nodes) | `Make*` | `find_nth_child` and the like are in `Terms*` and `Connect*`, on trees instead of memory |
| `dfasyn/` | `Dfa*`, `Dfasyn*`, `Block*`, `DfaScan*` (`scan.l`), `DfaExpr*` and `DfaParse*` (`parse.y`) | `flex` and `bison` themselves, printing of the tables as C text, command line and messages |
| `memory.c` | `Memory*` | – |
| `rtg/mymt.c` | `Mt*` | – |
| `rtg/rtg.pl`: `rnd`, `pick`, `pickx`, the choices of `BAI` and `CAhA`, `emit` | `Rtg*` | the productions, the trace; doubles (exact for lists of less than 2^21 words) |
| `terms.c` | `Terms*` | `new_xx` allocation order |
| `connect.c` | `Connect*` | memory of the properties: the pass is modelled by the log of what it hangs on nodes |
| `tenses.c` | `Tenses*` | as for `connect.c` |
| `relative.c` | `Relative*` | as for `connect.c` |
| `conversion.c` | `Convert*` (and `tu2Conv` in `Trans`) | as for `connect.c` |
| `output.c` | `Output*`, `Gloss*` | the model of the display takes words, glosses and labels as parameters; those of `Gloss*` are an instance (`Real`); buffers of 64K for keys |
| `textblk.c` | `TextBlk*` | characters stand for bytes; `int` widths do not wrap |
| `textout.c`, `htmlout.c`, `latex.c` | `Flow*` | prologue and epilogue; characters stand for bytes; only the buffers of `make_htmlsafe` and `make_texsafe` have a size (the others are those of `stdio`) |
| `latexblk.c` | `LatexBlk*` | the prologue; characters stand for bytes |
| `errorscan.c` | `Errscan*` | the text of the warning |
| `main.c` | `Main*` | messages, signals; lexer, parser and passes are steps with results; `atoi` for numbers that fit |
| `rpc2x.y`, `action.perl`, the `new_node_…` and `new_elidable` of `functions.c` | `Gram*` | Bison's algorithm: which of the trees of the grammar a text gets.  All 1143 rules are transcribed (by a script, `GramRules.lean`), with the node types that the actions give and the words that `cmavotab.c` gives to each selma'o (`GramWords.lean`) |

Not modelled at all: Bison's parser.

## The properties

A property that is false of the code is kept in its full form in `properties.jsonl`; the manifest says
`partial`, the theorem that holds ends in `_partial`, and the failing case is a theorem too.

| id | what is modelled | how it is proved |
|----|------------------|------------|
| C01 | history of definitions, sort, squash, bytes of the file, loading, bisection | refinement to "last entry for the key in the history"; for every `qsort` |
| C02 | the same | from C01 for strings up to 255 bytes; the unrestricted claim is refuted by a witness |
| C03 | `dict_lookup` | loop invariant; sound on any table, exact on sorted ones |
| C04 | `preen`, `handle_mapping` | from C01 on histories |
| C05–C08 | `erasure.c` on a zipper | refinement to a stack machine (`si`), step equations (`sa`, `su`), conservation for all of them together |
| C09–C13 | passes of `lex2.c` on token lists | induction; a flattening function gives the conservation law; lossy patterns are witnesses |
| C14, C15, C45 | trees of `tree.c` | structural induction; injectivity of the display |
| C16–C18 | character loop and word state machine of `lex1.c` | invariants over the text read so far; for every morphology |
| C19 | `hash_cmavo` and the whole cmavo table | mixed-radix argument, table checked in the kernel |
| C20–C23, C46, C47 | `makelujvo` | the odometer enumerates the product; the score formula; minimum; clusters; reasons for failure; stars |
| C24 | `is_valid_lujvo` | soundness and completeness against a grammar of rafsi; uninitialised read as an outcome |
| C25, C48 | `canonluj.c` and both rafsi tables | round trip with the maker; whole tables in the kernel |
| C26–C31, C49 | dfasyn: closure, subset construction, result expressions, state merging, default states, bisection tables | closure is reachability; construction invariant; partition refinement is indistinguishability; end to end composition |
| C32, C33, C50, C51 | all nineteen passes of `categ.c` | each pass inserts markers only; longest match; exact places |
| C34 | `memory.c` | invariant over histories of calls, with 64-bit wrap |
| C35, C52–C55 | `translate.c`, `compute_tu2_conv` | permutations; table of endings; termination by fuel with stability; exact order of lookups |
| C36 | `rtg/mymt.c` | refinement to the MT19937 recurrence |
| C37, C38 | `cm_output.c`, `cm_gather.c` | greedy layout is the unique tight one; coverage and termination |
| C39 | `elide.c: yylex` | invariant "the words buffered are the next ones", for any order of events |
| C40, C41, C56–C58 | `morf_scan` on the tables made from `morf_nfa.in` | the automaton's reachable register values are certified in the kernel (finite graph), then invariants over every word |
| C62, C63 | `morf_scan` on the same tables | product of the scanner's automaton, its letter tables and an automaton for the grammar of lujvo and gismu (3413 states, certified in the kernel); a run invariant over every word |
| C64 | `makelujvo` and `morf_scan` | forms are lujvo (C22, C23), lujvo are read (C62) |
| C42 | `is_bad_cmene` on the tables made from `bctables.in` | certified automaton, exact positions, undefined reads characterised |
| C43 | `do_file` | for lines with a newline; witness for the last line without one |
| C44 | `print_bracketed` | nesting and separation for all trees; words for leaves that the printer can show; three witnesses |
| C59 | `show_minimal_elidables` | recursion invariant: the search tree enumerates the minimal guarded sets, each once |
| C60, C61 | `elide.c`: buffers, bit rows, hooks | simulation by a small abstract view of the parser; reports against hazards stated on that view |
| C65, C66 | `assign_pos`, `assign_fa`, `assign_terms`, `tu_assign_places` on arrays of places | invariant that ties the arrays to a function from spoken places to dictionary places; seating relation with a unique result |
| C67 | `process_statement_3` and all bridi functions on parse trees | trees are read as small abstract trees by a relation written from the grammar; induction; the `ke` case is refuted for all trees |
| C68 | `assign_conversion` | conversions compose as exchanges |
| C69 | `process_selbri` down to `process_tanru_unit_2` | as C67 |
| C70 | `terms_processing` on all trees of the grammar | every tree of the grammar has a reading in the sense of C67 and C69 (checked rule by rule over all 1143 rules), bounds on the number of terms by counting nodes |
| C71 | `connectives_processing` on all trees of the grammar | occurrences of nodes in a tree with their ancestors; what each node adds is read off the rules; false for `ja'a`, so partial, with the witness |
| C72 | `tense_processing` on all trees of the grammar | the walk outwards is compared with the nearest place; false for a tense with a free modifier, so partial, with the witness |
| C73 | `relative_clause_processing` on all trees of the grammar | as C72; false when `ke'a` stands in a phrase with GOI inside a clause with NOI, so partial, with the witness |
| C74 | `error_scan` on all trees of the grammar | as C71 |
| C75 | `conv_tag_se_bai` on all trees of the grammar | as C71; false when BAI has an indicator, so partial, with the witness |
| C76 | `conv_mark_tu2s` on all trees of the grammar | the walk outwards is compared with the scope of SE; false for `bo` and `gu'e`, so partial, with two witnesses |
| C77 | `conv_mark_gloss_types` on all trees of the grammar | the recursion with a state is the visit of all nodes with the state read off the ancestors; false when JAI has an indicator, so partial, with the witness |
| C78 | `selbri_scan` and `do_conversions` on all trees of the grammar; the marks `prop_done_s3` are a list of node numbers, so the SELBRI_3 are to have different numbers | the groups of nested SELBRI_3 are visited once and each is told on its last part; what is told is read off the ancestors of the word; `tertau_any` says what the code does on all trees; the claim is false for `A bo B`, for zei-lujvo with an indicator and for JAI with an indicator, so partial, with witnesses |
| C79 | `output_internal` and its helpers give the list of calls of the driver; the texts of words and glosses are any functions, the connectives are what `connectives_processing` left | the shown words and brackets are the tree written out, by induction on the depth for all modes together; the end: the pass for connectives has given a property to every node that asks for one (the `gi` inside a tense connective has none, but is only shown in a mode that does not ask) |
| C80 | `add_bracketing_tags` with its table; `ke'a` reads what `relative_clause_processing` left | the walk gives the numbers in order, node numbers tell marks apart; false for the sumti after `le`, so partial, with the witness |
| C81 | all functions of `textblk.c` on the calls that `output.c` makes (C79) | the calls are cut into segments, one for each block; the buffers of line and block are related to the row and the segment, step by step; the calls of `output.c` come in the order that this needs, since every term of the grammar begins with a word; partial, because buffers overflow for long words and wide displays |
| C82 | all functions of `textout.c`, `htmlout.c` and `latex.c` that give out pieces, one model with the differences of the three | an invariant: if the state is one that asks for no blank, then the last text is already followed by white space; the pieces seen are compared call by call, and composed with C79 |
| C83 | what `htmlout.c` prints for each piece, `make_htmlsafe` with its buffer | a reader of HTML (a stack of open elements) is run over what is printed; all pieces but the marks of labels leave the stack, and these match for calls in good order (C81); partial, because a gloss with a character of markup runs out of the buffer and other texts are raw |
| C84 | what `latex.c` prints for each piece, `make_texsafe` | a reader of TeX (groups, mathematics, escapes) is run over what is printed; every piece leaves its state; partial, because labels, Lojban texts and some characters are not escaped |
| C85 | all functions of `latexblk.c` with its buffers | what is printed followed by what is in the buffers is all that was given, step by step; composed with C79; the reader of TeX of C84 is run over the blocks; partial, because nothing prints the buffers at the end |
| C86 | the labels made by `terms.c` (C61-C78), `add_bracketing_tags` and `output_internal` (C79, C80) | by induction over the calls of `terms.c`: whatever a label points to is a node of the right kind inside the text, and its bracket is asked for in the same run; then the numbering of C80 and the display of C79; partial because of numbers before `moi` |
| C87 | the functions of `output.c` that choose a gloss, each with its keys; `adv_translate` and `translate_unknown` are fields, with those of `Trans` as an instance; the size of the ring buffers of `translate` is not modelled | the lookups are compared with a list of headwords in order |
| C88 | `get_lojban_word_and_translation`, the full stops, `pair_off_indicator_suffixes` (C05-C07) | the buffer is compared with the spelling; composed with C79; the run of indicators by induction over the tokens; partial, because some words are lost |
| C89 | the buffers of the same functions: a text that does not fit is an outcome | bounds on each piece; partial, with witnesses |
| C90 | `output_term`: the texts of labels, `sprintf` with a text of the dictionary as format | by induction over the format |
| C91 | the loop over the arguments, with the null pointer after them | the loop is compared with a grammar of command lines (`Reads`) and the meaning of each option (`Means`); partial because of `-w` at the end |
| C92 | the rest of `main`: the calls in order and the status | by cases over the results of the steps |
| C93 | `prop_glosstype` with its member without a value (`glosstype`), after the four passes of `do_conversions` | the records are exactly characterised by the theorems for C75-C78; that a deciding node stands around every tanru is checked over all grammar rules; partial because of vocatives, `ni'e` and `na'u` |
| C94 | the calls of the six passes in `main` and the properties that the output reads from them (`passes`, `propsOf`, `envOf`, `whole`) | composition of the theorems for each pass; the tag that a label with `jai` shows is found again in the tree |
| C95 | `output_term` in `output_internal`, with the labels of `terms_processing` and the numbers of the brackets (`tagOf`, `headOf`, `labelText`) | the tree written out with labels (`Labels.written`) as the specification; induction on the depth of the output as for C79, then inversion of `labelText` for each kind of label |
| C96 | `append_trans`, `translate_comp`, `translate_lujvo` (`cm_translate.c`), with the dictionary as a function | lujvo as lists of parts with ties (`Lujvo`, `wordOf`) are the specification; one step of the loop takes one part; induction on the parts. Conversions before rafsi and at the start are defects |
| C97 | `translate_unknown`, `is_consonant`, `is_consonant_not_r` (`cm_translate.c`) | no three letters of a lujvo are consonant, `l`/`n`/`r`, consonant: induction on the parts with the last two letters; length of the result by induction on the rounds |
| C98 | the rules of `cm_scan.l` as regular expressions, longest match, first rule | a matcher by derivatives, proved right (`accepts_iff`); each rule's texts are those of a form said separately (`lang_CM`, `lang_name`, `lang_BM`); no rule matches over the end of a word, since its characters are bounded (`Over`) or its first ones rule it out (`void`, decided for all first letters); induction on the words of a text |
| C99 | the same, with the two start conditions and the depth | some rule matches one character in either condition; induction on the rounds; brackets by induction on the balanced text |
| C100 | `main` of `cm_main.c`, the actions of `cm_scan.l`, `do_trans`, the three formats of `cm_output.c` | composition of C98, C38, C96, C97; partial: the brackets of a text in brackets are shown in brackets again (`brackets_doubled`); words with letters that Lojban does not have are not treated |
| C101 | the loop over the arguments of `cm_main.c` | induction on the arguments; partial: `-w` at the end (`width_missing`) |
| C102 | `report_trace_shift` and `report_trace_reduce` of `tracebk.c`, called as `add_trace_to_tabc.pl` puts them into the parser | induction on the actions; a tree of the grammar is built from the left and from below (`Built`), so the reductions after a token are as many as the last children go down; partial: the claim is false (`nu_overruns`) |
| C103 | the tables of `output2table.pl`, the rest of `tracebk.c` | the flat tables read at their indices are the lists they are made of; partial: the last rule (`last_rule`), blanks on the output (`report_shown_partial`) |
| C104 | all of `properties.c`, over a memory of records | the list of records of a node is the list of those handed out for it (invariant of all steps); the specification speaks of the history only |
| C105 | `compress_children`, `mark_children`, `new_node_…` of `functions.c`, over a memory of nodes; a step of `expand_bahe_ui` | induction on the tree; the first word by a check of all rules (`hollow_rules`): only an empty text has none, and nothing comes after it but in `chunks` |
| C106 | `output2elide.pl` after its regular expressions (form of bison 1.875 and later), `can_shift_in_state` and the test for subscripts of `elide.c` | bits of a fold of bitwise or; entries of a flat table; `grammar_of_report` gives the parameters of the monitor of C60 from a report |
| C107 | all of `uncom.l` | induction on the nesting of comments; the two kept comments begin like others, so `same_comment` shows that a comment that matches up to its end is that comment |
| C108 | all of `dict2inc.pl`, the C strings it writes, `dict_lookup` with the embedded table | insertion in order keeps the last definition; printed entries are read back; bisection lemmas of C03; agreement with `smujajgau` stated line by line |
| C109 | all of `mkdict.pl`, chained with C108 | columns cut with `take_left'`; runs of blanks squashed to one; the last entry for a key found through `flatMap` |
| C110 | all of `canonluj.pl`, `lookup_component` with any `bsearch` | the layout lemmas of C109; insertion in order keeps the table sorted; `dictionary_built` for the comparison |
| C111 | `pick`, `pickx`, `emit` of `rtg.pl` | quotients of natural numbers; the text by appending words; partial because the last word of a list is never chosen (`last_never`) |
| C112 | all rules of `dfasyn/scan.l` | layouts of tokens (`Laid`) are the specification; one lemma for each kind of token and gap; partial because line numbers lag behind `%{` blocks and strings over lines, and a comment at the end of the file is read |
| C113 | `mkdict.pl`, `dict2inc.pl`, `dict_lookup`, `translate_lujvo` together | the theorems of C109 and C96 composed (`ListGloss`) |
| C114 | the rules for `expr` in `dfasyn/parse.y` with the precedences, as the shift-reduce parser that bison makes; the construction of bison's tables is trusted to follow its documented conflict rules | a grammar in layers (`Reads`) is the specification; completeness by induction on derivations with an invariant for the stack below, soundness by reading the stack as a part of a derivation |
| C115 | all rules of `dfasyn/parse.y`, from the tokens to the declarations, as functions that look at the next tokens (the rules have no conflicts but those of `expr`; that the LALR tables follow the rules is trusted); what the actions do with the declarations is the model `Block`, which starts with its own form of the declarations, the names being cut at dots | the written form of declarations (`FileW`) is the specification; soundness for each function (what is read and what is left make up the text), completeness under conditions on the token that follows; composed with C112 and C114 |
| C116 | the bytes of `morf_nfa.in` and `bctables.in` (`MorfText`, `BcText`) and the actions of `parse.y` that store tokens, abbreviations and results (`DfaSrc`) | the kernel runs scanner, parser and actions on the whole texts (`decide +kernel`, closed terms) and compares with `morfSource` and `bcSource`, on which C24, C26, C41, C42, C56, C62, C63 rest; the texts were copied from the files by a script; `source_order` says for all files in which order things are stored, `ident_inj` that the numbers that stand for identifiers differ; `DfaSrcOk` checks for the three files what `Block` assumes about the order of declarations and the names of instances |
| C117 | the bytes of `stag_nfa.in` (`StagText`, `StagSrc`), its NFA and certificate (`StagCert`), the numbers of the tokens (`code`), the use of the tables in `categorize_tenses` (`tableDfa`) | the certificate automaton (74 states) is compared with the partial derivatives of `tenseRE` (272 expressions): a general theorem turns a checked table of derivatives and state labels into `Recognises` (`StagPd`), the kernel checks table and labels (`StagBisim`), `cert_tables` (C49) carries the result to the compressed tables; a crash of the tables is excluded separately (`tables_safe`); `categorize_tables` instantiates the results about `categorize` with them |
| C118 | the actions of `Block` (blocks, instances, inline blocks, `fixup_state_refs`) | `instantiate_copies` from the definition; `compile_wf` by an invariant (tokens declared, known destinations inside of the block) kept by every action, and `fixup_state_refs` replaces every name (`BlockInst`, `BlockWF`); `file_tables` puts C49 behind it, so that nothing is assumed about the NFA (`DfaFileThm`) |

## Defects found in the code (each is a theorem with a witness)

* labels: `terms.c:785-788`: the bracket of the number before `moi` is asked for only if there are terms before or after the selbri; in *pamoi be do* the label of *do* shows `#0-moi2` (`moi_unnumbered`).
* dictionary: a value longer than 255 bytes hides other words (`long_value_hides_other_word`); the last line
  without newline loses a byte (`doFile_unterminated_truncates`);
* erasure: `si` after garbage aborts (`si_after_garbage_aborts`), `si` on a quote falls short
  (`si_quote_shortfall`);
* lexer: empty `lo'u le'u` aborts, a leading `bu` aborts, `ba'e` before a letter or `nai` is lost, `cu'i nai`
  loses `nai`; a final `zoi` is dropped, a delimiter of 64 bytes overflows, positions after digits are stale,
  an unclosed comment never ends, `hash_cmavo` reads outside on malformed strings;
* lujvo: `final_ccv` read uninitialised, bad initial pair accepted in a final CCVCV, spurious warning at the
  limit, six-byte buffer overflow, `brod` ambiguous, `!` lost on ties, 33 components overflow;
* dfasyn: attributes of non-accepting states lost by merging, cyclic symbols recurse for ever, the
  signature bound in the comments is false, table types overflow silently, `count_bits_set` wraps;
* categ: a number at the end of a text crashes (`number_at_end_crashes`), a number with MAI is not flagged;
* translate and cmafihe: reads outside for short or odd entries, overflow of 512 byte blocks;
* cmafihe, lujvo not in the dictionary: a hyphen at the start of the gloss if the lujvo begins with `sel`, `ter`, `vel` or `xel`; such a conversion before a rafsi is shown on every later component as well;
* tree: three indicator patterns are not shown;
* morphology: a doubled `y` in a name crashes (`byyn_crashes`), a word of commas only has no start, the
  name check reads outside;
* elision monitor: `flags` written one past its end (`subscript_overflow`), the flag about numbers is missed
  or stale (`number_flag_missed`, `number_flag_stale`);
* terms: `gi'e … ke` without terms after it passes a vector that has no value (`ke_uninit`), a `jai` alone does
  not change the label of the first place (`jai_label_wrong`), a held first place inside `jai` moves the label
  (`jai_held_wrong`), the twentieth sumti reads past the array (`twenty_terms`, `twenty_jai`);
* connectives: `ja'a` before a connective negates as `na` does (`jaha_negated`);
* tenses: a subscript after a tense takes away its context (`subscript_loses_context`);
* relative clauses: `ke'a` inside `pe` inside `poi` is linked to the phrase with `pe` (`goi_takes_keha`);
* conversions: SE is lost when BAI has an indicator (`marked_bai_lost`), SE before `ke … bo …` is applied to the modifier
  (`bo_converted`), SE before `ke gu'e … gi …` is not applied to the first part (`guhe_not_converted`), the form of JAI with an
  indicator is lost (`marked_jai_lost`), the modifier before `bo` is taken for the last part of the tanru (`bo_tertau`), a zei-lujvo with
  an indicator is not taken for it (`marked_zei_lost`);
* brackets: the sumti between `le` and a relative clause gets no bracket, `ke'a` refers to `#0` (`owner_unnumbered`);
* display in blocks: a word or quoted text of 511 characters overflows (`long_word_overflows`), as does a width above 511 (`wide_overflows`); the
  empty line for an end of line comes too early after a word without gloss (`gap_early`); a closing bracket drops labels without a text
  (`labels_lost`, calls that `output.c` does not make);
* HTML: every gloss with `&`, `<` or `>` runs out of a buffer (`htmlsafe_overruns`; `reduced_cmavo:337` has such a gloss), labels of *jai* are an element
  that is never closed (`jai_label_unclosed`), Lojban text is raw (`lojban_raw`), three kinds of brackets look alike (`html_marks_alike`);
* LaTeX: the `#` in labels of *jai* is bare (`jai_label_hash`), a backslash in a gloss is not escaped (`texsafe_backslash`);
* LaTeX in blocks: a word after the last bracket is never printed (`trailing_word_lost`), such as the last `.i` of *mi klama .i* (`last_i_lost`);
* plain text: ceil and floor, opened and closed, are one mark (`text_marks_alike`); in all three a word leaves ends of line pending
  (`word_keeps_eols`);
* glosses: *ui pei nai* reads a null pointer, since no file of the dictionary has `peinai` (`degree_missing`, `uipeinai`); `nai` after `da'o`, `y`, `fu'e`
  and `fu'o` is not shown (`nai_lost`); quotations, entries and numbers of a thousand characters overflow (`zoi_fits`, `lohu_overflow`,
  `entry_overflow`, `number_overflow`); BAI after *jai* is marked `(CONV?)` (`jai_bai`); the gloss of a tense without context is dropped
  (`offset_dropped`); a percent sign in the gloss of a label is read as a format (`format_undefined`);
* glosses: after a vocative (*doi broda*), `ni'e` and `na'u` the choice between noun and verb is read from memory without a value
  (`vocative_unset`; `form_unset` says exactly where);
* command line: `-w` as last argument reads a null pointer (`width_missing`), in jbofihe and in cmafihe;
* cmafihe: the brackets of a text in brackets are shown in brackets again (`brackets_doubled`);
* log for back-traces: more than 1024 reductions in a row overrun it, with or without `-bt` (`deep_overruns`), such as 53 times *nu* and a brivla
  (`nu_overruns`); the last rule of the grammar is read past the end of the index (`last_rule`); the indentation of rules goes to the output
  (`report_shown_partial`);
* table for elisions: the end of the input has a code below the table, so a bit of another state is read, or memory before the table (`below_table`);
* embedded dictionary: backslashes are not escaped (`backslash_breaks`, `backslash_lost`); blanks, `!`, `;` at the beginning and empty meanings are read otherwise than by `smujajgau` (`lines_differ`);
* rtg.pl: the last word of a list given to `pick` or `pickx` is never chosen (`last_never`); canonluj.pl cuts words of six letters (`six_letters_differ`; the list has none);
* dfasyn: line numbers in messages are two short after a `%{` block (`block_lags`) and short by the line ends in strings (`string_lags`); a comment on a last line without end is read as input (`last_comment_read`); `""` is no token (`empty_string_lost`);
* `uncom`: what follows a comment without end is lost without an error (`unclosed_lost`); taking out a comment can make a new one (`not_idempotent`);
* random generator: the seeding differs from the reference (`seed_not_reference`).

## Tests with seeded bugs

`seeded/LOG.jsonl` has one line for each edit of the model in a scratch copy: the definition, the edit, the
claim it should break, the theorems that failed, and those that were tightened after an edit survived.
