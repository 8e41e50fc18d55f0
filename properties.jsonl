{"id": "C01", "title": "Compiled dictionary returns the latest surviving definition", "statement": "If smujajgau compiles a stream of definitions and deletions (old database entries first, then the source lines in order) and jbofihe then looks a key up in the resulting file, the answer is the value of the last definition of that key if no later deletion of the same key follows it, and 'not found' otherwise, provided every key and value fits the one-byte length fields.", "quantifier": "all finite transaction histories, all keys, any tie-order behaviour of qsort", "why_tests_cant": "The result depends on an arbitrary interleaving of definitions and deletions of arbitrarily many keys through sort, squash, serialise, parse and bisection; sampled dictionaries only exercise a few histories.", "anchors": ["smujajgau.c: add_defn, add_deletion, sort_comparison, rationalise_transactions, compress_transactions, write_database", "dictaccs.c: read_database, dict_lookup"]}
{"id": "C02", "title": "A long definition does not disturb other entries (length-field range)", "statement": "Adding a definition for one word must not change what any other word looks up to. This holds whenever all keys and values are at most 255 bytes long; a single longer value makes the on-disk length wrap and shifts every later entry (the tool only prints a message), so the unrestricted claim is false.", "quantifier": "all dictionaries and all added definitions", "why_tests_cant": "Needs both a universally quantified non-interference argument over all dictionaries and the exact boundary at which it breaks.", "anchors": ["smujajgau.c: put_char, write_database", "dictaccs.c: read_database, dict_lookup"]}
{"id": "C03", "title": "Bisection lookup is exact", "statement": "Looking a word up in a key-sorted dictionary always terminates, returns the stored value whenever the word is present and reports absence whenever it is not; on any table whatsoever (sorted or not) it never returns a value stored under a different key.", "quantifier": "all tables of any size, all keys", "why_tests_cant": "Off-by-one errors of binary search show up only for particular sizes and positions.", "anchors": ["dictaccs.c: dict_lookup"]}
{"id": "C04", "title": "Redefining a place drops its more specific glosses", "statement": "After a source line defines key K ending in a digit, the compiled dictionary contains none of K+n, K+v, K+a, K+t unless a later line redefines them, whatever earlier sources defined.", "quantifier": "all source histories", "why_tests_cant": "Quantifies over all earlier and later dictionary lines.", "anchors": ["smujajgau.c: preen, handle_mapping, rationalise_transactions"]}
{"id": "C05", "title": "si erases exactly the preceding word(s)", "statement": "Within a token sequence of ordinary words (brivla, cmavo, cmene), applying the si pass gives the result of replaying the words on a stack where each si pops one word; a si with nothing before it stays in the text. Quotation tokens are popped only by the full number of si (zo-quote 2, lo'u-quote 3, zoi-quote 4) and a shortfall leaves a defect token.", "quantifier": "all token sequences", "why_tests_cant": "Interaction of arbitrarily long si runs with arbitrarily mixed words and quotes is unbounded.", "anchors": ["erasure.c: handle_si"]}
{"id": "C06", "title": "sa erases back to the last word of the same class", "statement": "When a sa is followed by a word w, everything from the most recent preceding word of w's class (same selma'o for cmavo, same word type otherwise), or from the start of the text if there is none, up to and including the sa is removed; all other words are kept in order.", "quantifier": "all token sequences, any number of sa", "why_tests_cant": "The list is modified while it is scanned; correctness for every arrangement of sa words is an induction over the list.", "anchors": ["erasure.c: handle_sa"]}
{"id": "C07", "title": "su erases to the enclosing discourse opener, su su erases everything", "statement": "A single su removes everything back to and including the nearest ni'o/lu/tu'e/to class word (or everything so far); two consecutive su remove everything before and including them; words after are untouched.", "quantifier": "all token sequences", "why_tests_cant": "Same: in-place deletion during iteration over arbitrary lists.", "anchors": ["erasure.c: handle_su"]}
{"id": "C08", "title": "Erasure never invents, reorders or corrupts words", "statement": "The surviving tokens after si/sa/su processing are a subsequence, in original order, of the input tokens (up to the defect re-labelling of a partly erased quote); texts without si, sa, su are returned unchanged.", "quantifier": "all token sequences", "why_tests_cant": "A subsequence invariant over all inputs.", "anchors": ["erasure.c: do_erasures"]}
{"id": "C09", "title": "zo quotes exactly the next word", "statement": "In the token stream each zo consumes exactly the word after it, whatever that word is (including zo, si, bu, zei, lo'u), and that word is not interpreted; other tokens keep their order. A text-final zo is reported as an error.", "quantifier": "all token sequences", "why_tests_cant": "Runs of zo and quoted magic words of any length.", "anchors": ["lex2.c: handle_zo"]}
{"id": "C10", "title": "lo'u ... le'u quotes verbatim", "statement": "Each lo'u is matched with the first following le'u; the quote token stands for exactly the words strictly between them, in order; an unterminated lo'u is reported. (An empty lo'u le'u pair makes the text builder run past the end marker.)", "quantifier": "all token sequences", "why_tests_cant": "Unbounded quotation lengths; the edge case is a memory-safety failure.", "anchors": ["lex2.c: handle_lohu, build_string_from_nodes"]}
{"id": "C11", "title": "zei joins maximal chains", "statement": "Maximal chains w0 zei w1 zei ... zei wn become a single compound consisting of w0..wn in order; words outside chains are untouched; a leading or trailing zei is reported as bad.", "quantifier": "all token sequences", "why_tests_cant": "Chains of unbounded length.", "anchors": ["lex2.c: handle_zei"]}
{"id": "C12", "title": "Emphasis, bu and indicator folding lose no words", "statement": "After ba'e, bu and indicator (UI/CAI/NAI...) folding, reading each remaining token together with the words attached to it in order gives back exactly the word sequence before folding.", "quantifier": "all token sequences", "why_tests_cant": "A conservation law over all inputs and all nesting patterns.", "anchors": ["lex2.c: handle_bahe, handle_bu, handle_indicators, pair_off_indicator_suffixes"]}
{"id": "C13", "title": "Indicators never remain in the grammar's token stream", "statement": "After indicator folding, no indicator word remains as a token of its own except in an initial run at the very start of the text; every other indicator is attached to the nearest preceding non-indicator token.", "quantifier": "all token sequences", "why_tests_cant": "State machine over unbounded input.", "anchors": ["lex2.c: handle_indicators, is_indicator_cmavo"]}
{"id": "C14", "title": "Folded words are found again in source order in the parse tree", "statement": "Expanding the attached emphasis and indicator words back into the parse tree yields a tree whose leaves, left to right, are the source words in order.", "quantifier": "all parse trees and all attachment patterns", "why_tests_cant": "Recursive structure of unbounded depth.", "anchors": ["tree.c: expand_bahe_ui_internal, expand_bahe_ui"]}
{"id": "C15", "title": "Singleton compression preserves the words", "statement": "Collapsing single-child nodes preserves the leaf sequence, leaves no single-child non-terminal below the root, and is idempotent.", "quantifier": "all parse trees", "why_tests_cant": "Unbounded trees.", "anchors": ["tree.c: compress_singletons"]}
{"id": "C16", "title": "zoi / la'o quotes foreign text verbatim", "statement": "After a zoi or la'o and a delimiter word D, every following word up to the next occurrence of D is kept as opaque text in order and none of it is interpreted; the first D ends the quote; the following word is interpreted normally again.", "quantifier": "all word sequences", "why_tests_cant": "Quoted text is arbitrary and unbounded.", "anchors": ["lex1.c: process_word"]}
{"id": "C17", "title": "Reported positions are true positions", "statement": "Every word token created from a file carries the line and column at which its first character occurs, whatever the mixture of newlines, tabs, comments and separators before it.", "quantifier": "all input texts", "why_tests_cant": "Bookkeeping over arbitrary character streams.", "anchors": ["lex1.c: parse_file, add_preceding_cmavo"]}
{"id": "C18", "title": "Bracketed comments are removed as a unit; an unterminated one never ends", "statement": "Text inside balanced parentheses produces no tokens, at any nesting depth; reaching end of file inside a comment makes the scanner loop forever.", "quantifier": "all input texts and nesting depths", "why_tests_cant": "Nesting depth is unbounded, and non-termination cannot be observed by a test.", "anchors": ["lex1.c: parse_file"]}
{"id": "C19", "title": "cmavo hashing is collision free on well-formed words", "statement": "Two different well-formed cmavo spellings never share a hash value inside the table range, so table lookup of a spelling finds the entry with that spelling or none.", "quantifier": "all strings over the cmavo alphabet", "why_tests_cant": "Quantifies over all spellings, not just those in the table.", "anchors": ["lex1.c: hash_cmavo, process_cmavo"]}
{"id": "C20", "title": "The lujvo maker's printed best form has minimum score", "statement": "For every list of known components the first form printed by jvocuhadju has a score less than or equal to the score of every admissible choice of component forms (when the number of choices is below the program's cap), and the printed list is in non-decreasing score order.", "quantifier": "all component lists, all flag settings", "why_tests_cant": "The search space is the product of all per-component choices.", "anchors": ["jvocuhadju.c: makelujvo, compare_lujvo"]}
{"id": "C21", "title": "The lujvo maker enumerates every combination exactly once", "statement": "The odometer loop visits each combination of component forms exactly once and terminates.", "quantifier": "all tuples of positive alphabet sizes", "why_tests_cant": "Product space of unbounded dimension.", "anchors": ["jvocuhadju.c: makelujvo"]}
{"id": "C22", "title": "The score follows the published formula", "statement": "The score attached to each form equals 1000*L - 500*A + 100*H - 10*R - V computed from its letters, apostrophes, hyphens, component shapes and vowels.", "quantifier": "all combinations of component forms", "why_tests_cant": "A formula over unbounded words.", "anchors": ["jvocuhadju.c: makelujvo"]}
{"id": "C23", "title": "Joined components never form a forbidden consonant cluster", "statement": "In every form the maker produces, at each boundary between two components either a hyphen was inserted or the two touching letters form a permitted pair and no forbidden triple arises.", "quantifier": "all component lists", "why_tests_cant": "All boundary contexts over all words.", "anchors": ["jvocuhadju.c: makelujvo, can_join", "lujvofns.c: is_pairok, is_bad_triple"]}
{"id": "C24", "title": "Lujvo validity test agrees with the lujvo grammar", "statement": "is_valid_lujvo accepts a word only if it is a concatenation of rafsi-shaped pieces with the hyphens the grammar calls for; consonant clusters at boundaries are permitted ones. When the test reads its never-assigned flag the answer is undefined.", "quantifier": "all strings", "why_tests_cant": "Recursive acceptance over unbounded words.", "anchors": ["lujvofns.c: is_valid_lujvo"]}
{"id": "C25", "title": "Splitting a lujvo yields its components", "statement": "canon_lujvo on a word glued from rafsi returns the corresponding source words joined with '+', it is the identity on already canonical forms, and its output never loses a component.", "quantifier": "all words", "why_tests_cant": "Unbounded number of components.", "anchors": ["canonluj.c: split_lujvo, strip_leading_rafsi, lookup_component, canon_lujvo"]}
{"id": "C26", "title": "dfasyn: the generated automaton accepts what the NFA describes", "statement": "For every NFA specification, after reading any token string the deterministic automaton built by subset construction is in the state representing exactly the set of NFA states reachable by that string (with epsilon moves), and reports the result the evaluator gives for that set.", "quantifier": "all NFAs, all token strings", "why_tests_cant": "Quantifies over all automata and inputs.", "anchors": ["dfasyn/n2d.c: transitively_close_eclo, build_transmap, build_dfa"]}
{"id": "C27", "title": "dfasyn: state merging does not change behaviour", "statement": "compress_dfa leaves the observable behaviour (result and attribute after every token string, and jamming) unchanged.", "quantifier": "all DFAs, all token strings", "why_tests_cant": "Equivalence of automata over all inputs.", "anchors": ["dfasyn/compdfa.c: assign_initial_classes, split_classes, compress_states, compress_dfa"]}
{"id": "C28", "title": "dfasyn: compressed transition tables answer like the full table", "statement": "For every DFA, state and token, the generated binary-search next_state over default-state-compressed tables returns the same destination as the original transition map, and always terminates.", "quantifier": "all DFAs, states, tokens", "why_tests_cant": "All tables and all lookups.", "anchors": ["dfasyn/tabcompr.c: find_default_states", "dfasyn/n2d.c: print_compressed_tables, check_include_char"]}
{"id": "C29", "title": "dfasyn: early results cut only what a caller cannot see", "statement": "A caller that stops at the first early-exit result observes the same results on the pruned automaton as on the complete one.", "quantifier": "all NFAs, all token strings", "why_tests_cant": "All automata.", "anchors": ["dfasyn/n2d.c: build_dfa", "dfasyn/expr.c: evaluate_result"]}
{"id": "C30", "title": "dfasyn: result evaluation is unambiguous or rejected", "statement": "evaluate_result returns a result only if exactly one result expression is true of the active tags (given the order-sensitive wildcard), returns none if none is, and reports ambiguity otherwise.", "quantifier": "all expression lists and tag sets", "why_tests_cant": "Boolean expressions of unbounded size.", "anchors": ["dfasyn/expr.c: eval, evaluate_result"]}
{"id": "C31", "title": "Signature filter never hides the best default state incorrectly", "statement": "The Gray-code signature distance used as a filter never exceeds the true number of differing transitions, so skipping by signature discards only candidates that could not win.", "quantifier": "all pairs of transition vectors", "why_tests_cant": "All vectors of any length.", "anchors": ["dfasyn/tabcompr.c: increment, count_bits_set, compute_transition_sigs, find_default_states"]}
{"id": "C32", "title": "Grammar marker insertion never changes the words", "statement": "The categorisation passes only insert private marker tokens: deleting markers from their output gives back the input token sequence, and a text with nothing to mark is unchanged.", "quantifier": "all token sequences", "why_tests_cant": "Fifteen successive passes over arbitrary lists.", "anchors": ["categ.c: categorize_tokens and passes"]}
{"id": "C33", "title": "Tense marking takes the longest tense and can crash at end of text", "statement": "A tense marker is put before the longest prefix that is a complete tense; if the text ends inside an incomplete tense with no complete prefix the pass dereferences a null pointer.", "quantifier": "all token sequences", "why_tests_cant": "Longest match over unbounded input; crash depends on text end.", "anchors": ["categ.c: categorize_tenses", "stag_nfa.in"]}
{"id": "C34", "title": "Memory statistics are exact", "statement": "After any sequence of allocate/resize/free calls on live blocks the in-use figure equals the sum of the requested sizes of live blocks, and the maximum figure equals the largest value ever reached.", "quantifier": "all call histories", "why_tests_cant": "Histories are unbounded.", "anchors": ["memory.c: Malloc, Realloc, Free"]}
{"id": "C35", "title": "Conversion words permute places", "statement": "The place map computed for a component preceded by se/te/ve/xe words is the composition of the corresponding exchanges in order, always a permutation of the five places, and applying the same conversion twice is the identity.", "quantifier": "all conversion sequences", "why_tests_cant": "Unbounded sequences.", "anchors": ["translate.c: split_into_comps", "conversion.c: compute_tu2_conv"]}
{"id": "C36", "title": "Random text generator produces the Mersenne Twister sequence", "statement": "The pairwise unrolled generator outputs, for every seed and every n, the n-th tempered value of the MT19937 recurrence started from its seeding.", "quantifier": "all seeds, all output positions", "why_tests_cant": "Infinite output stream.", "anchors": ["rtg/mymt.c: seedmt, reloadmt, getmt"]}
{"id": "C37", "title": "Blocked output keeps columns aligned and within the width", "statement": "In cmafihe block output the three rows of a line have equal length, each entry stands in all its rows at the same column, lines are filled greedily so no line exceeds the width unless it is a single entry, and no entry is dropped or reordered; the line buffers overflow exactly when a line is wider than 511 columns, which a width of at most 511 and entries of at most 510 letters exclude.", "quantifier": "all word sequences and widths", "why_tests_cant": "Layout over arbitrary sequences.", "anchors": ["cm_output.c: do_block, append_content, block_newline"]}
{"id": "C38", "title": "cmavo cluster glossing terminates and covers the cluster", "statement": "Splitting an unknown cmavo cluster against any dictionary terminates, uses the longest known prefix at each step, and every letter of the cluster is accounted for by exactly one gloss or one '?'. The exception is a cluster that begins with a vowel without a dot and of which nothing is known: for it the scan reads before its buffer.", "quantifier": "all strings, all dictionaries", "why_tests_cant": "Termination and coverage for arbitrary dictionaries.", "anchors": ["cm_gather.c: try_cmavo_fragment, do_trans, translate_selmao"]}
{"id": "C39", "title": "Elision analysis is transparent to the parser", "statement": "With elision reporting on, the parser receives exactly the token sequence it would receive with reporting off.", "quantifier": "all token streams, any interleaving of shifts and reductions", "why_tests_cant": "Depends on parser/lexer interleaving.", "anchors": ["elide.c: yylex, elide_trace_shift, elide_trace_reduce"]}
{"id": "C40", "title": "Word segmentation partitions the word", "statement": "The word starts reported by the morphology scanner are strictly increasing positions inside the input, so the pieces between consecutive starts concatenate to the input.", "quantifier": "all strings", "why_tests_cant": "All strings, driven by table automata.", "anchors": ["morf.c: morf_scan"]}
{"id": "C41", "title": "Commas and letter case do not change the classification automaton's path", "statement": "The scanner state after a word is independent of commas inside it, and depends on letter case only through the capitals flag.", "quantifier": "all strings", "why_tests_cant": "All insertions of commas.", "anchors": ["morf.c: morf_scan"]}
{"id": "C42", "title": "Bad-name detection is exact, with the positions, and its undefined reads are known", "statement": "For every string, is_bad_cmene stops at the first of two events. A trap: la, lai or doi standing at the beginning or after a vowel, and followed by a consonant or an apostrophe; then the name is bad, and the two pointers give the beginning of that word and the letter after it; the flag says whether the break before it is a real one (not after a lone y). Or a letter that no name can have there, and then exitval[-1] is read. Without either event the name is good exactly when it ends in a consonant; without any letter an unset variable is read.", "quantifier": "all strings", "why_tests_cant": "Automaton over unbounded input.", "anchors": ["bccheck.c: is_bad_cmene", "bctables.in"]}
{"id": "C43", "title": "Every dictionary source line is honoured verbatim", "statement": "A line 'word:gloss' of a dictionary source file contributes exactly that word and exactly that gloss, independently of the rest of the file. This holds for lines ended by a newline; a last line without newline silently loses its last byte, so the unrestricted claim is false.", "quantifier": "all files, all words and glosses up to the line buffer size", "why_tests_cant": "Quantifies over every byte content and position of the line in the file.", "anchors": ["smujajgau.c: do_file, handle_mapping"]}
{"id": "C44", "title": "Bracketed output mirrors the parse", "statement": "For every parse tree the bracketed output has properly nested brackets (each closing bracket of the kind and number of its opening one), never runs two words together, and shows exactly the words of the leaves in order, bracketed as the tree is.", "quantifier": "all parse trees", "why_tests_cant": "Trees of unbounded depth and width; global newline state.", "anchors": ["tree.c: print_bracketed, print_bracketed_text, print_open, print_close, clear_eols"]}
{"id": "C45", "title": "The tree display determines the tree", "statement": "Two different parse trees (ignoring invisible markers) never give the same indented tree display.", "quantifier": "all pairs of parse trees", "why_tests_cant": "Injectivity over infinitely many trees.", "anchors": ["tree.c: print_tree, show_indent"]}
{"id": "C46", "title": "The lujvo maker fails only for stated reasons", "statement": "makelujvo produces a list of forms exactly when there are 2 to 49 words, each of at most five letters and known, and there is an allowed choice of component forms; it never aborts in the middle of the search. A word of more than five letters overruns the six byte buffer.", "quantifier": "all word lists, all flags", "why_tests_cant": "Any list of words of any length.", "anchors": ["jvocuhadju.c: makelujvo, main"]}
{"id": "C47", "title": "Stars mark exactly the best forms", "statement": "In the printed list a star stands exactly at the forms of minimum score, unless the first form contains the ambiguous brod, in which case there is no star; the ambiguity mark is lost exactly when an ambiguous form ties with an unambiguous first form.", "quantifier": "all sorted lists of forms", "why_tests_cant": "Ties can be of any length and in any order.", "anchors": ["jvocuhadju.c: makelujvo"]}
{"id": "C48", "title": "The two rafsi tables agree", "statement": "Every rafsi the maker can choose for a word is mapped back to that word by the table canonluj.inc (with brod- as the only exception), and that table is strictly sorted, as its bsearch needs.", "quantifier": "all table rows", "why_tests_cant": "Whole-table facts; tests look at a few rows.", "anchors": ["canonluj.inc", " canonluj.c: lookup_component", " jvocuhadju.c: table"]}
{"id": "C49", "title": "dfasyn: the generated C tables recognise what the NFA describes", "statement": "For every NFA, if dfasyn writes output, then iterating the generated next_state from state 0 over any token string (up to the first early result) never indexes outside the tables, yields -1 exactly when the NFA has no reachable state, and otherwise a state whose exit value is the unique verdict for the tags of the reachable NFA states; and dfasyn always terminates.", "quantifier": "all NFAs, all token strings, every qsort", "why_tests_cant": "Composition of five passes over all automata and inputs.", "anchors": ["dfasyn/n2d.c: main, build_dfa, print_compressed_tables, write_next_state_function_compressed", "dfasyn/compdfa.c: compress_dfa", "dfasyn/tabcompr.c: compress_transition_table"]}
{"id": "C50", "title": "The free-modifier flag misses numbers with MAI", "statement": "followed_by_free is set on a cmavo exactly if the next node is a cmavo of SEI, SOI, COI, DOI, TO or XI; the case written for a number with MAI is never taken, because that is a marker and not a cmavo.", "quantifier": "all token sequences", "why_tests_cant": "A dead case in a switch shows only through all inputs.", "anchors": ["categ.c: mark_cmavo_before_free"]}
{"id": "C51", "title": "Markers stand exactly at their constructs", "statement": "Every marker that the categorisation passes insert stands directly before (or after) the construct it is named for, with all optional words of the connective inside; every word of JA, GIhA, A, GUhA, JOI and BIhI has its markers; the markers for geks, sentence links, connectives before BO and KE, numbers, NAhE BO and NA KU stand everywhere they are called for and nowhere else (a jek or joik behind I or a tense is not one before BO or KE).", "quantifier": "all token sequences", "why_tests_cant": "Fifteen passes that look over each other's markers.", "anchors": ["categ.c: all passes"]}
{"id": "C52", "title": "English endings are put on the right words", "statement": "For a dictionary gloss in which every star is followed by white space, a slash or the end, the plural, agent and participle functions put the ending of the documented rule on every part before a star and on nothing else; the stars disappear, an agent is linked to what follows by 'of' unless a preposition follows. In the qualifier of class D a star before a slash or at the end stays in the printed gloss.", "quantifier": "all glosses with any number of stars", "why_tests_cant": "Glosses are free text with any number of marked parts; tests see a handful of dictionary entries.", "anchors": ["translate.c:298-454"]}
{"id": "C53", "title": "The table of word classes and contexts is obeyed", "statement": "For every dictionary entry with a class letter, every context and every noun override, the printed gloss is the one in the table of translate.c (D, S, A, P, R, I by noun, verb, qualifier, tag); an entry without a class is printed as it stands; a class letter outside the table gives the null pointer and nothing else does.", "quantifier": "all entries, contexts and overrides", "why_tests_cant": "The table has 28 cells with unbounded word arguments.", "anchors": ["translate.c:241-270", "translate.c:531-704"]}
{"id": "C54", "title": "Looking up a gloss ends, and the most specific entry wins", "statement": "An entry for word, place and context decides over one for word and place, and both over everything else; a redirection gives the gloss of its target in the same context; place 0 is the verb of place 1. If every redirection leads to a word of at most five letters that has no redirection and short words are no stage-3 fu'ivla, the recursion ends for every word at a depth of a third of its length plus three, and the result does not depend on the depth allowed. Entries that redirect in a circle never end. A class letter outside the table, a '-' template for the first of two parts, a '%' at the end of a template and a redirection to a sixth place make the program read where it must not.", "quantifier": "all dictionaries, words, places and contexts", "why_tests_cant": "The recursion goes through the dictionary, so its depth and its end depend on every possible dictionary.", "anchors": ["translate.c:58-197", "translate.c:705-1032"]}
{"id": "C55", "title": "Templates are cut, ordered and filled as the dictionary format says", "statement": "For a lujvo, a suffix template is looked up under the text from the last one or two components on and the place their conversions lead to, a prefix template under the text of the first components; templates are tried from precedence 5 to 0, suffix before prefix, and the first that gives something wins; every %-slot is replaced by the gloss it asks for and the rest is copied. Without a template a lujvo is glossed part by part, all but the last as qualifiers, and a stage-3 fu'ivla as the gloss of its prefix and the bracketed rest without its hyphen letter.", "quantifier": "all lujvo, dictionaries, places and contexts", "why_tests_cant": "The number of components and the dictionary are unbounded.", "anchors": ["translate.c:58-197", "translate.c:705-918"]}
{"id": "C56", "title": "A brivla found at the end of a word is that brivla by itself", "statement": "When the scanner reports a word as a gismu, lujvo or borrowed word, the part from the last reported start is, scanned alone, the same kind of word with a single start and the same hyphen position; and the part before it is empty or, scanned alone, a series of cmavo with exactly the other starts.", "quantifier": "all strings of up to 65536 characters", "why_tests_cant": "The words are recognised by a 1719-state automaton fed by a lookahead front end; whether it says the same after cutting cannot be sampled.", "anchors": ["morf.c: morf_scan", "morf_nfa.in"]}
{"id": "C57", "title": "Every piece of a cmavo series is one cmavo", "statement": "When the scanner reports a series of cmavo, the word is divided into at least one piece, and each piece scanned alone is reported as a single cmavo starting at its first letter.", "quantifier": "all strings of up to 65536 characters", "why_tests_cant": "All series of any length; the two different bookkeeping lists (starts and consonant starts) must agree with the automaton.", "anchors": ["morf.c: morf_scan", "morf_nfa.in"]}
{"id": "C58", "title": "Scanning never leaves its tables, except for a doubled y", "statement": "The scanner reads and writes only inside its arrays and never uses an unset variable, unless the word has a lone y followed by another y; every name that is reported bad has the pointers to the offending la, lai or doi set, and every good name ends in a consonant.", "quantifier": "all strings of up to 65536 characters", "why_tests_cant": "A crash for one word in an unbounded set; the offending input was found by the failed proof.", "anchors": ["morf.c: morf_scan", "bccheck.c: is_bad_cmene"]}
{"id": "C59", "title": "The minimal elision patterns are exactly the minimal ones", "statement": "For every table of hazards, show_minimal_elidables prints each inclusion-minimal set of terminators that must be kept, leaving out at least one, exactly once, and nothing else; every sufficient set of terminators that leaves something out contains a printed one.", "quantifier": "all hazard tables, all buffer lengths", "why_tests_cant": "The number of patterns is exponential in the buffer length.", "anchors": ["elide.c:316-367 show_minimal_elidables"]}
{"id": "C60", "title": "The elision monitor uses only memory it owns", "statement": "For every text and every sequence of parser events, the elision monitor neither reads unset memory nor reads or writes outside its buffers; except when a subscript rule is reduced without lookahead just when the buffer holds a multiple of 32 words, all shifted, in which case flags[] is written one past its end.", "quantifier": "all texts, all grammars, all event sequences a parser can produce", "why_tests_cant": "Needs 31 terminators in a row before a word, and a growing buffer.", "anchors": ["elide.c:140-156 grow_buffer", "elide.c:405-618 elide_trace_shift, elide_trace_reduce", "elide.c:628-711 yylex"]}
{"id": "C61", "title": "An elision report means what it says", "statement": "When the last word of a buffer is shifted, the report lists the terminators in front of it, says that all can be omitted iff no hazard forbids it, and prints exactly the minimal sets to keep; the hazards are the states the parser went through in which a later word of the buffer could have been shifted while an earlier terminator was next, except after cu, plus the merging of two numbers across boi or ve'o.", "quantifier": "all texts, all grammars, all event sequences a parser can produce", "why_tests_cant": "The hazards are collected over many parser events and bit arrays that are reused.", "anchors": ["elide.c:405-618 elide_trace_shift, elide_trace_reduce", "elide.c:620-711 yylex"]}
{"id": "C62", "title": "The scanner calls lujvo exactly what the grammar calls a lujvo", "statement": "With cultural rafsi off, morf_scan classifies a word as a single lujvo if and only if the word without its commas is a well-formed lujvo: rafsi of the eight shapes with permitted clusters, y exactly where a CVC cannot join (including the tosmabru rule) and after four-letter rafsi, an r or n hyphen after an initial CVV exactly where one is needed, and only the diphthongs ai, au, ei, oi. With cmavo before it, what follows the last reported beginning is such a lujvo.", "quantifier": "all strings of up to 65536 characters", "why_tests_cant": "The language is infinite and the hyphen rules interact across the whole word; a table-driven automaton of 1100 states decides it.", "anchors": ["morf.c: morf_scan", "morf_nfa.in: the BRIVLA blocks", "morf.c:54-207 tables"]}
{"id": "C63", "title": "The scanner calls gismu exactly the words of shape CVCCV and CCVCV with permitted clusters", "statement": "morf_scan classifies a word as a single gismu if and only if the word without its commas is CVCCV with a permitted medial pair or CCVCV with a permitted initial pair.", "quantifier": "all strings of up to 65536 characters", "why_tests_cant": "Every other string has to be refused, and cmavo that precede have to be cut off at the right place.", "anchors": ["morf.c: morf_scan", "morf_nfa.in: the BRIVLA blocks"]}
{"id": "C64", "title": "jbofihe reads every word that jvocuhadju makes", "statement": "Every lujvo form that the lujvo maker stores, for any list of 2 to 49 known words and any options, is read by the morphology scanner as one lujvo beginning at the first letter.", "quantifier": "all component lists, all options, all generated forms", "why_tests_cant": "Two programs with separate rules and tables must agree on an infinite set of words.", "anchors": ["jvocuhadju.c:735-1000 makelujvo", "morf.c: morf_scan"]}
{"id": "C65", "title": "Every sumti is labelled with the place of the selbri that it fills", "statement": "Given the conversions (se, te, ve, xe, jai with a tag) and linked sumti (be, bei) around a word and the terms before and after it, every bare sumti and every sumti with FA gets the label of exactly the dictionary place it fills under the rules of the language, places already filled are skipped, no two bare sumti get the same place, and no other term is labelled.", "quantifier": "all chains of conversions and linked sumti (up to 19 jai, none bare, none around a filled first place), all lists of up to 14 terms with any mixture of FA, fai, fi'a and tags", "why_tests_cant": "The order of conversions, links, FA and bare sumti interact through three arrays and a counter; there are unboundedly many combinations.", "anchors": ["terms.c: assign_pos, assign_fa, tu_assign_places, assign_terms"]}
{"id": "C66", "title": "With jai the moved first place is labelled as fai and the new first place as what jai adds", "statement": "For all selbri with jai, with or without a tag, at any depth, a bare sumti in the first place is labelled as the place that jai adds and the sumti with fai as the old first place.", "quantifier": "all chains, all terms", "why_tests_cant": "jai nests and interacts with se, be and FA.", "anchors": ["terms.c: tu_assign_places", "terms.c: assign_pos"]}
{"id": "C67", "title": "The terms of a sentence reach every selbri they belong to", "statement": "In a sentence, abstraction or relative clause the terms before a group of bridi tails and the terms after the group belong to every selbri of the group (gi'e, gi'e bo, gi'e ke, ge gi, nested to any depth, with prenexes, cu, NA and tags), nearer terms first, and every word of each selbri that takes terms labels them with the right places and with nothing else.", "quantifier": "all parse trees", "why_tests_cant": "Bridi tails nest without bound, and the vectors of terms are passed down through six mutually recursive functions.", "anchors": ["terms.c:375-427 process_subsentence", "terms.c:1086-1428 process_main_selbri to process_statement_3"]}
{"id": "C68", "title": "The gloss of a converted selbri is that of the place that stands first", "statement": "The word of a selbri with any chain of se, te, ve and xe is glossed as the dictionary place that the converted selbri has first, exactly the words of SE lose their own gloss, and this is the same place as the label of the first sumti before the selbri; with a tagged jai this holds of the part inside the innermost jai.", "quantifier": "all chains of conversions", "why_tests_cant": "Conversions compose as permutations; the program composes them from the inside and the labels from the outside.", "anchors": ["terms.c: assign_conversion"]}
{"id": "C69", "title": "Terms go to the right words inside a selbri", "statement": "Of a tanru the last part takes the terms, every part of a logical connection (jek, bo, guhek, ke) takes all of them, of an inverted tanru (co) the first part takes the terms before and the last part those after it, and conversions and linked sumti apply to what they stand before, innermost last; nothing else in the selbri is labelled.", "quantifier": "all selbri whose chains have at most 20 members, all vectors of terms", "why_tests_cant": "The walk goes through eleven levels of the grammar with recursion at several of them.", "anchors": ["terms.c: process_selbri to process_tanru_unit_2"]}
{"id": "C70", "title": "The terms of every sentence of a text are labelled", "statement": "For every tree that the grammar can build for a text, the pass over it does not fail, and its log is: for every sentence, in the order of the text, the labels that the reading of the sentence gives to its terms; then for every sumti with linked terms; then for every tanru unit with links inside a description. Sentences in relative clauses, abstractions, quotations and free modifiers are each labelled on their own.", "quantifier": "all trees of the grammar, of any depth", "why_tests_cant": "The trees are unbounded and built from 1143 rules; a test covers a few of them.", "anchors": ["terms.c: terms_processing", "terms.c: scan_for_statements", "rpc2x.y"]}
{"id": "C71", "title": "Connectives are shown with their truth tables", "statement": "For every tree that the grammar can build, the pass for connectives ends without failure, and what it hangs on nodes is exactly: on every afterthought connective ([na] [se] A/JA/GIhA [nai]) the truth table of the function that the words mean, with the first part negated by na, the parts exchanged by SE and the second part negated by nai; on every forethought connective and on its gi the truth table, with the first part negated by the nai after it and the second by the nai after gi; on forethought joi and tense connectives and their gi the link to the joik or tag and both negations. Questions get QQQQ. ja'a does not negate.", "quantifier": "all trees of the grammar, of any depth; all words of A, JA, GIhA, GUhA, GA", "why_tests_cant": "The table has to agree with the meaning in every combination and at every depth of nesting, and nothing else may be hung on nodes; tests see a few sentences.", "anchors": ["connect.c: connectives_processing", "rpc2x.y"]}
{"id": "C72", "title": "Tense words are glossed by where they stand", "statement": "For every tree that the grammar can build, the pass for tenses ends without reaching its abort, and gives a context to a tense word or group exactly when the nearest place around it that decides it exists: term for a tag of a sumti, link in a connective, noun in a description, selbri in front of a selbri or alone with ku, jaitag after jai, connect in a forethought connective; a selbri in mathematics, in a vocative or after fi'o gives none.", "quantifier": "all trees of the grammar, of any depth", "why_tests_cant": "The walk outwards meets any sequence of node types that 1143 rules allow; that it never reaches the abort and always stops at the right node is a fact about all of them.", "anchors": ["tenses.c: tense_processing", "rpc2x.y"]}
{"id": "C73", "title": "Relative clauses know what they are about", "statement": "For every tree that the grammar can build, the pass for relative clauses ends without a message of failure, and what it hangs on nodes is exactly: each clause knows its antecedent, which is the sumti, the description, the sumti after la'e or na'e bo, the owner, the name or the vocative in which it stands, and the antecedent is shown in brackets; each ke'a and the nearest clause with NOI around it know of each other; the GOI before a tagged sumti is not shown; nothing else.", "quantifier": "all trees of the grammar, of any depth", "why_tests_cant": "The nearest clause is found by a walk outwards through any sequence of node types, and the antecedent by the type of the enclosing node; tests see a few sentences.", "anchors": ["relative.c: relative_clause_processing", "rpc2x.y"]}
{"id": "C74", "title": "The warning about a missing selbri is given for exactly the fragments made of terms", "statement": "For every tree that the grammar can build, the scan for errors ends, and warns of exactly the fragments that consist of terms (with vau and free modifiers after them).", "quantifier": "all trees of the grammar, of any depth", "why_tests_cant": "That the scan never asks for a child that is not there, and that no other fragment has terms as its first child, is a fact about all rules of the grammar.", "anchors": ["errorscan.c: error_scan", "rpc2x.y"]}
{"id": "C75", "title": "SE before a modal word is not lost", "statement": "For every tree that the grammar can build, the pass over SE and BAI ends without failure, and what it hangs on nodes is exactly: each word of BAI knows the place that the SE before it chooses (2 for se, 3 for te, 4 for ve, 5 for xe), or the first place if there is no SE; this SE is not shown; nothing else.", "quantifier": "all trees of the grammar, of any depth", "why_tests_cant": "That the assertions about SE never fail, and that no BAI is missed in any position the grammar allows, is a fact about all rules; tests see a few sentences.", "anchors": ["conversion.c: conv_tag_se_bai", "rpc2x.y"]}
{"id": "C76", "title": "Words in tanru are glossed by the place that SE and JAI around them choose", "statement": "For every tree that the grammar can build, the pass over units of tanru ends without failure, and each brivla and abstractor that terms.c has not dealt with knows which of its places is the first place of the largest unit of which it is the last part: the first place sent through all SE and JAI around it, from the outside to the inside; a place that JAI takes away is 0. These SE are not shown. A modifier of a tanru, also one before bo, is not changed by SE around the tanru; both parts of a forethought connection are.", "quantifier": "all trees of the grammar, of any depth; all sequences of SE, NAhE, JAI, ke and connectives around a word", "why_tests_cant": "The walk outwards passes any sequence of thirteen node types and must stop at the right one without meeting the failing default case; only a proof over all rules shows that.", "anchors": ["conversion.c: conv_mark_tu2s, compute_tu2_conv", "rpc2x.y"]}
{"id": "C77", "title": "Words are glossed as verbs in selbri and as nouns in sumti", "statement": "For every tree that the grammar can build, the pass for the form of glosses ends without failure, and each brivla, zei-lujvo, abstractor and JAI gets the form of a verb exactly if the nearest of main selbri, JAI, sumti, tag, free modifier, operand and operator around it is a main selbri or JAI, and the form of a noun exactly if it is a sumti or tag; nothing else gets a form.", "quantifier": "all trees of the grammar, of any depth", "why_tests_cant": "The state is handed down through any nesting; tests see a few sentences.", "anchors": ["conversion.c: conv_mark_gloss_types", "rpc2x.y"]}
{"id": "C78", "title": "The last parts of tanru are told from their modifiers", "statement": "For every tree that the grammar can build, the scan of selbri ends without failure, and the brivla, zei-lujvo and abstractors that are marked to be glossed as nouns or verbs, and not as adjectives, are exactly those in the last part of the nearest tanru around them, where each group with ke is a tanru of its own, all parts of a logical connection count, and a part before bo is a modifier; JAI with a tag in a last part is marked too.", "quantifier": "all trees of the grammar, of any depth", "why_tests_cant": "The scan is recursive in two ways, with marks on the nodes done; tests see a few tanru.", "anchors": ["conversion.c: selbri_scan", "conversion.c: do_conversions", "rpc2x.y"]}
{"id": "C79", "title": "The display shows every word of the text once and in order", "statement": "For every tree that the grammar can build, and whatever glosses, labels and brackets the nodes have, the display ends without a failed assertion, and what it shows of the Lojban text is the tree written out: each word exactly once and in order, with the bracket of each node around exactly the words of that node, so that brackets nest and each is closed with its own number.", "quantifier": "all trees of the grammar, of any depth; all glosses, labels and brackets", "why_tests_cant": "The display walks the tree in five modes that call each other (words without glosses, glosses without words, texts for labels); a word shown twice or left out would need the one construction and mode that does it.", "anchors": ["output.c: output_internal", "output.c: output_term", "output.c: output_sumti_tail", "output.c: output_fore_or_afterthought", "output.c: output_clustered", "output.c: output_simple_time_offset"]}
{"id": "C80", "title": "Bracket numbers identify parts of the text", "statement": "For every tree that the grammar can build, the brackets of the display are numbered 1, 2, 3, … in the order of opening, every node to which a label or gloss refers by number has a bracket, no two brackets have the same number, and the number shown after ke'a is that of the bracket around the antecedent of the nearest relative clause.", "quantifier": "all trees of the grammar whose nodes are distinct objects; all ke'a in them", "why_tests_cant": "The number shown in one place is made in another by a walk over the whole tree, and the reference crosses three passes; tests see only a few constructions.", "anchors": ["output.c: add_bracketing_internal", "output.c: translate_koha", "relative.c: process_any_rel_clause", "relative.c: process_keha"]}
{"id": "C81", "title": "The display in blocks shows the whole text", "statement": "For every tree that the grammar can build and every width, the display in blocks (textblk.c) prints rows of blocks that stand side by side: in each row the Lojban, the English and all labels of a block begin in the same column and all lines have the same length; read in order the Lojban lines are the whole text with its brackets, the English lines are all glosses, and every block carries the labels given for it; no row is wider than the limit unless it is a single block; and the driver never writes outside of its buffers.", "quantifier": "all trees of the grammar; all glosses, labels and brackets; all widths", "why_tests_cant": "The layout depends on all texts and labels so far; a label can be overwritten or a line overflow only for rare combinations of texts and width.", "anchors": ["textblk.c: flush_block", "textblk.c: write_close_bracket", "textblk.c: write_lojban_text", "textblk.c: append_to_width", "output.c: output_term"]}
{"id": "C82", "title": "The display in running text shows the tree and keeps texts apart", "statement": "For every tree that the grammar can build and each of the drivers for plain text, HTML and LaTeX, the words and brackets that are given out are the tree written out, each word once and in its place; the glosses and labels are those asked for, in order; and between any two words or glosses there is white space.", "quantifier": "all trees of the grammar; all glosses, labels and brackets; all sequences of calls; three drivers", "why_tests_cant": "Whether a blank is needed depends on what was given out before, over all combinations of brackets, labels, ends of line and texts; tests see a few of them.", "anchors": ["textout.c: write_lojban_text", "textout.c: write_open_bracket", "htmlout.c: write_translation", "latex.c: latex_write_open_bracket", "output.c: output_internal"]}
{"id": "C83", "title": "The HTML page is well nested and glosses are escaped", "statement": "For every tree that the grammar can build the page is printed, every element that is opened is closed in the reverse order, and a gloss appears on the page with its markup characters replaced.", "quantifier": "all trees of the grammar; all glosses, labels and quoted texts", "why_tests_cant": "The words, glosses and labels come from the text and the dictionary; a test that has no markup character in them sees no fault.", "anchors": ["htmlout.c: make_htmlsafe", "htmlout.c: write_lojban_text", "htmlout.c: start_tags", "htmlout.c: end_tags", "output.c: output_term"]}
{"id": "C84", "title": "TeX can read the LaTeX output and shows the glosses", "statement": "Whatever is displayed, in the body of the LaTeX output all groups and mathematics are closed, no special character is bare, and what TeX typesets for a gloss is the gloss.", "quantifier": "all sequences of calls; all texts", "why_tests_cant": "The texts come from the user and the dictionary; each special character has to be looked at in each place where a text is printed.", "anchors": ["latex.c: make_texsafe", "latex.c: write_translation", "latex.c: write_partial_tag_text"]}
{"id": "C85", "title": "The display in blocks for LaTeX shows the whole text and TeX can read it", "statement": "For every tree that the grammar can build, the blocks that latexblk.c prints show, read in order, the whole Lojban text with its brackets, all glosses and all labels; and in what is printed all groups and mathematics are closed and no special character is bare.", "quantifier": "all trees of the grammar; all glosses, labels and brackets; all sequences of calls", "why_tests_cant": "Texts wait in three buffers until some later call prints them; what is left in a buffer depends on how the text ends.", "anchors": ["latexblk.c: flush_block", "latexblk.c: write_close_bracket", "latexblk.c: write_lojban_text", "latexblk.c: latex_block_driver", "latex.c: latex_write_epilog"]}
{"id": "C86", "title": "Numbers in labels lead to a bracket that is shown", "statement": "For every tree that the grammar can build: when a label refers to another part of the text by number (jai with a tag, me, nu'a, a number before moi, a compound with zei), the number is that of a bracket that is shown around a part of the text of the right kind, and no other bracket has this number.", "quantifier": "all trees of the grammar; all labels made by terms.c; all drivers", "why_tests_cant": "Brackets are asked for in one pass, numbered in another and shown in a third; whether each reference got its bracket depends on the combination of terms, links and conversions in the text.", "anchors": ["terms.c: process_tanru_unit_2_args", "terms.c: assign_places", "output.c: add_bracketing_internal", "output.c: output_term"]}
{"id": "C87", "title": "The gloss of a word is the first entry in a fixed order of headwords", "statement": "For every dictionary and every word, the gloss that is shown is the entry of the first headword that the dictionary has in the order for its kind: a tense word in its place in the sentence before the word as such, jai by its role, a word in BAI with the prefix of its conversion, a cluster of cmavo as a whole; a brivla is glossed for the place that its conversions put first and as the part of speech of its role; an indicator together with its nai, after the gloss of its degree.", "quantifier": "all dictionaries, words and properties", "why_tests_cant": "The dictionary is a file that users replace; which of several headwords wins depends on which others are missing.", "anchors": ["output.c:185-295", "output.c:345-714", "output.c:716-842", "output.c:1187-1256"]}
{"id": "C88", "title": "The Lojban that is shown is the Lojban of the source", "statement": "For every tree that the grammar can build and every dictionary, each word is shown as it is spelled, with a full stop before a vowel and after a name; terminators that were left out are in capitals; nai and words for degrees that were taken together with an indicator are shown after it, none is lost.", "quantifier": "all trees of the grammar; all dictionaries; all runs of indicators", "why_tests_cant": "Which words are folded into one node depends on the whole run of indicators.", "anchors": ["output.c:357-452", "output.c:716-842", "output.c:1441-1458", "lex2.c:725-820"]}
{"id": "C89", "title": "Choosing a gloss stays inside the buffers", "statement": "For every word and every dictionary, nothing is written outside of the buffers for the word and its gloss, and no null pointer is read.", "quantifier": "all words, quotations, dictionaries and properties", "why_tests_cant": "It takes quotations, numbers or entries of a thousand characters, or an entry that is missing for one degree of an indicator.", "anchors": ["output.c:185-842", "output.c:1280", "output.c:1441-1458"]}
{"id": "C90", "title": "Labels with numbers show the number of the bracket", "statement": "For every place and every dictionary: the label of a term shows the word and its place with the gloss of that place as a tag; for me and words in MOI the number of the bracket stands in the gloss where the dictionary has %d, and in the label.", "quantifier": "all labels, places, numbers and entries", "why_tests_cant": "The entry of the dictionary is used as a format; what is printed depends on every character of it.", "anchors": ["output.c:844-983"]}
{"id": "C91", "title": "Every command line is understood, answered or refused", "statement": "For every list of arguments: an option counts wherever it stands and changes nothing but what the manual says, of several widths or file names the last counts, the first unknown option ends the program with status 1 before anything is read, a question for help or the version with status 0, and no list of arguments makes the program read beyond the arguments.", "quantifier": "all lists of arguments", "why_tests_cant": "The options interact through the order of a chain of comparisons, through prefixes (-w, -) and through a loop that moves its own counter; tests see a few combinations.", "anchors": ["main.c: main"]}
{"id": "C92", "title": "The text is shown exactly when the status is 0", "statement": "For every run with understood arguments: the text is displayed exactly once, in the one format that the options select, when the file is there, all words are words and the parser reports no error, and then the exit status is 0; otherwise nothing of the text is displayed and the status is 1 (no file, or the parser gave up), 2 (errors after which the parser went on) or 3 (words that are none). Before a display by a driver all passes are made, each once and in their order.", "quantifier": "all lists of arguments; all results of lexer, preprocessing and parser", "why_tests_cant": "Scripts rely on the status; the cases combine independent failures at five points of the program with sixteen switches.", "anchors": ["main.c: main", "main.c: yyerror"]}
{"id": "C93", "title": "Noun or verb is never decided from memory without a value", "statement": "When the display glosses a convertible word or a jai and finds a record of the kind of gloss, the member in_selbri of that record has been written by the pass that decides between noun and verb.", "quantifier": "all parse trees with distinct nodes", "why_tests_cant": "The record comes from malloc, so a test sees whatever happened to be there; which texts have such a record depends on the grammar around the word at any depth.", "anchors": ["properties.c: prop_glosstype", "conversion.c: conv_mark_gloss_types, selbri_scan", "output.c: translate_convertible, translate_jai"]}
{"id": "C94", "title": "The whole way from the parse tree to the display works", "statement": "For every parse tree whose nodes are distinct objects: the six passes of main.c and the display made from what they leave end without undefined behaviour; the words shown are the words of the text as they are spelled, each once and in order; brackets are nested and numbered one after the other; a number in a label or after ke'a is that of a bracket that is shown around the part meant.", "quantifier": "all parse trees, all dictionaries, all words at the leaves", "why_tests_cant": "The passes communicate through properties hung on shared nodes; only a composition over all trees shows that what one leaves is what the next needs.", "anchors": ["main.c:305-330", "terms.c: terms_processing", "conversion.c: do_conversions", "tenses.c: tense_processing", "connect.c: connectives_processing", "relative.c: relative_clause_processing", "output.c: add_bracketing_tags, output"]}
{"id": "C95", "title": "Every term is shown with its labels", "statement": "In the display of a text the labels of a term (which place of which selbri it fills) stand at the start of that term, inside its bracket and before its words, once and in the order in which they were given; there are no labels anywhere else. Each label shows the word it refers to, or the number of the bracket that is shown around what it refers to, together with the place and the gloss of that place.", "quantifier": "for all parse trees of the grammar, all dictionaries, and all displays that end", "why_tests_cant": "The tree, the number of terms and of labels per term are unbounded, and the labels are made two passes before they are shown; tests see a few sentences.", "anchors": ["output.c:834-974", "output.c:1287-1400", "main.c:309-325"]}
{"id": "C96", "title": "cmafihe glosses a lujvo by its components", "statement": "A lujvo that is not in the dictionary is glossed by the glosses of its components, in order and with hyphens between them; the letters that tie components are not part of them; a conversion (sel, ter, vel, xel) is for the component after it.", "quantifier": "for all lists of rafsi joined as in a lujvo, all final components and all dictionaries", "why_tests_cant": "Lujvo have any number of components and each may be tied in several ways; tests see a few words.", "anchors": ["cm_translate.c:107-238", "cm_translate.c:62-101"]}
{"id": "C97", "title": "cmafihe tells fu'ivla from lujvo", "statement": "A word made of rafsi as a lujvo is never taken for a fu'ivla; a word with a hyphen letter between consonants is glossed by what stands before the first such letter and shows the rest as it is. For every text the search ends and stays inside its buffers.", "quantifier": "for all lujvo, all texts of up to 300 bytes and all dictionaries with entries of up to 600 bytes", "why_tests_cant": "The words are unbounded in number and length; the test looks at three letters at a time anywhere in the word.", "anchors": ["cm_translate.c:242-322"]}
{"id": "C98", "title": "The scanner of cmafihe finds every word whole and of its kind", "statement": "In every text, a word of Lojban letters that is followed by the end, a blank or any character that is no letter, comma or dot is found by the scanner of cmafihe as exactly one token, never cut and never joined with what follows, and its kind is the one its form says: names end with a consonant, cmavo (also several written together, with dots) have no two consonants side by side, brivla begin with a consonant, end with a vowel and are not cmavo written together, or have a rafsi CVC before y in front. Every gismu and every lujvo (with r or n after a first rafsi CVV) is a brivla.", "quantifier": "every word of every form, every text after it, every text of words", "why_tests_cant": "The scanner is generated from overlapping patterns by longest match and rule order; which of them wins depends on the whole word and on what follows it, for infinitely many words.", "anchors": ["cm_scan.l:14-63"]}
{"id": "C99", "title": "The scanner of cmafihe loses no text and passes brackets through", "statement": "The scanner of cmafihe comes to the end of every text, wherever it stands some rule matches at least one character, and the texts of the tokens put together are the text. Text in brackets, with brackets of either kind in it, is found as text in brackets up to the bracket that closes the first one, and what follows is scanned as if it stood alone.", "quantifier": "every text, every depth of brackets, every balanced text in brackets", "why_tests_cant": "A character without a rule or a wrong depth shows only in texts that happen to contain it; brackets nest without bound.", "anchors": ["cm_scan.l:46-63"]}
{"id": "C100", "title": "cmafihe prints one entry for each word, with its gloss and class", "statement": "For every text of words, with blanks, stops, signs, empty lines and text in brackets between them, and every format, cmafihe shows one entry for each word in their order: the word as it was written, the class, and the gloss of the dictionary; brivla that are not in the dictionary get the gloss made of their parts, cmavo that are not there are cut into the longest known ones; text in brackets is shown as it was written.", "quantifier": "every dictionary, every text of Lojban words of at most 62 letters, every format", "why_tests_cant": "It holds of scanner, list, lookup and display together, for texts and dictionaries without bound.", "anchors": ["cm_main.c:23-88", "cm_gather.c:40-288", "cm_output.c:92-215", "cm_scan.l:46-63"]}
{"id": "C101", "title": "The arguments of cmafihe count in any order", "statement": "Of several formats, widths and files on the command line of cmafihe the last of each counts, in whatever order they stand; -v, -h or --help anywhere end the program with status 0; a file that cannot be opened ends it with status 1.", "quantifier": "every command line", "why_tests_cant": "The loop runs over any number of arguments, and an option takes the argument after it, so that the orders and lengths are unbounded.", "anchors": ["cm_main.c:23-70"]}
{"id": "C102", "title": "The parser's log of reductions stays inside its array", "statement": "While a text is parsed, the log for back-traces holds exactly the reductions since the last token that was shifted, and no write goes past the end of its array.", "quantifier": "every sequence of shifts and reductions, and every tree of the grammar", "why_tests_cant": "Tests use short texts; how many reductions follow one token depends on how deeply the text is nested, which has no bound.", "anchors": ["tracebk.c:14-65", "add_trace_to_tabc.pl:25-45"]}
{"id": "C103", "title": "The back-trace tells what the parser was doing", "statement": "After a syntax error the report on the error stream lists the last token, the reductions since it, the tokens that could come next, and for each state on the stack the rules under way with the place that was reached, as in the grammar of bison; nothing is written to the output of the program.", "quantifier": "every grammar, its states, every log and every stack", "why_tests_cant": "The tables are flattened into eight arrays with indices between them; a test sees one error in one state, of some thousand states and rules.", "anchors": ["tracebk.c:27-161", "output2table.pl:16-261"]}
{"id": "C104", "title": "Records hung on nodes are found again", "statement": "A pass that asks for the record of a kind on a node gets the same record that an earlier pass got, holding what was last written to it; a node that was given none has none; records of different nodes or kinds never share memory; a new record for glosses says that the word is no tertau.", "quantifier": "every sequence of making nodes, asking for records of the 18 kinds, reading and writing fields, by all passes", "why_tests_cant": "Which records a node has, and in which order they were hung on, depends on the text and on the order of the passes; a test sees a few of them.", "anchors": ["properties.c:18-265", "nodes.h:129-148", "nodes.h:354-358", "functions.c:77-86"]}
{"id": "C105", "title": "Parents lead up the tree and nodes know where they start", "statement": "In every tree that the parser makes, with terminators put in or left out, the parent of a node is the non-terminal above it, so that going up n times leads to its n-th ancestor, also after words with BAhE and indicators have been put into nodes of their own; a non-terminal, other than the list of chunks at the top, starts at the line and column of its first word.", "quantifier": "every tree of the grammar, every place of the words, every choice of terminators", "why_tests_cant": "The passes over the tree go up by any number of steps, through any of 1143 rules; the tests compare output for some texts only.", "anchors": ["functions.c:25-69", "functions.c:89-453", "tree.c:566-629"]}
{"id": "C106", "title": "The elision monitor is told the truth about the grammar", "statement": "For every report of bison, the bit table that output2elide.pl writes and elide.c reads says that a token can be shifted in a state just when the report lists that shift, and no lookup of a listed token reads outside the table; the range LO_SUBSCRIPT to HI_SUBSCRIPT picks out just the rules whose left side is subscript.", "quantifier": "every list of terminals and codes, every list of states with their shifts, every state and every code from the lowest to the highest; every list of rules with one group for subscript of two or more alternatives", "why_tests_cant": "The table depends on the version of bison and on the whole grammar; a wrong bit only shows in a text that reaches that state with that word.", "anchors": ["output2elide.pl:14-112", "elide.c:110-120", "elide.c:582"]}
{"id": "C107", "title": "uncom takes out comments and nothing else", "statement": "For every file made of text, of the comments /* error */ and /* ET X */ that later tools need, and of other comments nested to any depth, uncom removes just the other comments; a text with no beginning of a comment is not changed; after a comment that is not closed everything is lost without an error.", "quantifier": "every list of pieces: texts of any length, comments of any depth", "why_tests_cant": "The grammar that bison gets is the output of uncom; a comment that is cut wrongly changes rules silently, and only files of the forms tried are tested.", "anchors": ["uncom.l:29-44", "Makefile.in:59-73"]}
{"id": "C108", "title": "The dictionary in the program says what its sources say", "statement": "For every list of lines without backslashes in entries and without quotes in words, the C table that dict2inc.pl writes compiles, and dict_lookup on it gives for every word the meaning on the last line about it, or nothing if no line is about it; on plain lines the script takes the same two fields as the compiler of dictionary files.", "quantifier": "every list of lines, every word", "why_tests_cant": "A dictionary has thousands of entries and the search depends on the order of all of them; the two readers of the same sources are separate programs in different languages.", "anchors": ["dict2inc.pl:11-35", "dictaccs.c:31-38", "dictaccs.c:180-211", "Makefile.in:97-98"]}
{"id": "C109", "title": "From the word lists to the dictionary: every rafsi leads to its gismu", "statement": "For every list of gismu and list of cmavo in the columns of reduced_gismu and reduced_cmavo, whatever blanks stand between the rafsi, the dictionary that mkdict.pl and dict2inc.pl build answers: for @ and a rafsi (or a gismu less its last letter) the last gismu that has it, for % and a rafsi the meaning of that gismu, for + and a cmavo its selma'o, and for a word its meaning as a cmavo or else as a gismu; all other such keys are not found.", "quantifier": "all lists of gismu and cmavo, all layouts in columns, all keys", "why_tests_cant": "Tests run one pair of word lists; the columns, blanks and clashing rafsi of other lists are not covered.", "anchors": ["mkdict.pl:9-55", "dict2inc.pl:1-40", "dictaccs.c"]}
{"id": "C110", "title": "The table of rafsi agrees with the dictionary", "statement": "For every list of gismu in columns (words of at most five letters, no tabs), the table canonluj.pl makes is in ascending order as bsearch needs it, lookup_component gives for each rafsi the last gismu that has it and ? otherwise, and the dictionary made from the same list names the same gismu for exactly the same rafsi.", "quantifier": "all word lists, all rafsi, every bsearch that keeps its contract", "why_tests_cant": "Two scripts cut the same file at different columns; tests see one list, in which no word reaches the sixth column.", "anchors": ["canonluj.pl:8-27", "canonluj.c:80-116", "mkdict.pl:9-32"]}
{"id": "C111", "title": "The random text generator can say every word, and says what it chose", "statement": "Each word of a selma'o that rtg.pl chooses from with pick or pickx is chosen for some random number, something is always chosen, the text is the chosen words in order with a blank or line end after each, and every finished line is longer than 72 characters and at most 73 and a word.", "quantifier": "all lists of words, all 32-bit random numbers, all sequences of words", "why_tests_cant": "A word that is never chosen is not seen missing in any number of random texts.", "anchors": ["rtg/rtg.pl:30-54", "rtg/rtg.pl:98-116", "rtg/rtg.pl:118-120", "rtg/rtg.pl:190-194"]}
{"id": "C112", "title": "dfasyn reads what is written and names the right line", "statement": "For every sequence of tokens of the input language of dfasyn, in any of their spellings and with any blanks, line ends and comments between them, the scanner returns exactly these tokens, each with the number of its line, and copies nothing else to the output than the text between %{ and %}, which it copies unchanged.", "quantifier": "all token sequences, all layouts, all pass-through blocks", "why_tests_cant": "Files of the repository use a few layouts; wrong line numbers show only in error messages, and a comment at the end of a file without line end only in someone else's file.", "anchors": ["dfasyn/scan.l:21-80", "dfasyn/n2d.c:1438-1442"]}
{"id": "C113", "title": "The gloss of a lujvo comes from the word lists", "statement": "For every list of gismu and list of cmavo in columns and every lujvo whose components are not conversions, cmafihe with the dictionary built from the lists glosses the lujvo by the meanings that the lists give for its rafsi and its last word, in order, with hyphens between them and ? for a component that no entry has.", "quantifier": "all word lists, all lujvo without conversions", "why_tests_cant": "It needs the whole chain of four programs; a test runs it for one list and a few words.", "anchors": ["mkdict.pl:9-55", "dict2inc.pl:1-36", "dictaccs.c", "cm_translate.c:40-236"]}
{"id": "C114", "title": "Expressions in the files of dfasyn have one meaning, the one of C", "statement": "For every sequence of tokens: the parser of dfasyn takes it as an expression exactly when the layered grammar allows it, and then with its grouping: ~ before &, & before ^, ^ before |, | before ? :, joined parts from the left and choices from the right; no sequence has two groupings, everything else is a syntax error.", "quantifier": "all token sequences", "why_tests_cant": "The rules of parse.y alone are ambiguous, and the grouping comes from five lines of precedences whose effect depends on the order of the lines and on the last token of each rule; the files of the repository use few nested expressions.", "anchors": ["dfasyn/parse.y:49-55", "dfasyn/parse.y:178-186"]}
{"id": "C115", "title": "Every file of dfasyn has at most one reading, and declarations written out are read back", "statement": "For every sequence of tokens and every list of declarations: the parser of dfasyn reads the sequence as these declarations exactly when it is what the rules of parse.y write for them; no sequence has two readings; and from a text in which the tokens of the declarations stand with any blanks, line ends and comments, scanner and parser together give back the declarations.", "quantifier": "all token sequences, all declarations, all layouts", "why_tests_cant": "The rules have empty options, optional attributes and sequences without separators (two transitions can follow each other with nothing between, and a transition can start with its arrow), so that ambiguity can only be excluded by an argument about all files.", "anchors": ["dfasyn/parse.y:57-186", "dfasyn/scan.l:21-80"]}
{"id": "C116", "title": "The automata that the theorems are about are those that dfasyn reads in the files", "statement": "The declarations from which the automata for words and for bad names are built in this model are exactly what the scanner, the parser and the storing actions of dfasyn make of the bytes of morf_nfa.in and bctables.in.", "quantifier": "all bytes of the two files", "why_tests_cant": "A test of the generated tables on words does not show that a line of the file was read as something else; a single misread line among a thousand changes the class of few words.", "anchors": ["morf_nfa.in:1-1044", "bctables.in:1-75", "dfasyn/parse.y:57-186", "dfasyn/scan.l:21-80"]}
{"id": "C117", "title": "The tables for tenses accept exactly the tenses", "statement": "The tables that dfasyn generates from the text of stag_nfa.in accept exactly the sequences of words that the description of simple_tense_modal allows, jam as soon as the words cannot be completed to a tense, never read outside of their arrays on words of tenses, and a word that is no word of tenses has no next state.", "quantifier": "all sequences of words of tenses, all qsort implementations, with and without -ud", "why_tests_cant": "The sequences are unbounded, and scanner, parser, block instantiation, subset construction, state merging and table compression all have to be right for the file.", "anchors": ["stag_nfa.in:17-131", "categ.c:291-349", "categ.c:352-372", "dfasyn/n2d.c:1297-1314"]}
{"id": "C118", "title": "Instances of blocks are copies, and every accepted dfasyn file gives a well-formed NFA", "statement": "An instance of a block adds a copy of every state of the block, with the same exit values, attributes and transitions among the copies, and changes nothing else. Whatever the input file, if dfasyn gets as far as an NFA, all transitions lead to existing states, all tokens in them are declared, and the start state exists.", "quantifier": "all dfasyn input files (as trees of declarations), all blocks and instances", "why_tests_cant": "Input files are unbounded trees with nested instances and inline blocks; tests exercise the three files of the repository.", "anchors": ["dfasyn/n2d.c:409-593", "dfasyn/parse.y:67-154"]}
