{
 "C23": {
  "note": "all connectors and all lengths"
 },
 "C61": {
  "note": "range and monotonicity for every sound rounding; commutativity, iteration and De Morgan for every rounding; associativity and max <= Or in exact arithmetic, false with IEEE 754 (C61_rounding_counterexample), except max <= Or for floats from 2^-29 (C61_or_partial)"
 },
 "C62": {
  "note": "deduction and induction for every sound rounding; all three functions, with confidence below 1/2, both in exact arithmetic and with the rounding of IEEE 754 (C62_ieee)",
  "status": "proved"
 },
 "C63": {
  "note": "full round trip through w/w_p/set_w in exact arithmetic; the free functions w_to_f/truth_from_w lose the frequency when the evidence is at most 1e-8 (counterexample); with IEEE 754 the amounts do not add up and the frequency is not restored exactly (C63_rounding_counterexample), but both hold up to a relative error of 2^-20 (C63_error_partial)"
 },
 "C64": {
  "note": "in exact arithmetic, holds whenever the total evidence exceeds 1e-8; below that the revised frequency is 0 (counterexample). For every rounding the order of two premises does not matter. With IEEE 754 confidence need not rise, can become 1, and the order of a sequence matters (counterexamples), but the result of a revision is right up to a relative error of 2^-20 (C64_error_partial)"
 },
 "C65": {
  "note": "code uses integer division: with a positive decay duration the confidence never changes (counterexample to strict decrease); overflow of the decay duration increases it (counterexample)"
 },
 "C66": {
  "note": "range for every sound rounding; lower bound 3/7 exact, and the double nearest to 3/7 with IEEE 754 (C66_ieee)"
 },
 "C67": {
  "note": "tables are right, the accessors return bool (counterexample)"
 },
 "C69": {
  "note": "ExtensionalDifference is exported as ParallelEvents (counterexample)"
 },
 "C54": {
  "note": "for all clock values below 2^31-5 (C54_partial), and for later ones what is reported is right for the low 32 bits of the clock if these are below 2^31-5 (C54_later_partial); the bound is exact: at every time from it on some occurrence time is reported wrongly (C54_every_time_counterexample; narrowing to int)"
 },
 "C55": {
  "note": "marks denote absolute times 5, 0, -5: C55_exact_partial says exactly when each is reported as entered (future at time 0 only, present before 5, past always); counterexamples: all times from 10, and future at all later times"
 },
 "C56": {
  "note": "C56_exact_partial: untensed sentences, one translation unit, histories of any length: ids are shared exactly by sentences a multiple of 2^64 apart; tensed sentences have no base and each translation unit counts separately (counterexamples)"
 },
 "C57": {
  "note": "exact result of extend in all cases, including aliasing: the base's own evidence is lost (counterexample)"
 },
 "C58": {
  "note": "everything except that a fresh id is added to the result (counterexample)"
 },
 "C59": {
  "note": "for all bases reachable by any history"
 },
 "C60": {
  "note": "for all histories without copies and without extend on a hashed base; counterexamples for both"
 },
 "C68": {
  "note": "Symbols injective; every copula symbol is read back as that copula only, at every place the grammar has a copula; the same for connectors written before their arguments, except List, which is printed with # but not in the grammar (counterexample). Complete round trips of terms are C41, infix notation C72, abbreviating copulas C53."
 },
 "C01": {
  "note": "all address pairs, atoms and operations"
 },
 "C02": {
  "note": "proved for addresses in [2^32,2^63) and intervals 0..2^31-1; counterexamples: constant at a low heap address vs an interval, Interval(-127) vs $x"
 },
 "C03": {
  "note": "whenever == answers it decides equality of plain trees; it answers if the left operand has only independent variables; otherwise undefined, and with constants below 4 GiB a constant equals an interval (C03_counterexample)"
 },
 "C04": {
  "note": "on terms with only independent variables; counterexamples: reflexivity for #x and ?x, transitivity through Interval(-127)"
 },
 "C05": {
  "note": "< always defined; == undefined for two dependent or two query variables (counterexamples, also nested)"
 },
 "C06": {
  "note": "irreflexive on all constructed terms; strict weak order on sets of terms with one variable index each whose equal hashes are explained; counterexample <$x-->$y> / <$y-->$x>"
 },
 "C07": {
  "note": "false unless both sides are the same term: exact characterisation, and counterexample"
 },
 "C08": {
  "note": "all constructed terms, statements and ordered compounds; counterexample: identifying variables in a commutative compound"
 },
 "C09": {
  "note": "operator+ and histories of it; operator+= keeps the old hash (counterexample for all operands)"
 },
 "C10": {
  "note": "for terms told apart by hash, or by the index of their single variable; general statement without that assumption in C10_commutative_any"
 },
 "C11": {
  "note": "for operands whose elements are told apart (hash, or variable index); counterexample: a constant at a low address and an interval with the same hash"
 },
 "C12": {
  "note": "empty operand list and non-first operands rejected; a non-commutative first operand is silently taken as empty (counterexample)"
 },
 "C13": {
  "note": "for arguments the comparator orders strictly (or whenever one order succeeds and no two differing arguments are equivalent); counterexample: <$x-->$y>, <$y-->$x> make construction undefined"
 },
 "C14": {
  "note": "all connectors, all argument lists"
 },
 "C15": {
  "note": "the two union rules in full; intersections have the right components but keep the connector, differences are never reduced (both shown for all inputs)"
 },
 "C16": {
  "note": "all connectors, argument lists, enumeration orders"
 },
 "C17": {
  "note": "ordered connectors in full; commutative ones when every nested compound has enough components, no sets are intersected and comparisons are consistent; counterexample (||,(&&,A,A),B)"
 },
 "C18": {
  "note": "single arguments that are not commutative compounds; commutative compounds are always unwrapped (general counterexample)"
 },
 "C19": {
  "note": "never throws (all inputs); defined in the regular case; counterexample (||,(&&,A,A),(&&,B,B)) dereferences an empty set"
 },
 "C20": {
  "note": "all inputs and enumeration orders"
 },
 "C21": {
  "note": "all enumeration orders, whenever no two different rebuilt arguments are equivalent under the comparator; counterexample: a constant at a low address and an interval with the same hash"
 },
 "C22": {
  "note": "&/ in full; commutative connectors when the connector occurs only at the top of the arguments; counterexample {[{A,B},C]}"
 },
 "C24": {
  "note": "complexity as an unbounded integer (the C++ field is an int)"
 },
 "C26": {
  "note": "independent variables in full; other kinds on atoms and on terms without that kind; C26_wrong_kind says what the tables contain otherwise"
 },
 "C28": {
  "note": "any history in which nothing is read between connect and build, updates are not nested and rebuild is not used; C28_constructor shows that the term constructors behave so and refines the table values used in Term.lean; four counterexamples otherwise"
 },
 "C29": {
  "note": "value equality at every level, and sharing on the object graph"
 },
 "C30": {
  "note": "holds for all histories (with assignments) whose new addresses do not agree in the low 32 bits with a living one; colliding addresses are wrong (counterexamples)"
 },
 "C31": {
  "note": "exact correspondence without handle assignment; assignment leaks the entry, colliding addresses break it (counterexamples)"
 },
 "C32": {
  "note": "holds for histories that never rebind a key or a name; rebinding is wrong (counterexamples)"
 },
 "C33": {
  "note": "all counts and interleavings"
 },
 "C34": {
  "note": "lookups of present keys change nothing, further lookups never change their answers; check does change (counterexamples)"
 },
 "C35": {
  "note": "keys equal exactly if the addresses agree modulo 2^32 (counterexample at 4 GiB)"
 },
 "C36": {
  "note": "holds when both or none of name and ^name are alive; wrong in the other two cases (counterexamples)"
 },
 "C37": {
  "note": "C37_defined_iff_partial characterises exactly the constructed terms with a defined plain rendering; five counterexamples for the rest"
 },
 "C38": {
  "note": "injective for all constructed terms whose operation statements have the usual form and whose names are words; counterexamples for other subjects of operation statements and for key clashes"
 },
 "C39": {
  "note": "all terms with a defined rendering whose names and copulas have no braces; names with braces are altered (counterexample)"
 },
 "C40": {
  "note": "exact arithmetic in full; for floating point with the bound 0.0005 plus rounding errors, 2^-22 for binary32 (C40_ieee_partial); C40_rounding_counterexample: 0.0005 is exceeded with binary32"
 },
 "C70": {
  "note": "plain printing in full for the four sentence classes; coloured printing always throws; Sentence objects made from Python without class or truth value are undefined (counterexamples)"
 },
 "C42": {
  "note": "narsese.par is transcribed as data (Ebnf.lean) and every production and lexer state of the tables is checked against it; for both memory models"
 },
 "C43": {
  "note": "the derivation relation also gives the syntax tree nodes; the grammar is ambiguous, the tree is one a derivation prescribes"
 },
 "C45": {
  "note": "at most 24 rounds of the main loop per character and 6 more; with the real memory: returns or is undefined (C46)"
 },
 "C46": {
  "note": "false (five counterexamples). Proved: for accepted lines of any length with short tokens, the exact condition for leaving the stack (C46_stack_exact), that nesting up to 44 fits (C46_nested_44_partial) and that nesting beyond 371 never does (C46_too_deep_partial), so what reaches the interpreter is nested at most 371 deep (C46_interpreter_depth); neither 44 nor 371 can be improved (C46_nested_counterexample); for lines of any length, accepted or not, with at most 14 parentheses (weighted together with the other brackets and the minus signs), that the memory suffices (C46_openings_partial; 16 parentheses do not); for lines of at most 121 characters whether accepted or not. Rejected lines: up to the error message. Missing: quoted names and tokens of more than 120 characters in longer lines, and the exact condition for rejected lines with many opening characters."
 },
 "C47": {
  "note": "for every buffer, every error_delay, both memory models"
 },
 "C48": {
  "note": "never accepted, and rejected with unlimited memory; in the code as it is the error message is undefined (counterexample)"
 },
 "C49": {
  "note": "False for rejected inputs before the first accepted one (member ast uninitialised) and after an exception (old tree evaluated again). Proved: accepted inputs, rejected inputs after a call that returned, variable numbers, independence of the syntax phase. C49_blocked_partial: after an exception no rejected line returns, in any number and whatever happens between, until a line is accepted."
 },
 "C71": {
  "note": "error_delay uninitialised. C71_exact_partial: of all values of an int, exactly 0, 1 and 2 are without effect on all histories; counterexamples for every other value (from 3 on a line too many is accepted, negative ones overflow). Proved without effect for lines of Narsese without tabs and histories of them (any value; C71_tree_partial: accepted with their one tree), for any lines and values the call ends and an accepted line is Narsese with at most one piece put in; and without effect for any lines if the value is below 3 or is not counted down to 3 within the rounds. C71_types_partial: with any value, the actions find in an accepted tree the types they expect and throw only from std::stod."
 },
 "C44": {
  "note": "From the typing of every grammar rule (checked over the whole grammar) and induction over derivations; the type-incorrect case is an arbitrary parameter `bad` and the outcome does not depend on it."
 },
 "C50": {
  "note": "For every accepted text, every machine and every session: the variables of the term of the task carry the position of their name in the list of distinct names of the kind in text order; equal numbers iff equal names."
 },
 "C51": {
  "note": "On syntax trees: two accepted texts whose trees differ by renaming variables (injective on those that occur) have the same outcome, atoms, globals, budget, truth, stamp, and terms with the same tree and caches; operator== cannot tell the terms apart."
 },
 "C53": {
  "note": "The three copulas: full, for constructed terms; in texts: same task and state, at all places, if the subject of {-- or {-] is not itself written as {..} or (|,..). op(a,..): full. (^op,a,..): same statement up to the order of evaluation; the rest is false (counterexample)."
 },
 "C72": {
  "note": ""
 },
 "C52": {
  "note": "C52_values gives truth value and budget of every parsed task exactly, from the numerals in the text, for every sound rounding and the configuration of Config.cpp. Closed ranges hold for every sound rounding (assumed: float represents -1), open ranges without rounding; C52_confidence_counterexample and C52_durability_counterexample show 1 with the rounding of IEEE 754; C52_defaults_counterexample shows that tasks without budget do not get the defaults of their type. Numbers beyond the range of float are not modelled as infinities."
 },
 "C73": {
  "note": "For every iteration order of the hash sets (M.ord any permutation). == is not included: it is undefined for terms with dependent or query variables, see C05."
 },
 "C74": {
  "note": "Exact characterisation for all lines without tabs, unlimited memory; with the real memory for lines of at most 121 characters, and for lines of any length with short tokens that have few opening characters or are nested at most 44 deep (C74_nested_44_partial); lines of Narsese nested more than 371 deep are never accepted, the behaviour is undefined (C74_too_deep_partial). Tabs: counterexample."
 },
 "C75": {
  "note": "For lines without tabs and unlimited memory. Tabs: counterexample."
 },
 "C41": {
  "note": "C41_roundtrip_partial: a printed term plus a full stop is accepted by the generated parser and the judgement's term has the same tree and caches, for all terms with nothing left to reduce, variables numbered in order, words as names, no abbreviation copulas. Counterexamples for each of these conditions, two of them (merging, numbering) with terms the parser itself makes."
 },
 "C76": {
  "note": "Proved for compounds with nothing left to reduce (Steady). Constructors reduce their components once only, so a constructed compound can have something left: counterexample {C, {B, A}}, made from {[{A, B}, C]}."
 },
 "C77": {
  "note": "Proved for every accepted line whose evaluation gives a task, with sound rounding that is exact on the integers a double holds exactly. Counterexample: a time mark outside int is accepted but its conversion is undefined. The lines of Narsese are exactly the texts with such parts (C77_shape). The parts are determined by the line, and every way of taking an accepted line apart tells what its task has; this is shown for lines without tabs."
 },
 "C78": {
  "note": "Occurrences are those of what the term reads (shape), so the claim does not refer to caches; complexity follows with C24."
 },
 "C79": {
  "note": "Missing: allocators whose addresses collide with living ones in the low 32 bits (C30), and lines that reach an operation when only one of go and ^go is known (C79_operation_counterexample). FreshBelow is inhabited (roomy_fresh)."
 },
 "C80": {
  "note": "Missing: durabilities printed as 0.00 or 1.00 and confidences printed as 0.000 or 1.000 (rejected, counterexamples), evidence constants and exact times of occurrence (not printed, counterexamples), terms outside C41. Assumed of fmt: {:.nf} prints a nearest number with n decimals (inhabited: fixed_ok); of the machine: relative error of float and double at most 1e-6 (inhabited: mach_ok)."
 },
 "C81": {
  "note": "C81_line covers reading; C81_end_partial the end of the task, under the hypotheses of C79 and if the class under which an object is deleted does not matter (C82). Missing: lines during which an action throws leak (C81_leak_counterexample)."
 },
 "C82": {
  "note": "False in three ways (counterexamples; C82_end_counterexample and C82_terms_counterexample hold for every accepted line). C82_line_partial: lines without tense and truth value are read with every delete under the class of the new."
 },
 "C83": {
  "note": "False in two ways (counterexamples): rejected lines lose all their nodes, and the tree of a line whose actions threw is lost by the next accepted line. C83_parse and C83_tree: parsing never leaves its nodes, and the blocks of an accepted line are exactly its tree, which ast_free gives back. C83_calls_partial: any history of calls."
 },
 "C84": {
  "note": "C84_throw holds in every state, and so does C84_in_range (a line with a numeral out of range is never a task). C84_outcomes_partial lists all ways an accepted line can end, under C79's hypotheses (fresh addresses, both names of an operation known or none) and IEEE-like rounding. C84_progress_partial gives a condition on the line alone under which there is a task; commutative compounds without variables may be nested when the connector is the same, and with other connectors when they have no commutative compounds in them, are sets or have two names, and, where they are intersected, consist of names with one in common; several components may have variables if they are variables, statements that differ in one place and compounds that differ in one place, and the same holds of what is in these places; missing: other commutative compounds inside, other sets of components with variables. C84_undefined_counterexample shows an accepted line for each cause of undefined behaviour."
 },
 "C85": {
  "note": "C85_repeat_partial: the outcome is a function of the atoms the names stand for. C85_again_partial: a second reading at any later time, the atoms still held, gives the same task. C85_held_partial and C85_twice_partial give the hypotheses for lines whose commutative compounds have components the comparator tells apart; C85_words_partial gives a syntactic class of these. Missing: names dropped by merging, allocators that collide in the low 32 bits, operations of which one name is known. C85_operation_counterexample: the code violates the full statement for (^go,A)."
 },
 "C86": {
  "note": "False: confidence 1, which the parser and revision itself can give, makes revision return NaNs, and these stay. Products and quality are always numbers; revision is as long as confidences are below 1. Zeros have no sign in this model."
 },
 "C87": {
  "note": "C87_text_partial: the printed text is what the line says, up to the order in commutative compounds. C87_line_partial, C87_sessions_partial: with at most one component in each, the text is a function of the line. Missing: commutative compounds directly inside commutative ones, operations as predicates (C37), hash clashes (C33). The code violates the full statement: C87_order_counterexample, C87_call_counterexample."
 },
 "C88": {
  "note": "C88_dictionary_partial, C88_never_partial and C88_printed_partial: invariants of all histories of reads, rejected lines, lines during which an action throws, and drops, with fresh addresses, where each operation is known under both names or none when it is read. Handles left behind by lines that threw are accounted for, and never given back. Missing: that such lines leave nothing behind (C88_throw_counterexample), operations of which one name is known (C88_operation_counterexample), colliding addresses (C30), hash clashes when printing (C33)."
 },
 "C89": {
  "note": "C89_echo_partial: for all histories, and tasks whose compounds have as many components as the grammar wants and nothing left to reduce, whose statements about operations are calls, with non-negative intervals, variables numbered in order, ASCII names, operations whose bare name is known, no hash clash, and durability and confidence not printed as 0 or 1. Missing: the other tasks (C89_single_counterexample, counterexamples of C41 and C80)."
 },
 "C90": {
  "note": "the member functions `__repr__` do what the claim says (C90_term, C90_address, C90_task; C90_faithful_partial with C38). Called from Python they get too few arguments and raise a TypeError (C90_python_counterexample), except for truth values and budgets"
 },
 "C91": {
  "note": "C91_outcome_partial: for ASCII lines without tabs that have at most 121 characters, or short tokens and few opening characters, in any state after a call that returned. Missing: the class of the exception (C91_class_counterexample), the first call (C91_state_counterexample), undefined behaviour as in C46 and C84"
 },
 "C92": {
  "note": "C92_stubs, C92_only and C92_registered if the compiler merges empty string literals, C92_aligned in general. C92_merging_counterexample: otherwise there are prototypes without a name."
 },
 "C93": {
  "note": "C93_dump."
 },
 "C94": {
  "note": "C94_defined_partial, C94_known_partial, C94_counts_partial, C94_stays_partial, C94_freed_partial for programs whose addresses do not collide (C30), whose operations are known under both names or none (C36), and that use elements of a compound only while it is kept; C94_owning_partial: programs that ask no compound for its terms need not care; C94_terms_counterexample: without the last it is false."
 },
 "C95": {
  "note": "C95_values_partial, C95_memory_partial, C95_loop_partial if the type under which the hidden object is used does not matter, for programs that neither assign iterators nor use the value of k++; C95_delete_counterexample, C95_read_counterexample (for every container), C95_assign_counterexample, C95_post_counterexample (for every iterator not at the end)."
 },
 "C96": {
  "note": "C96_loop_partial and C96_legible_partial for lines of the language that are known to go well (C84, C87); C96_main_partial: the six lines main prints, unless a hash clashes with the key of an atom; C96_rejected_counterexample: whatever is read before it, a line that is rejected makes main dereference a null pointer."
 },
 "C97": {
  "note": "C97_loop_partial for lines of the kind C84 asks for, and lines outside the language with as much memory as needed; C97_efficiency_partial: test_efficiency1 to test_efficiency5, any number of times; C97_disabled_partial: the lines of the tests that are not compiled, in any order, except for three; missing: allocators that give addresses equal in the low 32 bits to those of living terms. C97_first_counterexample: no first line outside the language is survived."
 },
 "C98": {
  "note": "C98_test: the line is read from the start of the program on every machine with fresh addresses for two words, and the test passes for any objects with the value of the term; C98_checks: for every compound of the kind the test needs. The tables of variables are taken to be as distinct as the terms that own them."
 },
 "C99": {
  "note": "C99_lines and C99_wanted: the lines of a file and what is taken of a line, all bytes; C99_files_partial: any number of files whose tasks are all Fair (as in C96), with the texts; C99_legible_partial: also tasks with commutative compounds, every text being that of a task made from the line; C99_examples_partial: files made of any of 286 of the 302 lines in examples/single_step/nal1 to nal9. Missing: rejected lines and lines for which isdigit is undefined (both counterexamples), what is missing in C96."
 },
 "C100": {
  "note": "C100_same_partial, C100_task_partial: one call against parse_string and parse_task, all lines without NUL; C100_taken_partial: an accepted line is taken with its newline and nothing more; C100_rejected_partial: nothing of the next line is ever taken; C100_lines_partial, C100_short_partial: any number of accepted lines. C100_numbers_partial: over any number of lines the variables are numbered by first occurrence in all lines together. Missing: rejected lines, a last line without newline, names of variables and bytes above 127 (counterexamples)."
 },
 "C101": {
  "note": "C101_last: every member has the value of the last line that gave it one, all programs; C101_alias: one assignment, all names; C101_sentence: a sentence prints the present contents of its truth value; C101_range_partial: values written between 0 and 1 stay so. Missing: values outside are not refused, and None is not (counterexamples)."
 },
 "C102": {
  "note": "C102_same_partial: two programs that read the same lines with any of their parsers get the same; C102_returns_partial: without the limit of the parse stack the other program returns; C102_one_partial: several parsers give what one gives. Missing: rejected lines on a new parser and after a line that threw (counterexamples)."
 },
 "C103": {
  "note": "C103_truth, C103_budget: what is shown alike is near; C103_kind: truth values and budgets are told apart; C103_given: numbers with two decimals are shown as written."
 }
}
