{
 "claims": [
  {
   "property": "C01",
   "status": "proved",
   "theorems": [
    "Cnars.Props.C01_distinct_atoms"
   ],
   "note": "all address pairs, atoms and operations"
  },
  {
   "property": "C02",
   "status": "partial",
   "theorems": [
    "Cnars.Props.C02_kinds_distinct_partial",
    "Cnars.Props.C02_low_address_counterexample",
    "Cnars.Props.C02_negative_interval_counterexample"
   ],
   "note": "proved for addresses in [2^32,2^63) and intervals 0..2^31-1; counterexamples: constant at a low heap address vs an interval, Interval(-127) vs $x"
  },
  {
   "property": "C03",
   "status": "partial",
   "theorems": [
    "Cnars.Props.C03_structural_partial",
    "Cnars.Props.C03_counterexample"
   ],
   "note": "whenever == answers it decides equality of plain trees; it answers if the left operand has only independent variables; otherwise undefined, and with constants below 4 GiB a constant equals an interval (C03_counterexample)"
  },
  {
   "property": "C04",
   "status": "partial",
   "theorems": [
    "Cnars.Props.C04_equivalence_partial",
    "Cnars.Props.C04_reflexivity_counterexample",
    "Cnars.Props.C04_transitivity_counterexample"
   ],
   "note": "on terms with only independent variables; counterexamples: reflexivity for #x and ?x, transitivity through Interval(-127)"
  },
  {
   "property": "C05",
   "status": "partial",
   "theorems": [
    "Cnars.Props.C05_comparison_defined_partial",
    "Cnars.Props.C05_eq_undefined_counterexample",
    "Cnars.Props.C05_eq_undefined_nested_counterexample"
   ],
   "note": "< always defined; == undefined for two dependent or two query variables (counterexamples, also nested)"
  },
  {
   "property": "C06",
   "status": "partial",
   "theorems": [
    "Cnars.Props.C06_irreflexive_partial",
    "Cnars.Props.C06_strict_weak_order_partial",
    "Cnars.Props.C06_asymmetry_counterexample"
   ],
   "note": "irreflexive on all constructed terms; strict weak order on sets of terms with one variable index each whose equal hashes are explained; counterexample <$x-->$y> / <$y-->$x>"
  },
  {
   "property": "C07",
   "status": "partial",
   "theorems": [
    "Cnars.Props.C07_symmetric_only_if_same_partial",
    "Cnars.Props.C07_similarity_counterexample"
   ],
   "note": "false unless both sides are the same term: exact characterisation, and counterexample"
  },
  {
   "property": "C08",
   "status": "partial",
   "theorems": [
    "Cnars.Props.C08_hash_ignores_variables_partial",
    "Cnars.Props.C08_statement_partial",
    "Cnars.Props.C08_merging_counterexample"
   ],
   "note": "all constructed terms, statements and ordered compounds; counterexample: identifying variables in a commutative compound"
  },
  {
   "property": "C09",
   "status": "partial",
   "theorems": [
    "Cnars.Props.C09_add_partial",
    "Cnars.Props.C09_add_history_partial",
    "Cnars.Props.C09_constructed_partial",
    "Cnars.Props.C09_add_assign_counterexample"
   ],
   "note": "operator+ and histories of it; operator+= keeps the old hash (counterexample for all operands)"
  },
  {
   "property": "C10",
   "status": "proved",
   "theorems": [
    "Cnars.Props.C10_commutative",
    "Cnars.Props.C10_commutative_any",
    "Cnars.Props.C10_ordered",
    "Cnars.Props.C10_push_back"
   ],
   "note": "for terms told apart by hash, or by the index of their single variable; general statement without that assumption in C10_commutative_any"
  },
  {
   "property": "C11",
   "status": "partial",
   "theorems": [
    "Cnars.Props.C11_union_partial",
    "Cnars.Props.C11_intersection_partial",
    "Cnars.Props.C11_difference_partial",
    "Cnars.Props.C11_collision_counterexample"
   ],
   "note": "for operands whose elements are told apart (hash, or variable index); counterexample: a constant at a low address and an interval with the same hash"
  },
  {
   "property": "C12",
   "status": "partial",
   "theorems": [
    "Cnars.Props.C12_rejects_partial",
    "Cnars.Props.C12_first_operand_counterexample"
   ],
   "note": "empty operand list and non-first operands rejected; a non-commutative first operand is silently taken as empty (counterexample)"
  },
  {
   "property": "C13",
   "status": "partial",
   "theorems": [
    "Cnars.Props.C13_order_free_partial",
    "Cnars.Props.C13_order_free_of_success_partial",
    "Cnars.Props.C13_undefined_counterexample"
   ],
   "note": "for arguments the comparator orders strictly (or whenever one order succeeds and no two differing arguments are equivalent); counterexample: <$x-->$y>, <$y-->$x> make construction undefined"
  },
  {
   "property": "C14",
   "status": "proved",
   "theorems": [
    "Cnars.Props.C14_ordered",
    "Cnars.Props.C14_sequential"
   ],
   "note": "all connectors, all argument lists"
  },
  {
   "property": "C15",
   "status": "partial",
   "theorems": [
    "Cnars.Props.C15_extensional_union",
    "Cnars.Props.C15_intensional_union",
    "Cnars.Props.C15_extensional_intersection_partial",
    "Cnars.Props.C15_intensional_intersection_partial",
    "Cnars.Props.C15_intersection_counterexample",
    "Cnars.Props.C15_difference_counterexample"
   ],
   "note": "the two union rules in full; intersections have the right components but keep the connector, differences are never reduced (both shown for all inputs)"
  },
  {
   "property": "C16",
   "status": "proved",
   "theorems": [
    "Cnars.Props.C16_nothing_invented"
   ],
   "note": "all connectors, argument lists, enumeration orders"
  },
  {
   "property": "C17",
   "status": "partial",
   "theorems": [
    "Cnars.Props.C17_nothing_lost_partial",
    "Cnars.Props.C17_ordered",
    "Cnars.Props.C17_dropped_counterexample"
   ],
   "note": "ordered connectors in full; commutative ones when every nested compound has enough components, no sets are intersected and comparisons are consistent; counterexample (||,(&&,A,A),B)"
  },
  {
   "property": "C18",
   "status": "partial",
   "theorems": [
    "Cnars.Props.C18_single_partial",
    "Cnars.Props.C18_unwrapped_counterexample",
    "Cnars.Props.C18_conjunction_counterexample"
   ],
   "note": "single arguments that are not commutative compounds; commutative compounds are always unwrapped (general counterexample)"
  },
  {
   "property": "C19",
   "status": "partial",
   "theorems": [
    "Cnars.Props.C19_never_throws",
    "Cnars.Props.C19_defined_partial",
    "Cnars.Props.C19_empty_counterexample"
   ],
   "note": "never throws (all inputs); defined in the regular case; counterexample (||,(&&,A,A),(&&,B,B)) dereferences an empty set"
  },
  {
   "property": "C20",
   "status": "proved",
   "theorems": [
    "Cnars.Props.C20_terminates",
    "Cnars.Props.C20_depth"
   ],
   "note": "all inputs and enumeration orders"
  },
  {
   "property": "C21",
   "status": "partial",
   "theorems": [
    "Cnars.Props.C21_enumeration_partial",
    "Cnars.Props.C21_enumeration_counterexample"
   ],
   "note": "all enumeration orders, whenever no two different rebuilt arguments are equivalent under the comparator; counterexample: a constant at a low address and an interval with the same hash"
  },
  {
   "property": "C22",
   "status": "partial",
   "theorems": [
    "Cnars.Props.C22_flat_partial",
    "Cnars.Props.C22_sequential",
    "Cnars.Props.C22_nested_counterexample"
   ],
   "note": "&/ in full; commutative connectors when the connector occurs only at the top of the arguments; counterexample {[{A,B},C]}"
  },
  {
   "property": "C23",
   "status": "proved",
   "theorems": [
    "Cnars.Props.C23_check_valid"
   ],
   "note": "all connectors and all lengths"
  },
  {
   "property": "C24",
   "status": "proved",
   "theorems": [
    "Cnars.Props.C24_complexity",
    "Cnars.Props.C24_history_independent"
   ],
   "note": "complexity as an unbounded integer (the C++ field is an int)"
  },
  {
   "property": "C25",
   "status": "proved",
   "theorems": [
    "Cnars.Props.C25_flags"
   ],
   "note": ""
  },
  {
   "property": "C26",
   "status": "partial",
   "theorems": [
    "Cnars.Props.C26_variable_index_partial",
    "Cnars.Props.C26_wrong_kind",
    "Cnars.Props.C26_dependent_counterexample"
   ],
   "note": "independent variables in full; other kinds on atoms and on terms without that kind; C26_wrong_kind says what the tables contain otherwise"
  },
  {
   "property": "C27",
   "status": "proved",
   "theorems": [
    "Cnars.Props.C27_length",
    "Cnars.Props.C27_order",
    "Cnars.Props.C27_range",
    "Cnars.Props.C27_idempotent"
   ],
   "note": ""
  },
  {
   "property": "C28",
   "status": "partial",
   "theorems": [
    "Cnars.Props.C28_fresh_partial",
    "Cnars.Props.C28_build_terminates",
    "Cnars.Props.C28_cycle_counterexample",
    "Cnars.Props.C28_nested_add_counterexample",
    "Cnars.Props.C28_nested_remove_counterexample",
    "Cnars.Props.C28_early_read_counterexample",
    "Cnars.Props.C28_rebuild_counterexample",
    "Cnars.Props.C28_constructor"
   ],
   "note": "any history in which nothing is read between connect and build, updates are not nested and rebuild is not used; C28_constructor shows that the term constructors behave so and refines the table values used in Term.lean; four counterexamples otherwise"
  },
  {
   "property": "C29",
   "status": "proved",
   "theorems": [
    "Cnars.Props.C29_same_value",
    "Cnars.Props.C29_sharing",
    "Cnars.Props.C29_iterated"
   ],
   "note": "value equality at every level, and sharing on the object graph"
  },
  {
   "property": "C30",
   "status": "partial",
   "theorems": [
    "Cnars.Props.C30_defined_partial",
    "Cnars.Props.C30_interning_partial",
    "Cnars.Props.C30_counterexample",
    "Cnars.Props.C30_null_counterexample"
   ],
   "note": "holds for all histories (with assignments) whose new addresses do not agree in the low 32 bits with a living one; colliding addresses are wrong (counterexamples)"
  },
  {
   "property": "C31",
   "status": "partial",
   "theorems": [
    "Cnars.Props.C31_entries_partial",
    "Cnars.Props.C31_stay_partial",
    "Cnars.Props.C31_assign_counterexample",
    "Cnars.Props.C31_collision_counterexample"
   ],
   "note": "exact correspondence without handle assignment; assignment leaks the entry, colliding addresses break it (counterexamples)"
  },
  {
   "property": "C32",
   "status": "partial",
   "theorems": [
    "Cnars.Props.C32_agree_partial",
    "Cnars.Props.C32_two_names_counterexample",
    "Cnars.Props.C32_two_keys_counterexample"
   ],
   "note": "holds for histories that never rebind a key or a name; rebinding is wrong (counterexamples)"
  },
  {
   "property": "C33",
   "status": "proved",
   "theorems": [
    "Cnars.Props.C33_balance",
    "Cnars.Props.C33_n_times"
   ],
   "note": "all counts and interleavings"
  },
  {
   "property": "C34",
   "status": "partial",
   "theorems": [
    "Cnars.Props.C34_get_counterexample",
    "Cnars.Props.C34_get_by_name_counterexample",
    "Cnars.Props.C34_present_partial",
    "Cnars.Props.C34_answers_partial"
   ],
   "note": "lookups of present keys change nothing, further lookups never change their answers; check does change (counterexamples)"
  },
  {
   "property": "C35",
   "status": "partial",
   "theorems": [
    "Cnars.Props.C35_keys",
    "Cnars.Props.C35_near_partial",
    "Cnars.Props.C35_counterexample"
   ],
   "note": "keys equal exactly if the addresses agree modulo 2^32 (counterexample at 4 GiB)"
  },
  {
   "property": "C36",
   "status": "partial",
   "theorems": [
    "Cnars.Props.C36_interning_partial",
    "Cnars.Props.C36_null_counterexample",
    "Cnars.Props.C36_twice_counterexample"
   ],
   "note": "holds when both or none of name and ^name are alive; wrong in the other two cases (counterexamples)"
  },
  {
   "property": "C37",
   "status": "partial",
   "theorems": [
    "Cnars.Props.C37_defined_iff_partial",
    "Cnars.Props.C37_plain_partial",
    "Cnars.Props.C37_colored_partial",
    "Cnars.Props.C37_empty_counterexample",
    "Cnars.Props.C37_operation_counterexample",
    "Cnars.Props.C37_implication_counterexample",
    "Cnars.Props.C37_copula_counterexample",
    "Cnars.Props.C37_name_counterexample"
   ],
   "note": "C37_defined_iff_partial characterises exactly the constructed terms with a defined plain rendering; five counterexamples for the rest"
  },
  {
   "property": "C38",
   "status": "partial",
   "theorems": [
    "Cnars.Props.C38_faithful_partial",
    "Cnars.Props.C38_connector_counterexample",
    "Cnars.Props.C38_clash_counterexample"
   ],
   "note": "injective for all constructed terms whose operation statements have the usual form and whose names are words; counterexamples for other subjects of operation statements and for key clashes"
  },
  {
   "property": "C39",
   "status": "partial",
   "theorems": [
    "Cnars.Props.C39_color_partial",
    "Cnars.Props.C39_brace_counterexample"
   ],
   "note": "all terms with a defined rendering whose names and copulas have no braces; names with braces are altered (counterexample)"
  },
  {
   "property": "C40",
   "status": "partial",
   "theorems": [
    "Cnars.Props.C40_ieee_partial",
    "Cnars.Props.C40_rounding_counterexample",
    "Cnars.Props.C40_exact",
    "Cnars.Props.C40_float_partial"
   ],
   "note": "exact arithmetic in full; for floating point with the bound 0.0005 plus rounding errors, 2^-22 for binary32 (C40_ieee_partial); C40_rounding_counterexample: 0.0005 is exceeded with binary32"
  },
  {
   "property": "C41",
   "status": "partial",
   "theorems": [
    "Cnars.Props.C41_roundtrip_partial",
    "Cnars.Props.C41_short_partial",
    "Cnars.Props.C41_merging_counterexample",
    "Cnars.Props.C41_numbering_counterexample",
    "Cnars.Props.C41_negative_counterexample",
    "Cnars.Props.C41_copula_counterexample",
    "Cnars.Props.C41_operation_counterexample"
   ],
   "note": "C41_roundtrip_partial: a printed term plus a full stop is accepted by the generated parser and the judgement's term has the same tree and caches, for all terms with nothing left to reduce, variables numbered in order, words as names, no abbreviation copulas. Counterexamples for each of these conditions, two of them (merging, numbering) with terms the parser itself makes."
  },
  {
   "property": "C42",
   "status": "proved",
   "theorems": [
    "Cnars.Props.C42_accepted"
   ],
   "note": "narsese.par is transcribed as data (Ebnf.lean) and every production and lexer state of the tables is checked against it; for both memory models"
  },
  {
   "property": "C43",
   "status": "proved",
   "theorems": [
    "Cnars.Props.C43_tree"
   ],
   "note": "the derivation relation also gives the syntax tree nodes; the grammar is ambiguous, the tree is one a derivation prescribes"
  },
  {
   "property": "C44",
   "status": "proved",
   "theorems": [
    "Cnars.Props.C44_types"
   ],
   "note": "From the typing of every grammar rule (checked over the whole grammar) and induction over derivations; the type-incorrect case is an arbitrary parameter `bad` and the outcome does not depend on it."
  },
  {
   "property": "C45",
   "status": "proved",
   "theorems": [
    "Cnars.Props.C45_terminates"
   ],
   "note": "at most 24 rounds of the main loop per character and 6 more; with the real memory: returns or is undefined (C46)"
  },
  {
   "property": "C46",
   "status": "partial",
   "theorems": [
    "Cnars.Props.C46_openings_partial",
    "Cnars.Props.C46_modest_partial",
    "Cnars.Props.C46_openings_counterexample",
    "Cnars.Props.C46_stack_counterexample",
    "Cnars.Props.C46_buffer_counterexample",
    "Cnars.Props.C46_message_counterexample",
    "Cnars.Props.C46_short_accepted_partial",
    "Cnars.Props.C46_short_rejected_partial",
    "Cnars.Props.C46_stack_exact",
    "Cnars.Props.C46_nested_accepted_partial",
    "Cnars.Props.C46_nested_44_partial",
    "Cnars.Props.C46_too_deep_partial",
    "Cnars.Props.C46_interpreter_depth",
    "Cnars.Props.C46_nested_counterexample"
   ],
   "note": "false (five counterexamples). Proved: for accepted lines of any length with short tokens, the exact condition for leaving the stack (C46_stack_exact), that nesting up to 44 fits (C46_nested_44_partial) and that nesting beyond 371 never does (C46_too_deep_partial), so what reaches the interpreter is nested at most 371 deep (C46_interpreter_depth); neither 44 nor 371 can be improved (C46_nested_counterexample); for lines of any length, accepted or not, with at most 14 parentheses (weighted together with the other brackets and the minus signs), that the memory suffices (C46_openings_partial; 16 parentheses do not); for lines of at most 121 characters whether accepted or not. Rejected lines: up to the error message. Missing: quoted names and tokens of more than 120 characters in longer lines, and the exact condition for rejected lines with many opening characters."
  },
  {
   "property": "C47",
   "status": "proved",
   "theorems": [
    "Cnars.Props.C47_first_line"
   ],
   "note": "for every buffer, every error_delay, both memory models"
  },
  {
   "property": "C48",
   "status": "partial",
   "theorems": [
    "Cnars.Props.C48_not_accepted",
    "Cnars.Props.C48_rejected",
    "Cnars.Props.C48_message_counterexample"
   ],
   "note": "never accepted, and rejected with unlimited memory; in the code as it is the error message is undefined (counterexample)"
  },
  {
   "property": "C49",
   "status": "partial",
   "theorems": [
    "Cnars.Props.C49_uninitialised_counterexample",
    "Cnars.Props.C49_throw_counterexample",
    "Cnars.Props.C49_accepted_partial",
    "Cnars.Props.C49_rejected_partial",
    "Cnars.Props.C49_names_partial",
    "Cnars.Props.C49_syntax_partial",
    "Cnars.Props.C49_blocked_partial"
   ],
   "note": "False for rejected inputs before the first accepted one (member ast uninitialised) and after an exception (old tree evaluated again). Proved: accepted inputs, rejected inputs after a call that returned, variable numbers, independence of the syntax phase. C49_blocked_partial: after an exception no rejected line returns, in any number and whatever happens between, until a line is accepted."
  },
  {
   "property": "C50",
   "status": "proved",
   "theorems": [
    "Cnars.Props.C50_numbers",
    "Cnars.Props.C50_same"
   ],
   "note": "For every accepted text, every machine and every session: the variables of the term of the task carry the position of their name in the list of distinct names of the kind in text order; equal numbers iff equal names."
  },
  {
   "property": "C51",
   "status": "proved",
   "theorems": [
    "Cnars.Props.C51_renaming"
   ],
   "note": "On syntax trees: two accepted texts whose trees differ by renaming variables (injective on those that occur) have the same outcome, atoms, globals, budget, truth, stamp, and terms with the same tree and caches; operator== cannot tell the terms apart."
  },
  {
   "property": "C52",
   "status": "partial",
   "theorems": [
    "Cnars.Props.C52_confidence_counterexample",
    "Cnars.Props.C52_durability_counterexample",
    "Cnars.Props.C52_values",
    "Cnars.Props.C52_closed_partial",
    "Cnars.Props.C52_open_partial",
    "Cnars.Props.C52_defaults_counterexample"
   ],
   "note": "C52_values gives truth value and budget of every parsed task exactly, from the numerals in the text, for every sound rounding and the configuration of Config.cpp. Closed ranges hold for every sound rounding (assumed: float represents -1), open ranges without rounding; C52_confidence_counterexample and C52_durability_counterexample show 1 with the rounding of IEEE 754; C52_defaults_counterexample shows that tasks without budget do not get the defaults of their type. Numbers beyond the range of float are not modelled as infinities."
  },
  {
   "property": "C53",
   "status": "partial",
   "theorems": [
    "Cnars.Props.C53_copulas",
    "Cnars.Props.C53_abbreviations_partial",
    "Cnars.Props.C53_call_partial",
    "Cnars.Props.C53_call_counterexample"
   ],
   "note": "The three copulas: full, for constructed terms; in texts: same task and state, at all places, if the subject of {-- or {-] is not itself written as {..} or (|,..). op(a,..): full. (^op,a,..): same statement up to the order of evaluation; the rest is false (counterexample)."
  },
  {
   "property": "C54",
   "status": "partial",
   "theorems": [
    "Cnars.Props.C54_later_partial",
    "Cnars.Props.C54_every_time_counterexample",
    "Cnars.Props.C54_partial",
    "Cnars.Props.C54_counterexample"
   ],
   "note": "for all clock values below 2^31-5 (C54_partial), and for later ones what is reported is right for the low 32 bits of the clock if these are below 2^31-5 (C54_later_partial); the bound is exact: at every time from it on some occurrence time is reported wrongly (C54_every_time_counterexample; narrowing to int)"
  },
  {
   "property": "C55",
   "status": "partial",
   "theorems": [
    "Cnars.Props.C55_exact_partial",
    "Cnars.Props.C55_every_time_counterexample",
    "Cnars.Props.C55_partial",
    "Cnars.Props.C55_counterexample"
   ],
   "note": "marks denote absolute times 5, 0, -5: C55_exact_partial says exactly when each is reported as entered (future at time 0 only, present before 5, past always); counterexamples: all times from 10, and future at all later times"
  },
  {
   "property": "C56",
   "status": "partial",
   "theorems": [
    "Cnars.Props.C56_exact_partial",
    "Cnars.Props.C56_wrap_counterexample",
    "Cnars.Props.C56_partial",
    "Cnars.Props.C56_tense_counterexample",
    "Cnars.Props.C56_units_counterexample"
   ],
   "note": "C56_exact_partial: untensed sentences, one translation unit, histories of any length: ids are shared exactly by sentences a multiple of 2^64 apart; tensed sentences have no base and each translation unit counts separately (counterexamples)"
  },
  {
   "property": "C57",
   "status": "partial",
   "theorems": [
    "Cnars.Props.C57_partial",
    "Cnars.Props.C57_counterexample"
   ],
   "note": "exact result of extend in all cases, including aliasing: the base's own evidence is lost (counterexample)"
  },
  {
   "property": "C58",
   "status": "partial",
   "theorems": [
    "Cnars.Props.C58_partial",
    "Cnars.Props.C58_counterexample"
   ],
   "note": "everything except that a fresh id is added to the result (counterexample)"
  },
  {
   "property": "C59",
   "status": "proved",
   "theorems": [
    "Cnars.Props.C59_overlap"
   ],
   "note": "for all bases reachable by any history"
  },
  {
   "property": "C60",
   "status": "partial",
   "theorems": [
    "Cnars.Props.C60_partial",
    "Cnars.Props.C60_counterexample"
   ],
   "note": "for all histories without copies and without extend on a hashed base; counterexamples for both"
  },
  {
   "property": "C61",
   "status": "partial",
   "theorems": [
    "Cnars.Props.C61_range",
    "Cnars.Props.C61_algebra_partial",
    "Cnars.Props.C61_rounded",
    "Cnars.Props.C61_order_partial",
    "Cnars.Props.C61_rounding_counterexample",
    "Cnars.Props.C61_or_partial"
   ],
   "note": "range and monotonicity for every sound rounding; commutativity, iteration and De Morgan for every rounding; associativity and max <= Or in exact arithmetic, false with IEEE 754 (C61_rounding_counterexample), except max <= Or for floats from 2^-29 (C61_or_partial)"
  },
  {
   "property": "C62",
   "status": "proved",
   "theorems": [
    "Cnars.Props.C62_ieee",
    "Cnars.Props.C62_deduction",
    "Cnars.Props.C62_induction",
    "Cnars.Props.C62_exact"
   ],
   "note": "deduction and induction for every sound rounding; all three functions, with confidence below 1/2, both in exact arithmetic and with the rounding of IEEE 754 (C62_ieee)"
  },
  {
   "property": "C63",
   "status": "partial",
   "theorems": [
    "Cnars.Props.C63_error_partial",
    "Cnars.Props.C63_rounding_counterexample",
    "Cnars.Props.C63_roundtrip_partial",
    "Cnars.Props.C63_expectation",
    "Cnars.Props.C63_mapping_partial",
    "Cnars.Props.C63_mapping_counterexample"
   ],
   "note": "full round trip through w/w_p/set_w in exact arithmetic; the free functions w_to_f/truth_from_w lose the frequency when the evidence is at most 1e-8 (counterexample); with IEEE 754 the amounts do not add up and the frequency is not restored exactly (C63_rounding_counterexample), but both hold up to a relative error of 2^-20 (C63_error_partial)"
  },
  {
   "property": "C64",
   "status": "partial",
   "theorems": [
    "Cnars.Props.C64_error_partial",
    "Cnars.Props.C64_pairs_partial",
    "Cnars.Props.C64_rounding_counterexample",
    "Cnars.Props.C64_certainty_counterexample",
    "Cnars.Props.C64_partial",
    "Cnars.Props.C64_sequence_partial",
    "Cnars.Props.C64_counterexample",
    "Cnars.Props.C64_commutative",
    "Cnars.Props.C64_range"
   ],
   "note": "in exact arithmetic, holds whenever the total evidence exceeds 1e-8; below that the revised frequency is 0 (counterexample). For every rounding the order of two premises does not matter. With IEEE 754 confidence need not rise, can become 1, and the order of a sequence matters (counterexamples), but the result of a revision is right up to a relative error of 2^-20 (C64_error_partial)"
  },
  {
   "property": "C65",
   "status": "partial",
   "theorems": [
    "Cnars.Props.C65_partial",
    "Cnars.Props.C65_no_decay_counterexample",
    "Cnars.Props.C65_wrap_counterexample"
   ],
   "note": "code uses integer division: with a positive decay duration the confidence never changes (counterexample to strict decrease); overflow of the decay duration increases it (counterexample)"
  },
  {
   "property": "C66",
   "status": "proved",
   "theorems": [
    "Cnars.Props.C66_ieee",
    "Cnars.Props.C66_quality"
   ],
   "note": "range for every sound rounding; lower bound 3/7 exact, and the double nearest to 3/7 with IEEE 754 (C66_ieee)"
  },
  {
   "property": "C67",
   "status": "partial",
   "theorems": [
    "Cnars.Props.C67_tables_partial",
    "Cnars.Props.C67_counterexample"
   ],
   "note": "tables are right, the accessors return bool (counterexample)"
  },
  {
   "property": "C68",
   "status": "partial",
   "theorems": [
    "Cnars.Props.C68_copulas_read",
    "Cnars.Props.C68_connectors_read_partial",
    "Cnars.Props.C68_list_counterexample",
    "Cnars.Props.C68_statement",
    "Cnars.Props.C68_symbols_injective"
   ],
   "note": "Symbols injective; every copula symbol is read back as that copula only, at every place the grammar has a copula; the same for connectors written before their arguments, except List, which is printed with # but not in the grammar (counterexample). Complete round trips of terms are C41, infix notation C72, abbreviating copulas C53."
  },
  {
   "property": "C69",
   "status": "partial",
   "theorems": [
    "Cnars.Props.C69_partial",
    "Cnars.Props.C69_counterexample"
   ],
   "note": "ExtensionalDifference is exported as ParallelEvents (counterexample)"
  },
  {
   "property": "C70",
   "status": "partial",
   "theorems": [
    "Cnars.Props.C70_plain_partial",
    "Cnars.Props.C70_color_counterexample",
    "Cnars.Props.C70_goal_counterexample",
    "Cnars.Props.C70_judgement_counterexample"
   ],
   "note": "plain printing in full for the four sentence classes; coloured printing always throws; Sentence objects made from Python without class or truth value are undefined (counterexamples)"
  },
  {
   "property": "C71",
   "status": "partial",
   "theorems": [
    "Cnars.Props.C71_narsese_partial",
    "Cnars.Props.C71_tree_partial",
    "Cnars.Props.C71_task_partial",
    "Cnars.Props.C71_sentences_partial",
    "Cnars.Props.C71_large_delay_partial",
    "Cnars.Props.C71_piece_partial",
    "Cnars.Props.C71_ends_partial",
    "Cnars.Props.C71_every_delay_counterexample",
    "Cnars.Props.C71_int_partial",
    "Cnars.Props.C71_negative_partial",
    "Cnars.Props.C71_negative_counterexample",
    "Cnars.Props.C71_exact_partial",
    "Cnars.Props.C71_types_partial",
    "Cnars.Props.C71_error_delay_counterexample",
    "Cnars.Props.C71_small_delay_partial"
   ],
   "note": "error_delay uninitialised. C71_exact_partial: of all values of an int, exactly 0, 1 and 2 are without effect on all histories; counterexamples for every other value (from 3 on a line too many is accepted, negative ones overflow). Proved without effect for lines of Narsese without tabs and histories of them (any value; C71_tree_partial: accepted with their one tree), for any lines and values the call ends and an accepted line is Narsese with at most one piece put in; and without effect for any lines if the value is below 3 or is not counted down to 3 within the rounds. C71_types_partial: with any value, the actions find in an accepted tree the types they expect and throw only from std::stod."
  },
  {
   "property": "C72",
   "status": "proved",
   "theorems": [
    "Cnars.Props.C72_notations"
   ],
   "note": ""
  },
  {
   "property": "C73",
   "status": "proved",
   "theorems": [
    "Cnars.Props.C73_constructed",
    "Cnars.Props.C73_caches",
    "Cnars.Props.C73_ordered"
   ],
   "note": "For every iteration order of the hash sets (M.ord any permutation). == is not included: it is undefined for terms with dependent or query variables, see C05."
  },
  {
   "property": "C74",
   "status": "partial",
   "theorems": [
    "Cnars.Props.C74_exact_partial",
    "Cnars.Props.C74_accepts_partial",
    "Cnars.Props.C74_short_partial",
    "Cnars.Props.C74_modest_partial",
    "Cnars.Props.C74_nested_partial",
    "Cnars.Props.C74_unambiguous",
    "Cnars.Props.C74_tab_counterexample",
    "Cnars.Props.C74_nested_44_partial",
    "Cnars.Props.C74_too_deep_partial"
   ],
   "note": "Exact characterisation for all lines without tabs, unlimited memory; with the real memory for lines of at most 121 characters, and for lines of any length with short tokens that have few opening characters or are nested at most 44 deep (C74_nested_44_partial); lines of Narsese nested more than 371 deep are never accepted, the behaviour is undefined (C74_too_deep_partial). Tabs: counterexample."
  },
  {
   "property": "C75",
   "status": "partial",
   "theorems": [
    "Cnars.Props.C75_blanks_partial",
    "Cnars.Props.C75_tokens_partial",
    "Cnars.Props.C75_tab_counterexample"
   ],
   "note": "For lines without tabs and unlimited memory. Tabs: counterexample."
  },
  {
   "property": "C76",
   "status": "partial",
   "theorems": [
    "Cnars.Props.C76_again_partial",
    "Cnars.Props.C76_merging_counterexample"
   ],
   "note": "Proved for compounds with nothing left to reduce (Steady). Constructors reduce their components once only, so a constructed compound can have something left: counterexample {C, {B, A}}, made from {[{A, B}, C]}."
  },
  {
   "property": "C77",
   "status": "partial",
   "theorems": [
    "Cnars.Props.C77_line",
    "Cnars.Props.C77_overflow_counterexample",
    "Cnars.Props.C77_shape",
    "Cnars.Props.C77_reading_partial",
    "Cnars.Props.C77_unique_partial"
   ],
   "note": "Proved for every accepted line whose evaluation gives a task, with sound rounding that is exact on the integers a double holds exactly. Counterexample: a time mark outside int is accepted but its conversion is undefined. The lines of Narsese are exactly the texts with such parts (C77_shape). The parts are determined by the line, and every way of taking an accepted line apart tells what its task has; this is shown for lines without tabs."
  },
  {
   "property": "C78",
   "status": "proved",
   "theorems": [
    "Cnars.Props.C78_no_growth"
   ],
   "note": "Occurrences are those of what the term reads (shape), so the claim does not refer to caches; complexity follows with C24."
  },
  {
   "property": "C79",
   "status": "partial",
   "theorems": [
    "Cnars.Props.C79_handles_partial",
    "Cnars.Props.C79_operation_counterexample"
   ],
   "note": "Missing: allocators whose addresses collide with living ones in the low 32 bits (C30), and lines that reach an operation when only one of go and ^go is known (C79_operation_counterexample). FreshBelow is inhabited (roomy_fresh)."
  },
  {
   "property": "C80",
   "status": "partial",
   "theorems": [
    "Cnars.Props.C80_task_partial",
    "Cnars.Props.C80_durability_counterexample",
    "Cnars.Props.C80_confidence_counterexample",
    "Cnars.Props.C80_evidence_counterexample",
    "Cnars.Props.C80_time_counterexample"
   ],
   "note": "Missing: durabilities printed as 0.00 or 1.00 and confidences printed as 0.000 or 1.000 (rejected, counterexamples), evidence constants and exact times of occurrence (not printed, counterexamples), terms outside C41. Assumed of fmt: {:.nf} prints a nearest number with n decimals (inhabited: fixed_ok); of the machine: relative error of float and double at most 1e-6 (inhabited: mach_ok)."
  },
  {
   "property": "C81",
   "status": "partial",
   "theorems": [
    "Cnars.Props.C81_line",
    "Cnars.Props.C81_end_partial",
    "Cnars.Props.C81_leak_counterexample"
   ],
   "note": "C81_line covers reading; C81_end_partial the end of the task, under the hypotheses of C79 and if the class under which an object is deleted does not matter (C82). Missing: lines during which an action throws leak (C81_leak_counterexample)."
  },
  {
   "property": "C82",
   "status": "partial",
   "theorems": [
    "Cnars.Props.C82_line_partial",
    "Cnars.Props.C82_marks_counterexample",
    "Cnars.Props.C82_end_counterexample",
    "Cnars.Props.C82_terms_counterexample"
   ],
   "note": "False in three ways (counterexamples; C82_end_counterexample and C82_terms_counterexample hold for every accepted line). C82_line_partial: lines without tense and truth value are read with every delete under the class of the new."
  },
  {
   "property": "C83",
   "status": "partial",
   "theorems": [
    "Cnars.Props.C83_parse",
    "Cnars.Props.C83_tree",
    "Cnars.Props.C83_rejected_partial",
    "Cnars.Props.C83_rejected_counterexample",
    "Cnars.Props.C83_calls_partial",
    "Cnars.Props.C83_throw_counterexample"
   ],
   "note": "False in two ways (counterexamples): rejected lines lose all their nodes, and the tree of a line whose actions threw is lost by the next accepted line. C83_parse and C83_tree: parsing never leaves its nodes, and the blocks of an accepted line are exactly its tree, which ast_free gives back. C83_calls_partial: any history of calls."
  },
  {
   "property": "C84",
   "status": "partial",
   "theorems": [
    "Cnars.Props.C84_in_range",
    "Cnars.Props.C84_throw",
    "Cnars.Props.C84_outcomes_partial",
    "Cnars.Props.C84_progress_partial",
    "Cnars.Props.C84_undefined_counterexample"
   ],
   "note": "C84_throw holds in every state, and so does C84_in_range (a line with a numeral out of range is never a task). C84_outcomes_partial lists all ways an accepted line can end, under C79's hypotheses (fresh addresses, both names of an operation known or none) and IEEE-like rounding. C84_progress_partial gives a condition on the line alone under which there is a task; commutative compounds without variables may be nested when the connector is the same, and with other connectors when they have no commutative compounds in them, are sets or have two names, and, where they are intersected, consist of names with one in common; several components may have variables if they are variables, statements that differ in one place and compounds that differ in one place, and the same holds of what is in these places; missing: other commutative compounds inside, other sets of components with variables. C84_undefined_counterexample shows an accepted line for each cause of undefined behaviour."
  },
  {
   "property": "C85",
   "status": "partial",
   "theorems": [
    "Cnars.Props.C85_repeat_partial",
    "Cnars.Props.C85_again_partial",
    "Cnars.Props.C85_held_partial",
    "Cnars.Props.C85_words_partial",
    "Cnars.Props.C85_twice_partial",
    "Cnars.Props.C85_operation_counterexample"
   ],
   "note": "C85_repeat_partial: the outcome is a function of the atoms the names stand for. C85_again_partial: a second reading at any later time, the atoms still held, gives the same task. C85_held_partial and C85_twice_partial give the hypotheses for lines whose commutative compounds have components the comparator tells apart; C85_words_partial gives a syntactic class of these. Missing: names dropped by merging, allocators that collide in the low 32 bits, operations of which one name is known. C85_operation_counterexample: the code violates the full statement for (^go,A)."
  },
  {
   "property": "C86",
   "status": "partial",
   "theorems": [
    "Cnars.Props.C86_products",
    "Cnars.Props.C86_revision_partial",
    "Cnars.Props.C86_sequence_partial",
    "Cnars.Props.C86_certain_counterexample",
    "Cnars.Props.C86_lasting_counterexample",
    "Cnars.Props.C86_spreading_counterexample"
   ],
   "note": "False: confidence 1, which the parser and revision itself can give, makes revision return NaNs, and these stay. Products and quality are always numbers; revision is as long as confidences are below 1. Zeros have no sign in this model."
  },
  {
   "property": "C87",
   "status": "partial",
   "theorems": [
    "Cnars.Props.C87_text_partial",
    "Cnars.Props.C87_line_partial",
    "Cnars.Props.C87_sessions_partial",
    "Cnars.Props.C87_order_counterexample",
    "Cnars.Props.C87_call_counterexample"
   ],
   "note": "C87_text_partial: the printed text is what the line says, up to the order in commutative compounds. C87_line_partial, C87_sessions_partial: with at most one component in each, the text is a function of the line. Missing: commutative compounds directly inside commutative ones, operations as predicates (C37), hash clashes (C33). The code violates the full statement: C87_order_counterexample, C87_call_counterexample."
  },
  {
   "property": "C88",
   "status": "partial",
   "theorems": [
    "Cnars.Props.C88_dictionary_partial",
    "Cnars.Props.C88_never_partial",
    "Cnars.Props.C88_printed_partial",
    "Cnars.Props.C88_operation_counterexample",
    "Cnars.Props.C88_throw_counterexample"
   ],
   "note": "C88_dictionary_partial, C88_never_partial and C88_printed_partial: invariants of all histories of reads, rejected lines, lines during which an action throws, and drops, with fresh addresses, where each operation is known under both names or none when it is read. Handles left behind by lines that threw are accounted for, and never given back. Missing: that such lines leave nothing behind (C88_throw_counterexample), operations of which one name is known (C88_operation_counterexample), colliding addresses (C30), hash clashes when printing (C33)."
  },
  {
   "property": "C89",
   "status": "partial",
   "theorems": [
    "Cnars.Props.C89_echo_partial",
    "Cnars.Props.C89_single_counterexample"
   ],
   "note": "C89_echo_partial: for all histories, and tasks whose compounds have as many components as the grammar wants and nothing left to reduce, whose statements about operations are calls, with non-negative intervals, variables numbered in order, ASCII names, operations whose bare name is known, no hash clash, and durability and confidence not printed as 0 or 1. Missing: the other tasks (C89_single_counterexample, counterexamples of C41 and C80)."
  },
  {
   "property": "C90",
   "status": "partial",
   "theorems": [
    "Cnars.Props.C90_term",
    "Cnars.Props.C90_faithful_partial",
    "Cnars.Props.C90_address",
    "Cnars.Props.C90_task",
    "Cnars.Props.C90_python_counterexample",
    "Cnars.Props.C90_python_partial"
   ],
   "note": "the member functions `__repr__` do what the claim says (C90_term, C90_address, C90_task; C90_faithful_partial with C38). Called from Python they get too few arguments and raise a TypeError (C90_python_counterexample), except for truth values and budgets"
  },
  {
   "property": "C91",
   "status": "partial",
   "theorems": [
    "Cnars.Props.C91_outcome_partial",
    "Cnars.Props.C91_class_counterexample",
    "Cnars.Props.C91_state_counterexample"
   ],
   "note": "C91_outcome_partial: for ASCII lines without tabs that have at most 121 characters, or short tokens and few opening characters, in any state after a call that returned. Missing: the class of the exception (C91_class_counterexample), the first call (C91_state_counterexample), undefined behaviour as in C46 and C84"
  },
  {
   "property": "C92",
   "status": "partial",
   "theorems": [
    "Cnars.Props.C92_stubs",
    "Cnars.Props.C92_only",
    "Cnars.Props.C92_registered",
    "Cnars.Props.C92_aligned",
    "Cnars.Props.C92_merging_counterexample"
   ],
   "note": "C92_stubs, C92_only and C92_registered if the compiler merges empty string literals, C92_aligned in general. C92_merging_counterexample: otherwise there are prototypes without a name."
  },
  {
   "property": "C93",
   "status": "proved",
   "theorems": [
    "Cnars.Props.C93_dump"
   ],
   "note": "C93_dump."
  },
  {
   "property": "C94",
   "status": "partial",
   "theorems": [
    "Cnars.Props.C94_defined_partial",
    "Cnars.Props.C94_known_partial",
    "Cnars.Props.C94_counts_partial",
    "Cnars.Props.C94_stays_partial",
    "Cnars.Props.C94_freed_partial",
    "Cnars.Props.C94_owning_partial",
    "Cnars.Props.C94_terms_counterexample"
   ],
   "note": "C94_defined_partial, C94_known_partial, C94_counts_partial, C94_stays_partial, C94_freed_partial for programs whose addresses do not collide (C30), whose operations are known under both names or none (C36), and that use elements of a compound only while it is kept; C94_owning_partial: programs that ask no compound for its terms need not care; C94_terms_counterexample: without the last it is false."
  },
  {
   "property": "C95",
   "status": "partial",
   "theorems": [
    "Cnars.Props.C95_values_partial",
    "Cnars.Props.C95_memory_partial",
    "Cnars.Props.C95_loop_partial",
    "Cnars.Props.C95_delete_counterexample",
    "Cnars.Props.C95_read_counterexample",
    "Cnars.Props.C95_assign_counterexample",
    "Cnars.Props.C95_post_counterexample"
   ],
   "note": "C95_values_partial, C95_memory_partial, C95_loop_partial if the type under which the hidden object is used does not matter, for programs that neither assign iterators nor use the value of k++; C95_delete_counterexample, C95_read_counterexample (for every container), C95_assign_counterexample, C95_post_counterexample (for every iterator not at the end)."
  },
  {
   "property": "C96",
   "status": "partial",
   "theorems": [
    "Cnars.Props.C96_loop_partial",
    "Cnars.Props.C96_main_partial",
    "Cnars.Props.C96_rejected_counterexample",
    "Cnars.Props.C96_legible_partial"
   ],
   "note": "C96_loop_partial and C96_legible_partial for lines of the language that are known to go well (C84, C87); C96_main_partial: the six lines main prints, unless a hash clashes with the key of an atom; C96_rejected_counterexample: whatever is read before it, a line that is rejected makes main dereference a null pointer."
  },
  {
   "property": "C97",
   "status": "partial",
   "theorems": [
    "Cnars.Props.C97_loop_partial",
    "Cnars.Props.C97_first_counterexample",
    "Cnars.Props.C97_efficiency_partial",
    "Cnars.Props.C97_disabled_partial"
   ],
   "note": "C97_loop_partial for lines of the kind C84 asks for, and lines outside the language with as much memory as needed; C97_efficiency_partial: test_efficiency1 to test_efficiency5, any number of times; C97_disabled_partial: the lines of the tests that are not compiled, in any order, except for three; missing: allocators that give addresses equal in the low 32 bits to those of living terms. C97_first_counterexample: no first line outside the language is survived."
  },
  {
   "property": "C98",
   "status": "proved",
   "theorems": [
    "Cnars.Props.C98_checks",
    "Cnars.Props.C98_test"
   ],
   "note": "C98_test: the line is read from the start of the program on every machine with fresh addresses for two words, and the test passes for any objects with the value of the term; C98_checks: for every compound of the kind the test needs. The tables of variables are taken to be as distinct as the terms that own them."
  },
  {
   "property": "C99",
   "status": "partial",
   "theorems": [
    "Cnars.Props.C99_examples_partial",
    "Cnars.Props.C99_lines",
    "Cnars.Props.C99_wanted",
    "Cnars.Props.C99_files_partial",
    "Cnars.Props.C99_rejected_counterexample",
    "Cnars.Props.C99_legible_partial"
   ],
   "note": "C99_lines and C99_wanted: the lines of a file and what is taken of a line, all bytes; C99_files_partial: any number of files whose tasks are all Fair (as in C96), with the texts; C99_legible_partial: also tasks with commutative compounds, every text being that of a task made from the line; C99_examples_partial: files made of any of 286 of the 302 lines in examples/single_step/nal1 to nal9. Missing: rejected lines and lines for which isdigit is undefined (both counterexamples), what is missing in C96."
  },
  {
   "property": "C100",
   "status": "partial",
   "theorems": [
    "Cnars.Props.C100_same_partial",
    "Cnars.Props.C100_taken_partial",
    "Cnars.Props.C100_rejected_partial",
    "Cnars.Props.C100_lines_partial",
    "Cnars.Props.C100_short_partial",
    "Cnars.Props.C100_task_partial",
    "Cnars.Props.C100_stray_counterexample",
    "Cnars.Props.C100_last_counterexample",
    "Cnars.Props.C100_names_counterexample",
    "Cnars.Props.C100_numbers_partial",
    "Cnars.Props.C100_signed_counterexample"
   ],
   "note": "C100_same_partial, C100_task_partial: one call against parse_string and parse_task, all lines without NUL; C100_taken_partial: an accepted line is taken with its newline and nothing more; C100_rejected_partial: nothing of the next line is ever taken; C100_lines_partial, C100_short_partial: any number of accepted lines. C100_numbers_partial: over any number of lines the variables are numbered by first occurrence in all lines together. Missing: rejected lines, a last line without newline, names of variables and bytes above 127 (counterexamples)."
  },
  {
   "property": "C101",
   "status": "partial",
   "theorems": [
    "Cnars.Props.C101_last",
    "Cnars.Props.C101_alias",
    "Cnars.Props.C101_sentence",
    "Cnars.Props.C101_range_partial",
    "Cnars.Props.C101_range_counterexample",
    "Cnars.Props.C101_none_counterexample",
    "Cnars.Props.C101_budget_counterexample",
    "Cnars.Props.C101_shared_counterexample"
   ],
   "note": "C101_last: every member has the value of the last line that gave it one, all programs; C101_alias: one assignment, all names; C101_sentence: a sentence prints the present contents of its truth value; C101_range_partial: values written between 0 and 1 stay so. Missing: values outside are not refused, and None is not (counterexamples)."
  },
  {
   "property": "C102",
   "status": "partial",
   "theorems": [
    "Cnars.Props.C102_same_partial",
    "Cnars.Props.C102_returns_partial",
    "Cnars.Props.C102_one_partial",
    "Cnars.Props.C102_new_counterexample",
    "Cnars.Props.C102_threw_counterexample"
   ],
   "note": "C102_same_partial: two programs that read the same lines with any of their parsers get the same; C102_returns_partial: without the limit of the parse stack the other program returns; C102_one_partial: several parsers give what one gives. Missing: rejected lines on a new parser and after a line that threw (counterexamples)."
  },
  {
   "property": "C103",
   "status": "proved",
   "theorems": [
    "Cnars.Props.C103_truth",
    "Cnars.Props.C103_budget",
    "Cnars.Props.C103_kind",
    "Cnars.Props.C103_given"
   ],
   "note": "C103_truth, C103_budget: what is shown alike is near; C103_kind: truth values and budgets are told apart; C103_given: numbers with two decimals are shown as written."
  }
 ]
}
