{"id": "C01", "title": "Distinct atoms are never confused by their hash", "statement": "Two atomic constants that are distinct objects have different hash values and compare unequal with ==; an atom compares equal to itself.", "quantifier": "all pairs of 64-bit object addresses", "why_tests_cant": "addresses are chosen by the allocator; a test sees a handful of them, a collision would appear only for particular address pairs", "anchors": ["Narsese/include/Term.h: Term::Term, Term::do_hashing", "utils/hash.h: Hash::combine", "Narsese/include/Term.inl: Term::operator=="]}
{"id": "C02", "title": "Constants, variables and intervals never collide", "statement": "A named constant never compares equal to a variable or to an interval, whatever address it was allocated at; intervals compare equal exactly when their lengths are equal; variables of different kinds ($,#,?) never compare equal.", "quantifier": "all user-space addresses, all 32-bit interval lengths, all variable indices", "why_tests_cant": "the hash value is a mix of address, kind tag and payload: absence of collisions is a statement about all 64-bit values", "anchors": ["Narsese/include/Term.inl: Term::operator==", "Narsese/include/Interval.h: Interval", "Narsese/include/Variable.inl: Variable", "utils/hash.h"]}
{"id": "C03", "title": "Term equality is structural", "statement": "a == b holds exactly when a and b are the same term: same kind, same copula or connector, same components in the same order, same constants, equal intervals, variables of the same kind and index.", "quantifier": "all pairs of terms, of any depth and width", "why_tests_cant": "needs all pairs of unboundedly large terms, including pairs engineered to have colliding hashes", "anchors": ["Narsese/include/Term.inl: Term::operator==", "Narsese/include/Statement.h: do_hashing", "Narsese/include/Compound.h: do_hashing"]}
{"id": "C04", "title": "Term equality is an equivalence relation", "statement": "== is reflexive, symmetric and transitive.", "quantifier": "all terms, pairs and triples of terms", "why_tests_cant": "an algebraic law over unboundedly many terms", "anchors": ["Narsese/include/Term.inl: Term::operator=="]}
{"id": "C05", "title": "Comparing two terms is always defined", "statement": "a == b and a < b return a boolean for every pair of terms the parser can build; no comparison reads outside an index table.", "quantifier": "all pairs of terms containing any mix of independent, dependent and query variables", "why_tests_cant": "an out-of-range read may silently return garbage in a test run", "anchors": ["Narsese/include/Term.inl: Term::operator==, Term::operator<"]}
{"id": "C06", "title": "Term ordering is a strict weak ordering", "statement": "The ordering used to keep components of commutative compounds sorted is irreflexive, asymmetric and transitive, and incomparability is transitive, as std::set requires.", "quantifier": "all terms, including those with variables", "why_tests_cant": "one violated triple among unboundedly many terms makes every ordered set undefined behaviour; sampling cannot exclude it", "anchors": ["Narsese/include/Term.inl: Term::operator<", "Narsese/include/Term.h: Terms::compare"]}
{"id": "C07", "title": "Symmetric copulas are symmetric", "statement": "<A <-> B> equals <B <-> A>, and likewise for <=> and <|>, because is_commutative holds for these copulas.", "quantifier": "all terms A and B and every commutative copula", "why_tests_cant": "universally quantified over terms", "anchors": ["Narsese/include/Statement.inl: Statement::Statement", "Narsese/include/Copula.h: is_commutative", "Narsese/include/Term.inl: Term::operator=="]}
{"id": "C08", "title": "Hashes ignore the choice of variable names and indices", "statement": "Renaming variables, in any way that keeps each variable's kind, changes neither the hash of a term nor the hash of any term built from it.", "quantifier": "all terms and all renamings of variables (injective or not)", "why_tests_cant": "all terms times all renamings", "anchors": ["Narsese/include/Statement.h: do_hashing", "Narsese/include/Compound.h: do_hashing", "Narsese/include/Variable.inl"]}
{"id": "C09", "title": "Interval arithmetic keeps value and identity in step", "statement": "After i + j or i += j the result compares equal to an Interval built directly from the sum of the lengths, and two intervals with different lengths never compare equal.", "quantifier": "all pairs of interval lengths whose sum fits in a signed int, and all sequences of such updates", "why_tests_cant": "mutation history is unbounded and the hash is cached", "anchors": ["Narsese/include/Interval.h: operator+, operator+="]}
{"id": "C10", "title": "Commutative component lists are duplicate-free and order-blind", "statement": "A commutative Terms built from any sequence of terms contains no two equivalent members, contains a representative of every input, iterates in ascending order and is the same list for every reordering or repetition of the input; a non-commutative Terms keeps exactly the input sequence.", "quantifier": "all input sequences of terms whose hashes identify them", "why_tests_cant": "all sequences, all permutations", "anchors": ["Narsese/include/Term.h: Terms::fill_terms, push_back, begin, end"]}
{"id": "C11", "title": "Set operations on Terms are the set-theoretic ones", "statement": "Terms::union_, intersection and difference of a non-empty list of commutative Terms return the union, the intersection of all, and the first minus all the others.", "quantifier": "all non-empty lists of commutative Terms", "why_tests_cant": "unbounded number and size of operands", "anchors": ["Narsese/include/Term.h: Terms::union_, Terms::intersection, Terms::difference"]}
{"id": "C12", "title": "Set operations reject bad operands", "statement": "Calling a set operation on no operands, or with any operand that is not commutative, raises an error instead of returning a result.", "quantifier": "all operand lists", "why_tests_cant": "the offending operand may be at any position of an arbitrarily long list", "anchors": ["Narsese/include/Term.h: Terms::union_, Terms::intersection, Terms::difference"]}
{"id": "C13", "title": "Commutative compounds ignore order and repetition of arguments", "statement": "Constructing a compound with a commutative connector from the same set of arguments, in any order and with any repetitions, gives the same compound (same connector, same components, same hash).", "quantifier": "all commutative connectors, all argument lists and permutations/duplications of them", "why_tests_cant": "factorially many orders, unbounded lists", "anchors": ["Narsese/src/Compound.cpp: prepocess_terms, Compound::Compound"]}
{"id": "C14", "title": "Ordered compounds keep their arguments", "statement": "A compound with product, image, difference, negation or list connector has exactly the given arguments in the given order; a sequential compound (&/) has the given arguments in order with each directly nested &/ argument replaced by its components.", "quantifier": "all non-commutative connectors and all argument lists", "why_tests_cant": "unbounded argument lists and nestings", "anchors": ["Narsese/src/Compound.cpp: prepocess_terms"]}
{"id": "C15", "title": "Documented set algebra", "statement": "(|,{..},{..},..) is the extensional set of the union, (&,[..],[..],..) the intensional set of the union, (&,{..},{..},..) the extensional set of the intersection, (|,[..],[..],..) the intensional set of the intersection, (-,{..},{..}) the extensional set of the difference and (~,[..],[..]) the intensional set of the difference.", "quantifier": "all lists of sets of terms", "why_tests_cant": "the documented equations range over all sets", "anchors": ["Narsese/src/Compound.cpp: _merge_compounds, prepocess_terms (comments lines 16-28, 108-122)"]}
{"id": "C16", "title": "Building a compound invents nothing", "statement": "Every atom, variable and interval occurring in a constructed compound occurs in one of its arguments.", "quantifier": "all connectors and argument lists for which construction succeeds", "why_tests_cant": "unbounded nesting; construction recurses", "anchors": ["Narsese/src/Compound.cpp: prepocess_terms, _merge_compounds, Compound::Compound"]}
{"id": "C17", "title": "Building a compound loses nothing", "statement": "Except where sets are intersected, every atom occurring in an argument occurs in the constructed compound.", "quantifier": "all connectors and argument lists", "why_tests_cant": "loss occurs only for particular shapes of nested arguments", "anchors": ["Narsese/src/Compound.cpp: prepocess_terms"]}
{"id": "C18", "title": "A compound keeps its connector and its arguments' meaning", "statement": "Wrapping a single compound argument does not change that argument: {(&&,A,B)} has the one component (&&,A,B), and (&&,X,X) for a disjunction X does not become a conjunction of X's components.", "quantifier": "all commutative connectors and all single compound arguments", "why_tests_cant": "all shapes of the argument", "anchors": ["Narsese/src/Compound.cpp: prepocess_terms Step 4"]}
{"id": "C19", "title": "Compound construction is always defined", "statement": "Constructing a compound from a non-empty list of well-formed arguments never dereferences an empty container and never throws.", "quantifier": "all connectors and non-empty argument lists", "why_tests_cant": "undefined behaviour need not be visible in a test", "anchors": ["Narsese/src/Compound.cpp: prepocess_terms lines 226-247"]}
{"id": "C20", "title": "Compound construction terminates", "statement": "Normalising the arguments, which recursively rebuilds nested commutative compounds, finishes for every argument list.", "quantifier": "all connectors and argument lists", "why_tests_cant": "a test can only show that one call returned", "anchors": ["Narsese/src/Compound.cpp: prepocess_terms, Compound::create"]}
{"id": "C21", "title": "Compound construction does not depend on hash-table order", "statement": "The result of constructing a compound does not depend on the order in which std::unordered_map enumerates the argument groups.", "quantifier": "all argument lists and all enumeration orders of the groups", "why_tests_cant": "a given standard library always enumerates in the same order, so tests see one schedule", "anchors": ["Narsese/src/Compound.cpp: prepocess_terms Step 2"]}
{"id": "C22", "title": "Nested compounds with the same connector are flattened", "statement": "No component of a constructed compound with a reducible connector has that same connector, provided the arguments were themselves constructed.", "quantifier": "all reducible connectors and all constructed argument lists", "why_tests_cant": "depends on the whole construction history of the arguments", "anchors": ["Narsese/src/Compound.cpp: prepocess_terms"]}
{"id": "C23", "title": "Arity rules", "statement": "check_valid(connector, n) holds exactly for n = 1 with negation, n = 2 with differences, n >= 2 with the other multi-argument connectors, n >= 1 with sets and lists.", "quantifier": "all connectors and all 32-bit lengths", "why_tests_cant": "all lengths", "anchors": ["Narsese/include/Connector.h: check_valid"]}
{"id": "C24", "title": "Complexity counts leaves and statements", "statement": "The complexity of a term is the number of its leaf terms plus the number of its statements, and does not depend on how the term was produced (constructed, cloned or parsed).", "quantifier": "all constructed terms", "why_tests_cant": "unbounded terms; cached at construction", "anchors": ["Narsese/include/Statement.inl", "Narsese/src/Compound.cpp: Compound::Compound", "Narsese/include/Term.h: complexity"]}
{"id": "C25", "title": "Variable flags are truthful", "statement": "has_var, has_ivar, has_dvar and has_qvar of a term are set exactly when the term contains a variable, an independent, a dependent, a query variable.", "quantifier": "all constructed terms", "why_tests_cant": "flags are cached at every level of an unbounded tree", "anchors": ["Narsese/include/Term.h: _refresh_var_status", "Narsese/include/Variable.inl"]}
{"id": "C26", "title": "The variable index of a term lists its variables", "statement": "For each variable kind, the index table of a term lists the indices of the variables of that kind in left-to-right order, and the recorded positions are the paths leading to them.", "quantifier": "all constructed terms and all three variable kinds", "why_tests_cant": "unbounded trees; three parallel tables wired at every node", "anchors": ["Narsese/include/Term.inl: _init_indexvars", "utils/IndexVar.cpp: connect, build", "Narsese/include/Term.h: _build_indexvars"]}
{"id": "C27", "title": "Index normalisation is an order-preserving renumbering", "statement": "Normalising a list of indices gives a list of the same length over 0..m-1 (m = number of distinct indices, every value used), with equal entries exactly where the input has equal entries and smaller entries exactly where the input has smaller ones; normalising twice changes nothing.", "quantifier": "all lists of integers", "why_tests_cant": "all lists", "anchors": ["utils/IndexVar.cpp: _normalize"]}
{"id": "C28", "title": "Cached index data is never stale", "statement": "After any sequence of connect, add, remove and build operations, the normalised indices and the hash reported by an index table are those of its current indices.", "quantifier": "all operation histories", "why_tests_cant": "cache invalidation bugs depend on the order of operations", "anchors": ["utils/IndexVar.cpp: connect, add, remove, build", "utils/IndexVar.h: indices_normalized, do_hashing"]}
{"id": "C29", "title": "Cloning preserves the term", "statement": "A clone prints the same, has the same hash, complexity, flags and variable indices as the original; it shares no variable object with it, and variable-free subterms are shared rather than copied.", "quantifier": "all constructed terms and all heaps", "why_tests_cant": "aliasing and deep structure over unbounded terms", "anchors": ["Narsese/include/Term.inl: Term::clone", "Narsese/include/Statement.inl: Statement(const Statement&, bool)", "Narsese/include/Compound.inl", "Narsese/include/Variable.inl"]}
{"id": "C30", "title": "Interning: one live name, one term", "statement": "While a term created from a name is still held, creating a term from the same name again returns the same term, and creating one from a different name returns a different term.", "quantifier": "all histories of creating, copying and dropping handles, over all names and allocation results", "why_tests_cant": "depends on unbounded histories and on addresses returned by the allocator", "anchors": ["Narsese/src/Term.cpp: Term::create", "Narsese/Parser/NarseseParser.cpp: atom_term", "Interpreter/include/Interpreter.hpp: put, check_by_name, get_object"]}
{"id": "C31", "title": "No dangling or leaked dictionary entries", "statement": "When the last user handle on a named term is dropped, its dictionary entries disappear; while any handle is held they stay; the dictionary never refers to a deleted term.", "quantifier": "all histories of creating, copying and dropping handles", "why_tests_cant": "lifetime bugs depend on the history", "anchors": ["Narsese/include/Term.inl: pTerm::~pTerm", "Narsese/src/Term.cpp: _free_from_interpreter", "Interpreter/include/Interpreter.hpp: remove"]}
{"id": "C32", "title": "Dictionary and inverse dictionary agree", "statement": "After any sequence of put, remove, remove_by_name and erase calls, a name maps to a key exactly when that key maps to that name.", "quantifier": "all operation histories over all keys and names", "why_tests_cant": "unbounded histories", "anchors": ["Interpreter/include/Interpreter.hpp: put, remove, remove_by_name, erase"]}
{"id": "C33", "title": "Reference counts balance", "statement": "An entry that was put n times survives n-1 erases and is gone after n of them; erase reports whether there was anything to erase.", "quantifier": "all n and all interleavings with operations on other keys", "why_tests_cant": "unbounded counts and interleavings", "anchors": ["Interpreter/include/Interpreter.hpp: put, erase, check_count"]}
{"id": "C34", "title": "Lookups do not change the dictionary", "statement": "get, get_object and get_by_name do not change the outcome of any later check or lookup.", "quantifier": "all dictionary states and keys", "why_tests_cant": "the effect of a default-inserting lookup shows only on later, different calls", "anchors": ["Interpreter/include/Interpreter.hpp: get, get_object, get_by_name"]}
{"id": "C35", "title": "Dictionary keys identify terms", "statement": "Two live named terms never share a dictionary key, although keys are passed as int.", "quantifier": "all pairs of live terms at all addresses", "why_tests_cant": "a collision needs two allocations 4 GiB apart", "anchors": ["Interpreter/include/Interpreter.hpp: put(int key,...)", "Interpreter/src/Interpreter.cpp: interpret"]}
{"id": "C36", "title": "Operation names are interned", "statement": "Mentioning the same operation ^name twice, in one sentence or in several, yields the same operation term while it is held, independently of whether an ordinary term called name exists.", "quantifier": "all histories of parsed names", "why_tests_cant": "depends on which other names are alive at that moment", "anchors": ["Narsese/Parser/NarseseParser.cpp: operation"]}
{"id": "C37", "title": "Printing is always defined", "statement": "Printing any term that the parser or the constructors can build returns a string; it never throws and never dereferences a missing component.", "quantifier": "all constructed terms and dictionary states", "why_tests_cant": "undefined behaviour for particular shapes only", "anchors": ["Interpreter/src/Interpreter.cpp: interpret(Term&)"]}
{"id": "C38", "title": "Printing is faithful", "statement": "Two terms with the same printed form are the same term up to the naming of variables, given that names identify atoms.", "quantifier": "all pairs of constructed terms", "why_tests_cant": "injectivity over unbounded terms", "anchors": ["Interpreter/src/Interpreter.cpp: interpret(Term&)"]}
{"id": "C39", "title": "Colour only adds colour", "statement": "Removing the colour escapes from the coloured rendering of a term gives its plain rendering.", "quantifier": "all terms and all atom names", "why_tests_cant": "atom names are used as format strings; only particular names expose it", "anchors": ["Interpreter/src/Interpreter.cpp: interpret(Term&, colored=true)"]}
{"id": "C40", "title": "Printed numbers are in range", "statement": "The budget values printed for a task are multiples of 0.001 in [0,1] before formatting, whatever the stored values, and equal the stored values to within 0.0005 when those are in [0,1].", "quantifier": "all stored budgets", "why_tests_cant": "all real values", "anchors": ["Interpreter/src/Interpreter.cpp: interpret(Task&)"]}
{"id": "C41", "title": "Printing then parsing gives the term back", "statement": "Parsing the printed form of a term, in an interpreter in which the names still denote the same atoms, yields a term with the same syntax tree.", "quantifier": "all terms of the printable fragment", "why_tests_cant": "unbounded terms; goes through generated parser tables", "anchors": ["Interpreter/src/Interpreter.cpp: interpret(Term&)", "Narsese/Parser/narsese.cpp: parse", "Narsese/Parser/narsese.h: tables"]}
{"id": "C42", "title": "Accepted inputs belong to the grammar", "statement": "Whenever the parser accepts an input, the text (up to the first newline) is a concatenation of lexemes derivable from the start symbol of the Narsese grammar.", "quantifier": "all input strings", "why_tests_cant": "unbounded inputs; the automaton has 176 states and 70 lexers", "anchors": ["Narsese/Parser/narsese.cpp: parse, lex, get_act, get_go", "Narsese/Parser/narsese.h: actions, go, def_prod, dfa_*, productions", "Narsese/Parser/narsese.par"]}
{"id": "C43", "title": "The syntax tree matches the derivation", "statement": "The syntax tree handed to the semantic actions is the one prescribed by the grammar annotations: no node is dropped, duplicated or attached to another parent.", "quantifier": "all accepted inputs", "why_tests_cant": "sibling lists are spliced with prev/next pointers during reductions of unbounded inputs", "anchors": ["Narsese/Parser/narsese.cpp: parse (lines collecting AST nodes)"]}
{"id": "C44", "title": "Semantic actions receive what they expect", "statement": "No semantic action ever interprets an argument as an object of another type, and every node is dispatched to a registered action.", "quantifier": "all accepted inputs", "why_tests_cant": "arguments are untyped pointers; a mismatch may go unnoticed in a test", "anchors": ["Narsese/Parser/Parser.cpp: transform, regist", "Narsese/Parser/NarseseParser.cpp: all actions"]}
{"id": "C45", "title": "Parsing terminates", "statement": "The parser returns for every input, within a number of steps linear in the input length.", "quantifier": "all input strings", "why_tests_cant": "a test only shows termination of that input", "anchors": ["Narsese/Parser/narsese.cpp: parse, lex"]}
{"id": "C46", "title": "The parser never writes outside its stack", "statement": "No input makes the parser access its stack or its input buffer outside the allocated memory.", "quantifier": "all input strings, of any nesting depth and token length", "why_tests_cant": "heap overruns of one element rarely crash", "anchors": ["Narsese/Parser/narsese.cpp: alloc_stack, parse, get_input, clear_input"]}
{"id": "C47", "title": "Only the first line counts", "statement": "Parsing a text gives the same result as parsing its first line: everything after the first newline is ignored.", "quantifier": "all texts", "why_tests_cant": "all texts", "anchors": ["Narsese/Parser/narsese.h: _CharFetcher", "Narsese/Parser/narsese.cpp: get_input", "Narsese/Parser/Parser.cpp: Parser::Parser (eof)"]}
{"id": "C48", "title": "Only ASCII is accepted", "statement": "An input whose first line contains a byte outside 0..127 is rejected, wherever the byte occurs (including inside quoted strings).", "quantifier": "all inputs and positions", "why_tests_cant": "all inputs", "anchors": ["Narsese/Parser/narsese.h: _CharFetcher::fetch", "Narsese/Parser/narsese.cpp: lex"]}
{"id": "C49", "title": "A rejected input leaves no trace", "statement": "Whether and how an input is parsed does not depend on the inputs parsed before it: no characters, syntax trees or variable numbers survive from an earlier accepted, rejected or throwing parse.", "quantifier": "all histories of inputs", "why_tests_cant": "all histories", "anchors": ["Narsese/Parser/Parser.cpp: parse_string", "Narsese/Parser/narsese.cpp: clear_input, parse", "Narsese/Parser/NarseseParser.h: parse_task"]}
{"id": "C50", "title": "Variables are numbered by first occurrence", "statement": "In a parsed sentence the variables of each kind are numbered 0,1,2,... in order of first occurrence; two occurrences get the same number exactly when they have the same kind and the same name.", "quantifier": "all sequences of variable occurrences", "why_tests_cant": "unbounded sentences", "anchors": ["Narsese/Parser/NarseseParser.cpp: independent_var, dependent_var, query_var"]}
{"id": "C51", "title": "Consistent renaming of variables does not matter", "statement": "Two sentences that differ only by an injective renaming of the variables of each kind parse to equal terms.", "quantifier": "all sentences and renamings", "why_tests_cant": "all sentences and renamings", "anchors": ["Narsese/Parser/NarseseParser.cpp: independent_var, dependent_var, query_var"]}
{"id": "C52", "title": "Parsed truth values and budgets are in range", "statement": "Every parsed task has priority in [0,1], durability in (0,1), quality in [0,1]; judgements and goals have frequency in [0,1], confidence in (0,1), evidential horizon > 0; values that are given are kept and missing ones are the configured defaults for the sentence type.", "quantifier": "all accepted inputs with any of the optional parts present or absent", "why_tests_cant": "all numerals", "anchors": ["Narsese/Parser/NarseseParser.cpp: task, judgement, goal, truth, budget", "Config.cpp"]}
{"id": "C53", "title": "Syntactic sugar", "statement": "<A {-- B>, <A --] B> and <A {-] B> mean <{A} --> B>, <A --> [B]> and <{A} --> [B]>; (^op,a,..) and op(a,..) mean <(*,a,..) --> ^op>.", "quantifier": "all terms A, B and argument lists", "why_tests_cant": "all terms", "anchors": ["Narsese/Parser/NarseseParser.cpp: statement, statement_operation1, statement_operation2"]}
{"id": "C54", "title": "Tense classification", "statement": "Every stamp has exactly one tense: eternal if so marked, otherwise future, past or present according to whether the occurrence time is at least a duration after, at least a duration before, or within a duration of the current time.", "quantifier": "all occurrence times and all current times", "why_tests_cant": "mixed signed/unsigned 32/64-bit arithmetic at all values", "anchors": ["Narsese/include/Sentence.h: Stamp::tense"]}
{"id": "C55", "title": "Tense marks round-trip", "statement": "A sentence entered with :/:, :|: or :\\: at the current time reports the tense future, present or past respectively.", "quantifier": "all current times", "why_tests_cant": "the clock can have any value", "anchors": ["Narsese/Parser/NarseseParser.cpp: tense_future, tense_present, tense_past, judgement", "Narsese/include/Sentence.h: tense"]}
{"id": "C56", "title": "Every sentence has an evidential base with a fresh id", "statement": "Every sentence created, with or without a tense, carries an evidential base, and the bases of different sentences are disjoint.", "quantifier": "all histories of sentence creation", "why_tests_cant": "all histories", "anchors": ["Narsese/include/Sentence.h: Stamp::Stamp", "Narsese/include/Evidence.h: Base::Base", "Global.h: get_input_id"]}
{"id": "C57", "title": "Extending evidence is a union", "statement": "After base.extend(other), base contains exactly its previous evidence and other's evidence (up to the length limit).", "quantifier": "all pairs of bases, including aliased ones", "why_tests_cant": "aliasing of shared sets", "anchors": ["Narsese/include/Evidence.h: Base::extend, interleave"]}
{"id": "C58", "title": "Interleaving merges evidence fairly", "statement": "Interleaving two bases yields a base containing all evidence of both when it fits the limit; otherwise it takes alternately from both, never exceeds the limit by more than one, and adds nothing that is in neither.", "quantifier": "all pairs of bases", "why_tests_cant": "all pairs, sizes around 20000", "anchors": ["Narsese/include/Evidence.h: Base::interleave"]}
{"id": "C59", "title": "Overlap test is exact", "statement": "is_overlaped holds exactly when the two bases share an evidence id.", "quantifier": "all pairs of bases", "why_tests_cant": "all pairs", "anchors": ["Narsese/include/Evidence.h: is_overlaped"]}
{"id": "C60", "title": "Evidence hashes are up to date", "statement": "The hash reported by an evidential base is the hash of its current contents, after any sequence of add, extend and hash calls.", "quantifier": "all operation histories", "why_tests_cant": "cache staleness depends on history", "anchors": ["Narsese/include/Evidence.h: add, extend, do_hashing, __hash__"]}
{"id": "C61", "title": "And/Or are the probabilistic connectives", "statement": "And and Or of values in [0,1] are in [0,1], commutative, associative across the 2-, 3-, 4-argument and list versions, De Morgan duals, monotone, with And <= min and max <= Or.", "quantifier": "all reals in [0,1] and argument lists of any length; range claims for every monotone rounding of the operations", "why_tests_cant": "all reals, all lists, all rounding modes", "anchors": ["NAL/Functions/include/ExtendedBooleanFunction.h"]}
{"id": "C62", "title": "Truth functions stay in range", "statement": "Deduction, induction and comparison of truth values with f in [0,1] and c in [0,1) give f in [0,1] and c in [0,1); deduction's confidence is at most either premise's, induction's and comparison's is below 1/2.", "quantifier": "all pairs of truth values; for deduction every monotone rounding of the operations", "why_tests_cant": "all reals", "anchors": ["NAL/Functions/include/TruthFunctions.h", "Narsese/include/Truth.h: set_w"]}
{"id": "C63", "title": "Truth value and evidence amounts are two views of the same thing", "statement": "Converting (f,c) to (w+,w) and back gives (f,c); w+ + w- = w; expectation is in [0,1], equals f in the limit c=1 and 1/2 at c=0.", "quantifier": "all truth values with 0<c<1 and k>0", "why_tests_cant": "all reals", "anchors": ["Narsese/include/Truth.h", "NAL/Functions/include/UncertaintyMappingFunctions.h"]}
{"id": "C64", "title": "Revision adds evidence", "statement": "Revision sums the evidence: the revised confidence exceeds both inputs', the revised frequency lies between them, and revising in either order (equal horizons) gives the same result; repeated revision is order-independent.", "quantifier": "all pairs and all finite sequences of truth values", "why_tests_cant": "all reals, all orders", "anchors": ["NAL/Functions/include/TruthFunctions.h: truth_revision"]}
{"id": "C65", "title": "Projection discounts confidence with temporal distance", "statement": "Projecting a truth value keeps frequency and horizon, never increases confidence, leaves it unchanged when source and target time coincide, and strictly decreases it when they differ.", "quantifier": "all times and decay durations", "why_tests_cant": "integer arithmetic over all 64-bit times", "anchors": ["NAL/Functions/include/TemporalFunctions.h: project"]}
{"id": "C66", "title": "Quality from truth is bounded", "statement": "quality_from_truth is in [3/7,1] for every truth value with f,c in [0,1], is monotone in expectation above 3/7, and is at least the expectation.", "quantifier": "all truth values", "why_tests_cant": "all reals", "anchors": ["Narsese/include/Budget.h: quality_from_truth"]}
{"id": "C67", "title": "Copula transformations", "statement": "reverse turns a predictive copula into the retrospective one and back (involution on temporal implications), and symmetrize gives the symmetric counterpart.", "quantifier": "all copulas", "why_tests_cant": "the declared result type decides; a test comparing truthiness passes", "anchors": ["Narsese/include/Copula.h: symmetrize, reverse"]}
{"id": "C68", "title": "Printed connectors and copulas are unambiguous", "statement": "Different copulas print differently, different connectors print differently, and parsing the printed symbol gives the same copula or connector.", "quantifier": "all copulas and connectors, in all grammar contexts", "why_tests_cant": "all contexts of the generated lexer", "anchors": ["Narsese/include/Copula.h: Repr", "Narsese/include/Connector.h: Repr", "Narsese/Parser/narsese.par"]}
{"id": "C69", "title": "Python constants denote the right connectors", "statement": "Each connector constant exported to Python denotes the connector of that name.", "quantifier": "all exported names", "why_tests_cant": "two names bound to one value pass any test that does not compare all pairs", "anchors": ["Narsese/src/Connector.cpp: pybind_connnector", "Narsese/src/Copula.cpp"]}
{"id": "C70", "title": "Printing a sentence is always defined", "statement": "Printing any sentence, plain or coloured, returns the printed term followed by the punctuation mark, the tense mark unless the sentence is eternal, and the truth value exactly for judgements and goals; it neither throws nor reads a missing truth value.", "quantifier": "all sentences, dictionary states and clock values", "why_tests_cant": "undefined behaviour depends on the class of the object and on null pointers", "anchors": ["Interpreter/src/Interpreter.cpp: interpret(Sentence&)", "Narsese/include/Sentence.h", "Narsese/src/Sentence.cpp"]}
{"id": "C71", "title": "Acceptance depends on the input alone", "statement": "Whether a text is accepted, and with which syntax tree, is determined by the text: members of the parser that the constructor does not set have no influence.", "quantifier": "all texts and all values of the uninitialised members", "why_tests_cant": "fresh heap memory is usually zero, so a test never sees the other values", "anchors": ["Narsese/Parser/Parser.cpp: Parser::Parser", "Narsese/Parser/narsese.h: error_delay", "Narsese/Parser/narsese.cpp: parse (lines 815-832, 935-936)"]}
{"id": "C72", "title": "Infix, tuple and prefix notation mean the same", "statement": "A text with infix operators or tuples and the text with the prefix operators instead evaluate to the same task, or fail in the same way, and leave the same state.", "quantifier": "all accepted pairs of texts whose trees differ only by notation, at any number of places and any depth; all states", "why_tests_cant": "all terms, all nestings", "anchors": ["Narsese/Parser/NarseseParser.cpp: multi_infix, multi_prefix, multi_prefix_product, single_infix, single_prefix, multi_*_expr", "Narsese/Parser/narsese.par"]}
{"id": "C73", "title": "Terms made by the parser are well built", "statement": "The term of every parsed task is the result of constructor calls: its cached complexity and variable flags are those of what it reads, copying it makes the same term, and terms of parsed tasks can be compared with <, none being less than itself.", "quantifier": "all accepted texts, all sessions, all iteration orders of the hash sets", "why_tests_cant": "all terms of any size; the iteration order is unspecified", "anchors": ["Narsese/Parser/NarseseParser.cpp", "Narsese/src/Term.cpp", "Narsese/src/Compound.cpp", "Narsese/src/Statement.cpp"]}
{"id": "C74", "title": "The parser accepts exactly Narsese, with the right tree", "statement": "A line is accepted with a syntax tree exactly when that tree is a derivation tree of narsese.par in which the two ambiguities (a statement as content of a sentence, an operation in parentheses) are resolved as statement; in particular every line of the language is accepted, and exactly one such tree exists.", "quantifier": "all lines, all derivation trees, all recovery settings, all buffer histories", "why_tests_cant": "infinitely many lines and nestings; 300-state tables", "anchors": ["Narsese/Parser/narsese.par", "Narsese/Parser/narsese.h", "Narsese/Parser/narsese.cpp: parse"]}
{"id": "C75", "title": "Blanks between tokens do not matter", "statement": "An accepted line is a list of tokens; every line consisting of the same tokens with any blanks before, between and after them is accepted with the same syntax tree.", "quantifier": "all accepted lines, all layouts", "why_tests_cant": "all lines, all amounts of blanks", "anchors": ["Narsese/Parser/narsese.par:10", "Narsese/Parser/narsese.h", "Narsese/Parser/narsese.cpp: parse"]}
{"id": "C76", "title": "Constructing a compound again changes nothing", "statement": "Constructing a compound from the components of a compound that was made by a constructor, with the same connector, gives that compound back: same components in the same order, same caches.", "quantifier": "all constructed compounds, all orders in which the hash map of connectors may be walked", "why_tests_cant": "unbounded terms, unspecified iteration order", "anchors": ["Narsese/src/Compound.cpp:123-330", "Narsese/include/Term.h: Terms::create"]}
{"id": "C77", "title": "Type, stamp, truth value and budget of a task are what its line says", "statement": "An accepted line is a budget or none, a content, a punctuation mark, a tense mark or none and a truth value or none (none after ? and @), with blanks between. The task made from it has the type of the mark, an evidential base with the next input id and the current time as occurrence time if there is no tense mark, no base and the written time (0, 5, -5 or the number) if there is one, the written truth value and budget completed by the defaults, and exactly one input id is used up.", "quantifier": "all accepted lines, all parser states, all environments", "why_tests_cant": "unbounded lines; all combinations of optional parts with all contents", "anchors": ["Narsese/Parser/narsese.par:10-35", "Narsese/Parser/narsese.par:137-140", "Narsese/Parser/NarseseParser.cpp:600-800"]}
{"id": "C78", "title": "Constructing a compound duplicates nothing", "statement": "No constant, variable or interval occurs more often in a constructed compound than in the arguments together, there are no more statements in it than in the arguments, and its complexity is at most the sum of their complexities, whatever is merged, flattened or reduced on the way.", "quantifier": "all connectors, all lists of constructed arguments, both values of is_input, all orders in which the hash map of connectors may be walked", "why_tests_cant": "unbounded nesting, recursive reduction through several connectors, unspecified iteration order", "anchors": ["Narsese/src/Compound.cpp:123-330", "Narsese/include/Term.h: Terms"]}
{"id": "C79", "title": "A parsed line holds exactly the names in its term", "statement": "Parsing an accepted line takes one handle for every occurrence of a constant or operation in the term of its task and no other; their names are words of the line; the names known afterwards are those known before and these; destroying the term restores handles and known names. Every interval in the term is a number in the line.", "quantifier": "all accepted lines, all parser states, all reachable dictionaries", "why_tests_cant": "leaks depend on which subterms are merged during construction and on what was known before; unbounded histories and lines", "anchors": ["Narsese/Parser/NarseseParser.cpp:420-500", "Narsese/include/Term.h: pTerm", "Interpreter/Interpreter.cpp", "Narsese/src/Compound.cpp:123-330"]}
{"id": "C80", "title": "Tasks are read back from their printed form", "statement": "The line printed for a task is accepted by the parser, and the task read from it has the same type and class, the same term (up to the stored names of variables), the same tense, and, up to the decimals that are printed, the same truth value and budget; printing it again at time 0, or if it is eternal, gives the same line.", "quantifier": "all tasks whose term is as in C41, all truth values and budgets, all stamps and times, all parser states and reachable dictionaries, lines of any length (up to 121 characters for the driver as it is)", "why_tests_cant": "unbounded terms; every pair of a value and its nearest decimal, every combination of type, tense, truth value and budget, in every state of parser and dictionaries", "anchors": ["Interpreter/src/Interpreter.cpp:218-290", "Narsese/Parser/NarseseParser.cpp:60-285", "Narsese/include/Sentence.h:84-94"]}
{"id": "C81", "title": "Every object made while a line is read is given back exactly once", "statement": "Reading an accepted line, with every new and delete of the semantic actions and of transform, never reads or deletes an object that is not there or that is something else; if it returns, the new objects are exactly the task, its budget, its sentence, the stamp and, for judgements and goals, the truth value; all other objects, among them those from before, are as they were. When the last pointer to the task goes, exactly those objects are deleted. Nothing is left if an action throws.", "quantifier": "all accepted lines, all parser and dictionary states, all heaps", "why_tests_cant": "ownership passes through void pointers between thirty actions, in every combination the grammar allows; a leak or a double delete shows in no result", "anchors": ["Narsese/Parser/NarseseParser.cpp:59-860", "Narsese/Parser/Parser.cpp:30-110", "Narsese/Parser/NarseseParser.h:15-28"]}
{"id": "C82", "title": "Objects are deleted as what they were created as", "statement": "Every object that is deleted while a line is read or when its task ends is deleted as an object of the class it was created as, or of a base class with virtual destructor.", "quantifier": "all accepted lines, all parser and dictionary states, all heaps", "why_tests_cant": "undefined behaviour that most compilers translate into something harmless; which classes meet which deletes depends on the line", "anchors": ["Narsese/Parser/NarseseParser.cpp:59-300", "Narsese/Parser/NarseseParser.cpp:760-822", "Narsese/include/Term.h:50-130", "Narsese/include/Sentence.h:115-185"]}
{"id": "C83", "title": "The nodes of the syntax tree are kept, linked and freed", "statement": "While a line is parsed no link is followed to a node that is not there, no node is lost when lists are spliced, and the nodes of an accepted line form one tree linked in both directions. When parse_string returns, every node and token made for the line has been freed, exactly once, and nothing else has.", "quantifier": "all lines, all heaps, all histories of calls", "why_tests_cant": "pointer splicing in a loop over inputs of unbounded length; a lost node shows in no result", "anchors": ["Narsese/Parser/narsese.cpp:46-93", "Narsese/Parser/narsese.cpp:721-785", "Narsese/Parser/narsese.cpp:881-960", "Narsese/Parser/Parser.cpp:28-47"]}
{"id": "C84", "title": "How the reading of an accepted line can fail", "statement": "Evaluating an accepted line always ends. It throws only from std::stod, and only if a numeral of the line is out of the range of double. It is undefined only if a numeral for an interval or a time is no int, or if a compound or statement of the line cannot be built from its evaluated parts: a commutative compound inside a commutative compound, two different components with variables and the same hash, or an abbreviated copula beside a set. Otherwise there is a task.", "quantifier": "all lines, all reachable dictionaries, all enumeration orders of the hash map, all allocators that give fresh addresses", "why_tests_cant": "absence of every other failure, over all lines and all earlier lines", "anchors": ["Narsese/Parser/NarseseParser.cpp:60-910", "Narsese/src/Compound.cpp:123-331"]}
{"id": "C85", "title": "Reading the same line again gives the same term", "statement": "The outcome of reading a line depends only on the terms its names stand for. If a line gave a task and the terms made for its names are still held, reading it again gives an equal term, made of the same atomic terms, and the same punctuation, truth value and budget.", "quantifier": "all lines, all reachable dictionaries, everything that may happen in between, all allocators that give fresh addresses", "why_tests_cant": "it is about all lines and all pairs of states; the tests of the project try three lines and are commented out", "anchors": ["Narsese/Parser/NarseseParser.cpp:400-910", "Interpreter/include/Interpreter.hpp: get_by_name, put, remove", "Tests/test_term.cpp:25-61"]}
{"id": "C86", "title": "Truth functions give numbers", "statement": "If the frequencies and confidences of the premises are numbers from 0 to 1, the frequency and the confidence computed by revision, deduction, induction and comparison, and the quality computed from a truth value, are numbers too: no infinity, no NaN, for any sequence of revisions.", "quantifier": "all truth values, all sequences of revisions", "why_tests_cant": "the failing values are reached by rounding at the edge of the range, and a sum over sequences of any length can get there", "anchors": ["NAL/Functions/include/TruthFunctions.h:19-65", "NAL/Functions/include/UncertaintyMappingFunctions.h:9-30", "Narsese/include/Truth.h:26-50", "Narsese/include/Budget.h:30-34"]}
{"id": "C87", "title": "What is printed for a line depends on the line alone", "statement": "The term of a task that was read is printed as the line says: names as they are written, variables numbered by kind in the order in which they occur, intervals with a sign, abbreviated sets and the other notations written out. The same line read in two sessions is printed with the same text for the term, the same punctuation, truth value and budget, whatever was read before.", "quantifier": "all lines, all reachable dictionaries, all allocators that give fresh addresses", "why_tests_cant": "it compares all pairs of sessions; Tests/test_parser.cpp prints one line in a fresh session", "anchors": ["Tests/test_parser.cpp:50-56", "main.cpp:29-36", "Interpreter/src/Interpreter.cpp", "Narsese/Parser/NarseseParser.cpp:400-910", "Narsese/Parser/narsese.par"]}
{"id": "C88", "title": "A program holds exactly the names in the tasks it holds", "statement": "In a program that reads any lines and drops the returned tasks in any order, at every moment: there is one handle for each occurrence of a constant or operation in a task that lives; a name is known exactly if it is the name of one of these; equal names mean equal addresses and conversely; every task that lives can be dropped and is printed as when it was read; and when all tasks have been dropped, the dictionaries are empty.", "quantifier": "all programs of reads and drops, all lines, all allocators that give fresh addresses", "why_tests_cant": "it is an invariant of unbounded histories; test_efficiency1-5 read one line ten thousand times and check nothing", "anchors": ["main.cpp:24-36", "Tests/test_parser.cpp:32-79", "Tests/test_parser.cpp:262-293", "Interpreter/include/Interpreter.hpp:60-170", "Narsese/include/Term.inl:44-52", "Narsese/Parser/NarseseParser.cpp:400-910"]}
{"id": "C89", "title": "A program that prints a task it holds can read it back", "statement": "At every moment of a program that reads lines and drops tasks, a task it holds, printed and read again, gives a task of the same type, class, term and tense, with budget and truth value within the error of the printed decimals, that is printed as the same text; the dictionaries stay as they were, and the program goes on holding one task more.", "quantifier": "all programs of reads and drops, all tasks they hold, all lines these were read from", "why_tests_cant": "the hypotheses of C41 and C80 about names, atoms, sentences and ranges are discharged for every history of the program; tests print and reread single lines in a fresh session", "anchors": ["main.cpp:24-36", "Tests/test_parser.cpp:32-79", "Narsese/src/Task.cpp:1-30", "Narsese/Parser/narsese.par:1-160", "Narsese/Parser/NarseseParser.cpp:400-910", "Interpreter/include/Interpreter.hpp:60-170"]}
{"id": "C90", "title": "Python shows every object as its kind and its text", "statement": "repr(x) of a term, sentence or task in Python is `<Kind: text>` with its kind and its Narsese text; it is defined whenever the text is, objects of different kinds or texts are shown differently, and a term without any interpreter is shown as its kind and address.", "quantifier": "all terms, sentences and tasks, all dictionaries, all addresses", "why_tests_cant": "there is no test of the Python module; that the representation never confuses two objects is a statement about all pairs of them", "anchors": ["Narsese/src/Term.cpp:49-75", "Narsese/src/Term.cpp:131-135", "Narsese/src/Sentence.cpp:6-13", "Narsese/src/Sentence.cpp:39-43", "Narsese/src/Task.cpp:7-28", "Narsese/src/Statement.cpp:24-28", "Narsese/src/Compound.cpp:345-349", "Narsese/src/Truth.cpp:14", "Narsese/src/Budget.cpp:17-18"]}
{"id": "C91", "title": "Python's parse gives a task or raises RuntimeError", "statement": "parse(line) in Python returns a task exactly if the line is Narsese and its semantic actions succeed, and raises RuntimeError otherwise.", "quantifier": "all lines, all states of the parser object and the dictionaries", "why_tests_cant": "there is no test of the Python module; which lines are accepted is a statement about all lines", "anchors": ["Narsese/Parser/NarseseParser.cpp:991-1016", "Narsese/Parser/NarseseParser.h:16-23", "Narsese/Parser/Parser.cpp:28-47"]}
{"id": "C92", "title": "The generator makes stubs for exactly the nodes there are", "statement": "The file written by GENERATE::generate has exactly one prototype, one definition and one registration for each kind of node the parser can make, and nothing for any other name; registrations are aligned.", "quantifier": "all kinds of nodes, all lines; alignment for all lists of names", "why_tests_cant": "which nodes the parser can make is a statement about all lines; the generator has no test and is not called", "anchors": ["Narsese/Parser/generate.cpp:24-92", "Narsese/Parser/narsese.h:795-1306", "Narsese/Parser/NarseseParser.cpp:915-988"]}
{"id": "C93", "title": "The printed syntax tree determines the tree", "statement": "If ast_print prints the same text for the syntax trees of two accepted lines, the trees are the same.", "quantifier": "all pairs of accepted lines, all states of the parser, every indentation", "why_tests_cant": "injectivity is a statement about all pairs of trees; the text behind a name is left out when it equals the name", "anchors": ["Narsese/Parser/narsese.cpp:97-126", "Narsese/Parser/narsese.h:795-1306"]}
{"id": "C94", "title": "Python's variables keep what they refer to", "statement": "Whatever statements and compounds a Python program builds from terms, takes apart and drops: using a variable is defined, the count of every object is the number of handles on it, an object lives exactly as long as a variable keeps a term that contains it, its parts do not change meanwhile, a name is known to the interpreter exactly as long as a variable keeps a term that contains it, and after the last variable is gone nothing is left.", "quantifier": "all programs of any length that create atoms, build terms sharing parts to any depth, copy subject/predicate/terms, and drop variables in any order", "why_tests_cant": "the counts depend on the whole history of sharing; a dangling element of `terms` usually still reads as before", "anchors": ["Narsese/src/Term.cpp:78-136", "Narsese/include/Term.inl:44-52", "Narsese/include/Term.h:50-97", "Narsese/src/Compound.cpp:334-350", "Narsese/src/Statement.cpp:17-21", "Narsese/include/Term.h:202-262"]}
{"id": "C95", "title": "Iterators over components are values", "statement": "Iterators over the components of a term behave as positions: copies are independent of their originals, comparison and arithmetic are those of positions, a loop over the components visits each once and in order; every iterator frees its own memory once, and nothing remains when the last iterator is gone.", "quantifier": "all programs of any length with any number of iterators over any number of ordered and commutative component lists of any size", "why_tests_cant": "ownership of the hidden objects depends on the whole history of copies; a wrong delete is silent with the usual allocators", "anchors": ["Narsese/include/Term.h:202-308", "Narsese/include/Term.h:455-469", "Narsese/include/Term.h:480-497"]}
{"id": "C96", "title": "A program that reads lines, prints the tasks and drops them", "statement": "A program that reads lines one after the other, prints each task and drops it, as main.cpp does, reads, prints and drops all of them; each text printed is that of the line, with default numbers and truth values filled in, the components of commutative compounds in any order; at the end no name or term is left in the dictionaries. The four lines in main.cpp are printed with budget 0.80;0.80;0.50 and truth 1.000;0.900 on every machine.", "quantifier": "all lists of lines of any length and size, all allocators with room for the names of a line, all orders of hash tables, all amounts of fuel that suffice for the longest line", "why_tests_cant": "what is printed depends on addresses and on what earlier lines left in the dictionaries", "anchors": ["main.cpp:16-41", "Narsese/src/Term.cpp:60-75", "Interpreter/src/narsese.cpp"]}
{"id": "C97", "title": "A program that reads lines and drops the tasks", "statement": "A program that reads lines one after the other and drops what it gets, as the tests of efficiency in Tests/test_parser.cpp do, gets a task for every line of the language, made from the tree of that line and in their order, and none for other lines; at the end no name or term is left in the dictionaries. Each of the lines in these tests can be read any number of times.", "quantifier": "all lists of lines of any length and size, any number of repetitions, all allocators with room for the names of a line, all orders of hash tables, all amounts of fuel that suffice for the longest line", "why_tests_cant": "the tests read one line ten thousand times with the addresses they happen to get; what a line gives depends on addresses and on what earlier lines left", "anchors": ["Tests/test_parser.cpp:263-291", "Narsese/Parser/NarseseParser.h:16-23", "Narsese/include/Term.inl:44-52"]}
{"id": "C98", "title": "The enabled test of Term::clone passes on every machine", "statement": "The only test that the test program runs, test_term.test_clone, passes: its line is read, and whatever the objects are of which the term consists, the clone and its first component print the same text as the originals and are other objects, the predicate of that component prints the same and is the same object, the subject prints the same and is another object. The same holds for every compound whose first component has a variable in its subject and none in its predicate.", "quantifier": "all addresses an allocator may return, all orders of hash tables, all ways objects may be shared, both orders in which the two components may be stored, all collisions of hashes", "why_tests_cant": "the test runs once with the addresses it gets; which component comes first, and whether the comparator tells the two apart, depends on addresses", "anchors": ["Tests/test_term.cpp:176-219", "Tests/test.cpp:11", "Narsese/include/Term.inl:182-219", "Narsese/include/Compound.inl:12-62", "Narsese/include/Statement.inl:38-76", "Narsese/include/Variable.inl:17-32"]}
{"id": "C99", "title": "The program that reads files of examples does all tasks in them", "statement": "test_parse_nal cuts each file at its ends of line and nowhere else; of each line it takes what is between the space at its ends, and passes over the line if that is empty, a number or a comment; every other line is read as a task, printed (with or without colours), and dropped; what is printed is what should be printed for the line; and at the end all dictionaries are empty. This should hold for all files.", "quantifier": "all numbers of files, all bytes and lengths of files and lines, files that cannot be opened, all allocators with fresh addresses, both values of colored", "why_tests_cant": "the program is run on the files in examples/, whose lines all begin with ASCII; a rejected line ends it with a null pointer, and the tests that would call it are commented out", "anchors": ["Tests/test_parser.cpp:23-84", "Narsese/Parser/Parser.cpp:64-90", "Interpreter/src/Interpreter.cpp:218-243"]}
{"id": "C100", "title": "Lines from the standard input", "statement": "Each call of parse_input takes one line from the standard input, up to and including its newline, and gives the task that parse_task would give for that line; so n calls read the first n lines, in order, and leave what follows.", "quantifier": "all lines, all numbers of lines, all that follows them, all states of the parser before", "why_tests_cant": "no test calls parse_input, and what is left in the standard input after a rejected line depends on where the scanner stopped", "anchors": ["Narsese/Parser/Parser.cpp:49-63", "Narsese/Parser/narsese.h:175-240", "Narsese/Parser/narsese.cpp:200-260", "Narsese/Parser/NarseseParser.h:12-24"]}
{"id": "C101", "title": "Truth values and budgets as Python objects", "statement": "In every Python program a member of a truth value or a budget has the value of the last line that gave it one, through whatever name; a sentence prints the present contents of the truth value it was made with; and members, expectation and quality stay between 0 and 1.", "quantifier": "all programs of constructions, assignments to members and bindings of names, of any length; all roundings", "why_tests_cant": "which names are bound to one object depends on the whole program before; no test assigns to a member", "anchors": ["Narsese/src/Truth.cpp:5-16", "Narsese/src/Budget.cpp:9-19", "Narsese/include/Budget.h:24-39", "Narsese/include/Truth.h:19-29", "Narsese/src/Sentence.cpp:32-37", "Interpreter/src/Interpreter.cpp:277-278"]}
{"id": "C102", "title": "It does not matter which parser reads a line", "statement": "The header defines the parser as a static object, so each translation unit has its own. In every program it makes no difference which of them reads a line: each line gives the same result, and the terms, dictionaries and counters are the same in the end, as if there were one parser.", "quantifier": "all sequences of lines, all choices of a parser for each line, all states of the parsers and of the program before", "why_tests_cant": "each test uses the parser of its own translation unit only, and the results depend on what each parser has read before", "anchors": ["Narsese/Parser/NarseseParser.h:31", "Narsese/Parser/NarseseParser.h:16-23", "Narsese.cpp:46", "Narsese/Parser/NarseseParser.cpp:999", "Narsese/Parser/Parser.cpp:28-47"]}
{"id": "C103", "title": "How Python shows truth values and budgets", "statement": "Truth values that repr shows alike differ by at most 0.01 in frequency and confidence and have the same k; budgets that it shows alike differ by at most 0.01 in each number; no truth value is shown as a budget; and numbers between 0 and 1 with at most two decimals are shown as they were written, whether passed to the constructor or assigned.", "quantifier": "all truth values and budgets, also negative ones and such above 1; all states of the program; all roundings to the nearest decimal", "why_tests_cant": "no test prints a truth value; the stored number is never the one written, and the separators of the text could occur in its parts", "anchors": ["Narsese/include/Truth.h:62-65", "Narsese/src/Budget.cpp:17-18", "Narsese/src/Truth.cpp:9-14"]}
