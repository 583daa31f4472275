# Formal model of cNARS in Lean 4

The subject is the C++ library in `/repo` (Narsese terms, the interpreter that names and prints
them, the generated Narsese parser with its semantic actions, evidence/stamps/truth values and the
truth functions).  The model lives in `lean/Verif/`, the claims in `properties.jsonl`, the
claim-to-theorem map in `MANIFEST.json`, the wrong-program experiments in `seeded/LOG.jsonl`.

## 1. Trusted base

* The Lean 4.33.0 kernel.  No axioms are added; every theorem depends on a subset of
  `propext`, `Classical.choice`, `Quot.sound` (checked with `#print axioms`, and by `vcheck`).
  No `sorry`, `admit`, `native_decide`, `bv_decide`.
* The reading of the C++ text.  Nothing was compiled or run; the correspondence between each Lean
  definition and the cited lines is by inspection.
* The C++ implementation the text is read against: LP64 (64-bit `size_t`/`long`, 32-bit `int`),
  two's complement, signed `char`, `std::hash` on integers is the identity (libstdc++),
  C++17/20 evaluation order.  `std::set`/`std::map` are modelled by their specification;
  `std::unordered_map` enumerates in an arbitrary order (a parameter).
* Floating point: numeric properties are stated over exact rationals/reals; where a range claim is
  meant to survive rounding it is proved for *every* rounding function that is monotone and exact
  on the few constants involved (all IEEE-754 rounding modes are).  `Nal/Ieee.lean` defines rounding to
  nearest, ties to even, for binary32 and binary64 with subnormal numbers and without a largest number,
  and proves that it is one of them; `Props/Ieee.lean` says what is true and what is false of it.
  `Props/Errors.lean` bounds its errors.
  `Nal/Special.lean` has the truth functions once more with infinities and NaNs; there zeros have no sign and NaNs
  no payload.
* Memory: `Parser/Memory.lean` has the objects made by `new` in `NarseseParser.cpp` and in
  `Parser::transform`.  Not in that heap: the objects behind `pTerm` (their reference counts are in
  `Interp/`), the insides of standard containers, exceptions from `new`.  `Parser/Nodes.lean` has the
  nodes and tokens of the syntax tree, with their links, in a heap of their own; not in it: the parser
  stack, the input buffer, the lexeme, failing `malloc`.

## 2. Modelling conventions

* Undefined behaviour is a value: computations return `Res α = ok a | throw msg | ub`.
  Out-of-range indexing, null dereference, dereferencing `begin()` of an empty container, a
  comparator that is not a strict weak order inside `std::set`, mis-typed `void*`, signed overflow
  where relevant: all give `ub`.
* Caches are stored, not recomputed: a model object has the same cached fields as the C++ object
  (hash, complexity, flags, index tables), computed by the modelled constructors, and theorems say
  that the caches are right (or show where they are not).
* Specifications are written separately from the model (namespaces `Spec…`), in terms of plain
  lists, sets, trees and arithmetic.
* If the code violates the property, the negation is proved on a concrete witness
  (`…_counterexample`), a `_partial` theorem gives what does hold, and section 5 records it.

## 3. Module map

| module | models |
|---|---|
| `Verif/Base/Res.lean` | outcome monad |
| `Verif/Base/Hash.lean` | `utils/hash.h` |
| `Verif/Narsese/Tables.lean` | `Connector.h`, `Copula.h`, `Connector.cpp`, `Copula.cpp` |
| `Verif/Narsese/IndexVar.lean` | `utils/IndexVar.{h,cpp}` |
| `Verif/Narsese/Term.lean` | `Term.{h,inl}`, `Statement.{h,inl}`, `Compound.{h,inl}`, `Variable.{h,inl}`, `Interval.h`, `Operation.h` |
| `Verif/Narsese/Terms.lean` | class `Terms` (`Term.h` 310-498) |
| `Verif/Narsese/Compound.lean` | `Compound.cpp` |
| `Verif/Narsese/Iterator.lean` | class `Iterator` (`Term.h` 202-308) |
| `Verif/Parser/Demo.lean` | `main.cpp` |
| `Verif/Parser/Reads.lean` | the loops of `Tests/test_parser.cpp`, test_efficiency1 to 5 |
| `Verif/Parser/Files.lean` | `test_parse_nal` of `Tests/test_parser.cpp` |
| `Verif/Narsese/Heap.lean` | pointer-level `Term::clone` |
| `Verif/Interp/*.lean` | `Interpreter.hpp`, `Interpreter.cpp`, `Term.cpp`, `pTerm` life cycle |
| `Verif/Sentence/*.lean` | `Evidence.h`, `Sentence.h`, `Budget.h`, `Global.h`, `Config.cpp` |
| `Verif/Nal/*.lean` | `Truth.h`, `NAL/Functions/include/*.h` |
| `Verif/Parser/*.lean` | `narsese.h` tables (generated Lean data), `narsese.cpp` driver and `ast_print`, `Parser.cpp`, `NarseseParser.{h,cpp}`, `generate.cpp` |
| `Verif/Props/*.lean` | the property theorems, with non-vacuity examples |

### Not modelled

* `Narsese.cpp` and `Narsese/src/Narsese.cpp` (registration of the Python module), `Tests/*.cpp` except the loops of C97, the test of C98 and the file reader of C99.
* The buffer of the C library between the standard input and `getchar`: `parse_input` (C100) is modelled from the results of `getchar` on.
* Debug output of `narsese.cpp` under `UNICC_DEBUG`, and its `main` under `UNICC_MAIN`.
* pybind11 itself: the conversion of arguments and results, `TypeError`s.  Modelled are the functions that the bindings
  call (C90, C91), for `repr` the number of parameters, and which Python objects own a handle (C94).
* The objects behind `pTerm` as memory: reference counts are in `Interp/`, addresses of constants and operations in the
  allocator parameter; compounds and statements are values.  Except `Term::clone` (`Narsese/Heap.lean`) and the sharing
  of parts (`Interp/Shared.lean`, without the contents of the terms).
* Threads: all state is used by one thread, as in the code.
* Files that contain nothing: `Item.h`, `Link.h`, `Evidence.cpp`, `Interval.cpp`, `Item.cpp`, `Link.cpp`, `Operation.cpp`, `Tense.cpp`,
  `Vocabulary.cpp`, `sorted.{h,cpp}`; `Vocabulary.h` defines a map that nothing uses.
* The build (`CMakeLists.txt`) and the UniCC parser generator; `narsese.par` is compared with the generated
  tables (C42, C43, C74, C75), not run through the generator.

## 4. Plan per property

| id | what is modelled, how it is proved |
|---|---|
| C01 | the two-word hash of an address as `BitVec 64`; injectivity by bit-vector algebra |
| C02 | hashes of the three leaf kinds; disjointness for user-space addresses by arithmetic on the hash |
| C03 | `operator==` by recursion on term trees; equivalence with a separate structural relation, by induction |
| C04 | from C03 |
| C05 | `operator==`/`<` return `Res`; definedness by induction; counterexample for `#x`, `?x` |
| C06 | `operator<`; strict weak order wherever hashes separate or no variables occur; counterexample `<$x-->$y>` / `<$y-->$x>` |
| C07 | counterexample; partial: holds when the two sides are the same term |
| C08 | hash of a term as computed by the constructors; induction on the construction |
| C09 | interval objects with cached hash, histories of updates; counterexample for `+=` |
| C10 | `std::set` insertion under the comparator; comparison with sorting by hash |
| C11 | fold of `set_union` etc. on sorted lists; membership lemmas |
| C12 | error branches; counterexample for a non-commutative first operand |
| C13 | `prepocess_terms`; follows from canonicity of the component set |
| C14 | computation for non-commutative connectors |
| C15 | the merge rules; counterexamples for `&`/`{}`, `|`/`[]`, `-`, `~` |
| C16 | induction over the recursive normalisation |
| C17 | counterexample (dropped single-element compounds); partial under arity conditions |
| C18 | counterexamples; partial for arguments that are not commutative compounds |
| C19 | counterexamples; partial |
| C20 | fuel never runs out (fuel = depth of the arguments) |
| C21 | the enumeration order is a parameter (permutation); result independent of it |
| C22 | counterexample; sequential connector always, commutative partial |
| C23 | table evaluation plus arithmetic |
| C24 | cached complexity equals a recursive count, induction over construction |
| C25 | same for flags |
| C26 | index tables; independent variables proved, counterexample for `#`/`?` |
| C27 | `_normalize`; order theory on lists of integers |
| C28 | state machine for one index table; counterexample for nested updates; partial |
| C29 | tree-level and heap-level model of `clone` |
| C30, C31 | state machine with handles and reference counts; invariant by induction on histories |
| C32, C33, C34 | dictionary state machine; counterexamples; partial under the interning protocol |
| C35 | key truncation; exact collision condition; counterexample; partial |
| C36 | `operation()` on the dictionary; counterexamples; partial |
| C37, C38, C39, C40, C70 | `interpret` on terms/sentences/tasks with `Res` strings; unambiguity of bracketed texts by induction |
| C41 | the printed text is a line of the grammar, so C74 gives its syntax tree; evaluation of that tree by induction on the term |
| C42, C43, C45, C46 | generated tables as Lean data, driver as step function; invariants checked on the tables by kernel evaluation, lifted to all inputs by induction; the height of the stack is that of the parse tree, bounded by the nesting of the syntax tree by a certificate (`HeightCerts.lean`, generated by `tools/gen_height.py`, not trusted), and exactly by another (`NestCerts.lean`, generated by `tools/gen_nest.py`, not trusted); for lines accepted or not, the entries a state owes to the opening characters read so far are bounded by a second certificate (`OpenCerts.lean`, generated by `tools/gen_opens.py`, not trusted) |
| C44 | typing of semantic actions along derivations |
| C47, C48, C49 | driver/session model; for C49 also: a task comes about only if all numerals of the line are taken, so a tree that threw never gives one |
| C50, C51 | numbering state threaded through the actions |
| C52 | induction on derivations: which tokens are numerals and what they denote; values of the task in terms of the numerals, for every rounding |
| C53, C72 | trees related by rewriting abbreviations and notations; evaluation of both compared, by recursion on the tree |
| C54, C55, C56 | stamps with machine integers |
| C57 – C60 | evidential bases on a heap of shared sets |
| C61 – C66 | numeric functions over ordered fields |
| C67, C68, C69 | tables |
| C73 | induction on syntax: every action calls constructors on constructed terms |
| C74, C75 | completeness of the LR(1) tables: a certificate (`ItemCerts.lean`, generated by `tools/gen_items.py`, not trusted) gives the items of every state; checked against the tables by kernel evaluation, lifted to all derivation trees by induction; the scanner in every state is compared with the token definitions by exploring linear forms of regular expressions |
| C77 | the derivation of an accepted line is split into its parts, keeping the characters of each; evaluation of the sentence and task actions is then computed for arbitrary contents; conversely any parts make a line whose tree is of the kind the parser builds, so with C74 the parts are unique |
| C78 | any quantity that adds up over components does not grow through merging, flattening and reduction (induction on the step bound of the construction); instantiated with the number of occurrences of each leaf and with the number of statements |
| C79 | an account of handles is kept through the evaluation of the syntax tree: those before, plus one for each atom of the terms in hand; settling after a construction uses C78 |
| C80 | the printed line is written as a syntax tree of the grammar (its numerals by induction on decimals), accepted by completeness (C74), evaluated by C41's evaluation of the term and C77 for the rest; the nearest decimal is unique, so printing again gives the same line |
| C81 | the actions are modelled a second time on pointers into a heap (`Parser/Memory.lean`); a triple `Sim pre x y post` says that `y` on a heap with cells `pre` (and any others) ends like `x` on values and leaves the cells `post` allows (and the others); one such lemma per action, induction over typed trees; the end of the task with C79 |
| C82 | the same with a relation between the class of creation and the class of deletion as a parameter: equality, or equality up to types with the same layout |
| C83 | the loops of the driver are modelled a second time on linked nodes (`Parser/Nodes.lean`); invariant: each stack entry starts a doubly linked list that holds the nodes of the other model, and the blocks made since the call are those of the lists, each once; that no link to further nodes is overwritten while a right-hand side is dropped is C43's argument about the grammar |
| C84 | a predicate on the ends of a computation that composes over sequencing; induction on syntax with the account of C79; construction is defined when the comparator is a strict weak order, which it is when it only looks at hashes and the presence of variables, on variables, and on statements or compounds that differ only in one place, if it is one on what is in this place (`Narsese/Keyed.lean`, `Narsese/Frames.lean`, `Parser/Akin.lean`), when there is a single argument, or when the commutative compounds inside have the connector of the whole or are shallow, and those that are intersected share an atom (`Narsese/Within.lean`, `Narsese/Mingled.lean`); that they share one is seen from the line, since a name in use has one atom (`Parser/Mingle.lean`) |
| C85 | a second evaluator without dictionary takes the terms of the names from a function (`Syn.means`); both evaluations agree with it, by induction on syntax; the atoms met in a first run are those known afterwards, as the dictionary only grows by new atoms; in the lines of `Syn.Plain` no leaf is dropped by construction, so none of these is lost |
| C86 | the truth functions over numbers, infinities and NaNs; below 2^120 nothing overflows, so they agree with those over numbers; the edge is confidence 1, by cases on the two amounts of evidence; list induction for sequences |
| C87 | a function from the line's syntax to the text (`Syn.shown`) that uses no dictionary and no addresses; by induction on syntax the printed tree is that tree up to the order in commutative compounds (`Same`); words never begin with `^` and only operations are called, by induction on grammar derivations |
| C88 | a transition system over parser state, dictionaries and live tasks; the account of C79 relative to the empty dictionary is an invariant of its steps; names of atoms are kept by each step, as handles that remain were there before; a tree whose evaluation throws has had some of its terms made, from left to right, and nothing else, so what it leaves is accounted for; printing reads the dictionary only at the keys of atoms and complexes |
| C89 | every name comes from a word of an accepted line (by induction on the grammar), so names of atoms held are words or `^` and words; no rule gives an abbreviated copula or a lone variable; these are invariants of the program of C88, and with them the hypotheses of C80 follow; reading the line is a step as its words are those of the term |
| C90 | kinds are told by their first letters and texts by cancelling prefix and suffix; hexadecimal numerals are injective; pybind11 is modelled by the number of parameters and of declared defaults only |
| C91 | the outcome is read off `parseTask`; which lines are accepted with which tree is C74, that no line makes the driver throw is C45 with C46 |
| C92 | the lines of the file as a function of the tables; the nodes in trees of accepted lines come from the tables by induction over parse trees, sample lines show that each occurs |
| C93 | the printed text as a function of the tree; by induction over the trees the text is taken apart line by line, using that leaves and inner nodes have different names |
| C94 | objects with counts and members, variables that own a handle or refer into an object; invariant: handles are exactly the variables and members, members are older than the object; deletion by recursion over a list of handles with fuel; counterexample for elements of `terms` |
| C95 | iterators with a pointer to an object in memory, tagged with its type; refinement of a machine with positions only, by an invariant (each object has one owner); the loop by induction on what is left; counterexamples for types, assignment and `k++` |
| C96 | the loop of `main.cpp` over any lines: induction on the lines, with C74 (acceptance), C84 (actions do not fail), C87 (text), C88 (dictionaries are empty when all tasks are dropped) at each; the four lines of `main.cpp` with exactly what is printed |
| C97 | the loop over any lines: induction on the lines with C43/C74 (what is accepted), C84 (actions do not fail), C88 (dictionaries) at each; a computable test, shown to be sufficient, for whether a line is of the kind C84 asks for, evaluated on the lines of the tests |
| C98 | the test as a function of the object that is cloned; C29 for what is shared, C84 (with `Narsese/Keyed.lean`: statements about one variable are ordered even if their hashes collide) for the construction, C97 for the reading of the line |
| C99 | the loops of test_parse_nal as functions of the bytes of the files; the lines and what is taken of them are characterised without the functions; then each task by `fair_step`, which is also the step of C96; for commutative compounds `Legible.turn`: every term made can be printed (`Nearly`: sorted again it stays what it is, up to its order); the conditions on a line are computed for 286 lines of the examples (tools/mk_examples.py) |
| C100 | `parse_rel` with the rest of the line as the common prefix; predicates of the scanner that stay true while characters are fetched (`Stable`), one for what is left and one for the end; an accepted tree holds the end of input, which is shifted only when the newline was fetched (`run_end`, on the simulation of C43) |
| C101 | induction on the program from its end; one line changes a member only as `Cmd.gives` says (`step_get`); names are bound to objects and sentences point to truth values (`Tidy`) |
| C102 | a fleet of parsers with their own buffers and members `ast` and shared dictionaries; induction on the calls of two programs at once, on `parseText_indep` (the tree of a line does not depend on the buffer) |
| C103 | `{:.2f}` as any function to a nearest decimal, `{}` of `k` as an injective function; the text is cut at separators that occur in no numeral; the errors of the binary64 and binary32 roundings (`Nal/Ieee.lean`) are below half a hundredth |
| C76 | each reduction step of the constructor is the identity on components that have nothing to reduce |

## 5. Where code and property disagree

(kept up to date as theorems land; each item is a `…_counterexample` theorem)

* C02: a constant at a low address can have the hash of an interval; `Interval(-127)` has the hash of
  every independent variable.
* C04, C05: `==` on `#x`/`?x` variables reads the first element of an empty vector (the independent
  table); transitivity fails through `Interval(-127)`.
* C06, C13: `<` answers `true` both ways on `<$x --> $y>`, `<$y --> $x>`: using it in `std::set` is
  undefined.
* C07: statements with commutative copulas are not reordered: `<A <-> B>` differs from `<B <-> A>`.
* C08: renaming two variables to one merges set members and so changes the hash of a compound.
* C09: `+=` on intervals changes the length but not the hash.
* C11, C21: terms with the same hash and no variables are one element for `std::set`; the constant at
  `0x405000` and `+4214847` are confused by the set operations, and which of them stays in a compound
  depends on the enumeration order.
* C12: the set operations do not check the first operand.
* C15: `(&,{..},{..})`, `(|,[..],[..])` compute the intersection but keep `&`/`|`; `-` and `~` are not
  reducible, so their merging code is dead.
* C17: groups with too few components are dropped: `(||,(&&,A,A),B)` has no `A`.
* C18: a single commutative compound argument is replaced by its components.
* C19: if all groups are dropped, `*begin()` of an empty set is read.
* C22: `{[{A,B},C]}` has the component `{A,B}`.
* C26: the loop that wires the index tables never advances its iterator: all three tables of a
  statement or compound are connected to the sons' tables of *independent* variables.
* C28: `add`/`remove` through a father do not reset the caches of the table they change; `build` and
  `rebuild` do not reset the caches of the table they fill; `connect` can make a cycle on which
  `build` does not return.
* C30, C31, C35: keys are hashes truncated to 32 bits; two atoms 4 GiB apart share one, and the second
  takes over the entry of the first: `create` then returns the wrong term or reads a null pointer.
* C31: assigning to the last handle on an atom drops the reference without `~pTerm`, so the dictionary
  entry stays for ever.
* C32: `put` with a key or name that is bound already leaves the old binding in the other map.
* C34: `get`, `get_object` and `get_by_name` insert a default for an absent key.
* C36: `operation` asks for `name` but looks up `^name`: with only `name` present it reads a null
  pointer, with only `^name` present it makes a second operation.
* C37: printing a compound without components (`(&,{A},{B})`) and printing a statement with an
  operational predicate whose subject is not a compound (`<A --> ^go>`, `<A ==> (^go,..)>`) is
  undefined; coloured printing uses copulas and names as format strings and throws on `{--`, `{-]` and
  on names with a brace.
* C38: operation statements print neither the connector of the subject nor the copula; a statement or
  compound whose truncated hash is in the dictionary prints as that name.
* C39: names with `{{` lose a brace in colour.
* C70: the coloured format string of sentences has six placeholders for four arguments: it always
  throws; a `Sentence` created with punctuation `Goal` has no member `desire`, and one created with a
  null truth value is dereferenced.
* C46: the parse stack has 128 entries and is enlarged only after entry 128 has been written (124
  nested sets overrun it; in general exactly the lines whose parse tree needs more than 127 entries;
  none whose syntax tree is nested at most 44 deep, all whose syntax tree is nested more than 371 deep; both
  happens between); a token of 127 characters makes `clear_input` read beyond the buffer; the
  error message at the end of a line reads cells that were never written.
* C48: the error message for a byte above 127 is undefined (`wcstombs` fails, an empty block is
  printed as a string).
* C74, C75: the tab is a blank (narsese.par:10) and also a letter of `string_raw` (narsese.par:158): a
  tab before `<A --> B>.` makes the line be rejected, and `A` with a tab before the full stop is an atom
  whose name ends with a tab.
* C41, C76: constructors reduce their components once only.  `{[{A, B}, C]}.` makes `{C, {B, A}}`; the
  text `{C, {B, A}}.` makes `{B, A, C}`.  Variables are numbered before components are sorted:
  `(&&, <$x --> B>, <$y --> A>).` makes `(&&, <$1 --> A>, <$0 --> B>)`, which is read with the numbers
  exchanged.  Because of C36, reading `(^go, A)` makes a second `^go` if there is no term `go`.  `+-3.` makes an
  interval that is printed as `-3`, and `-3.` is rejected.
* C77: numbers in time marks and intervals are converted from `double` to `int` unchecked
  (NarseseParser.cpp:769): `A. :!2147483648:` is accepted, and undefined.
* C68: the connector of lists is printed as `#`, which the grammar does not have: `(#, A, B).` is rejected.
* C79: `(*,go,^go).` is accepted, but following it dereferences a null pointer: `operation`
  (NarseseParser.cpp:455-475) asks whether `go` is known and then looks up `^go`.
* C84: accepted lines that are undefined for other reasons than these: `(&&,<$x-->$y>,<$y-->$x>).` (the
  comparator finds each less than the other, C13), `(||,(&&,A,A),(&&,B,B)).` (no component is left, C19),
  `<{(&,{A},{B})}{--C>.` and `<C--][(|,[A],[B])]>.` (an empty set is wrapped in a set),
  `+3000000000.` (no `int`).
* C85: `(^go,A).` read twice gives two different terms, as the action asks for `go` but stores `^go`.
* C87: the components of a commutative compound are ordered by address, so `{A,B}.` is printed as `{B, A}` in a
  fresh session and as `{A, B}` after `<B-->A>.`; `(^go)!` is printed as `(^go, )`, which is not accepted.
* C80: budgets are printed with two decimals and truth values with three, while the grammar excludes
  durability and confidence 0 and 1: the tasks of `$0.5;0.999$ A.` and `A. %1;0.9999%` are printed as lines
  that are rejected.  The evidence constant and the time of occurrence are not printed; `A. :!100:` comes
  back as 5.
* C81: when an action throws (`<A --> +10…0>.` with 350 zeros), everything made before is lost: the
  argument vectors, and the values already computed; a lost `pTerm` keeps its name known for ever.
* C82: (1) the marks for tense and truth value are created as `std::tuple<int, signed int *>` and
  `std::tuple<int, Truth *>`, but read and deleted as `std::tuple<int, void *>`; (2) `task` makes a
  `pSentence` from a `Sentence *`, and `Sentence` has no virtual destructor, so the end of *every* parsed
  task is undefined (`Goal` even has one member more); (3) `pTerm` is a `shared_ptr<Term>` made from a
  `Term *`, and `Term` has no virtual destructor, so deleting a statement, compound, interval or
  variable is undefined, and the member `name` of a variable is never destroyed.
* C83: `parse` frees its stack but not the nodes in it, so every node of a rejected line is lost (three
  blocks for `A&.`); the tree of a line whose actions threw is lost when the next line is accepted.
* C71: `error_delay` is not initialised; with 3 in its memory `)A.` is accepted.  A larger value is counted down by one at
  every shift, so that for each value from 3 on there is a history in which a line is accepted that should be rejected
  (`C71_every_delay_counterexample`).  Lines of Narsese without tabs are not affected (`C71_narsese_partial`): while they are
  parsed the lexer always finds a symbol, which is shown by running the automaton without its default productions
  (`Parser/Eager.lean`).  Whatever the value, an accepted line is Narsese with at most one piece put in
  (`C71_piece_partial`): skipping stops at the next shift.  So the semantic actions always find the
  types they expect (`C71_types_partial`).  A negative value is counted down too, which is undefined at -2^31: for each
  negative value there is a number of lines `A.` after which this happens (`C71_negative_counterexample`, in
  `Parser/IntDelay.lean`, where the member is an `int`).  So only 0, 1 and 2 are harmless (`C71_exact_partial`).
* C49: the member `ast` is never initialised and is assigned only by an accepting parse: a rejected
  first line makes `parse_string` follow a wild pointer; after an exception from a semantic action
  (`+1000…0.` with 350 zeros: `std::stod`) a rejected line evaluates the old tree again.
* C44: no disagreement, but two habits are formally undefined and not modelled: childless nodes pass a
  reference made from a null vector to actions that ignore it, and the dispatch table is keyed by the
  addresses of string literals, so it relies on the compiler merging equal literals.
* C52: the grammar excludes confidence and durability 0 and 1, but the text is read as `double` and stored as
  `float`: `A. %1;0.99999999%` has confidence 1 (and small enough numerals become 0).  A task without
  budget gets the general defaults (0.8, 0.8, 0.5), not those for its type: `A?` has priority 0.8 instead
  of 0.9.  The default priorities per type are never used, since a budget always has a priority.
* C53: `(^op,a,..)` evaluates the operator before the arguments, `<(*,a,..)-->^op>` after them: because of
  C36, `(^go,go).` gives a task and `<(*,go)-->^go>.` is undefined.
* C54: `Stamp::tense` converts 64-bit times to `int`; from time 2^31-5 on, tenses are wrong.
* C55: tense marks are absolute occurrence times (5, 0, -5), not relative to the clock; from time 10
  on, `:|:` and `:/:` sentences are in the past.
* C56: the `Stamp` constructor with a null base creates a base but stores it in the *parameter*, so
  sentences with a tense have no evidential base; `_input_id` is `static` in a header, so translation
  units use the same ids.
* C57: `extend` clears the own set before merging; extending by an alias empties the base.
* C58: `interleave(b1,b2)` starts from a default-constructed base, which contains a fresh id.
* C60: `extend` does not reset the hash cache; copies share the set but not the cache.
* C40: with `float`, a stored 0.2625 is shown as 0.263, 2e-8 further away than 0.0005.
* C61: with `double`, And and Or are not associative, and Or of tiny numbers is 0.
* C63, C64: `w_to_f`-style functions return 0 when the evidence is at most 1e-8.
* C86: `w()` divides by `1 - c`.  If one confidence is 1, a revision gives two NaNs.  From then on the confidence is a NaN
  whatever comes, the frequency is 0 (`w > 1e-8` is false for a NaN), and the quality is a NaN.  `A.%1;0.99999999%`
  is read with confidence 1, and revising 1 - 2^-24 by 1/2 gives it.
* C63, C64: with `float`, evidence amounts do not add up and do not give the frequency back; revision
  need not raise the confidence (0.99999 by 0.9), depends on the order of a sequence, and can reach
  confidence 1 (1 - 2⁻²⁴ by 0.5), after which the next revision divides by zero.
* C65: the decay factor is computed in integer arithmetic; and it overflows.
* C67: `is_commutative`-style accessors declared `bool` truncate the resulting copula.
* C88: if `(^go,A).` is read twice and one of the tasks is dropped, `^go` is unknown though the other task lives.  A line
  whose actions throw leaves its names held for ever, and so does every line that is rejected after it, as the old tree is
  evaluated again.
* C89: `(&&,A,A).` gives a conjunction of one component, printed as `(&&, A).`, which the grammar does not allow.
* C90: the functions bound as `__repr__` have a second parameter whose default is not known to pybind11, so `repr(x)` raises a TypeError for every term, statement, compound, sentence and task.
* C91: `parse` sets a Python error and returns `None` all the same, so what is raised is a SystemError and not the RuntimeError.  A rejected line is undefined as the first one (C49).
* C92: `generate` tells names from empty ones by comparing addresses of string literals; where the compiler does not merge them, the file has 430 prototypes without a name.
* C94: `terms` of a compound is made with `py::make_iterator`, whose elements are references into the compound, and nothing keeps the compound alive: after `x, y = c.terms` and the end of `c`, `x` is dangling.  `terms` of a statement, `subject` and `predicate` are copies.
* C95: `~Iterator` deletes vector iterators as set iterators and the other way round; iterators over ordered components are constant ones read as others; both are undefined by the letter.  The assignment made by the compiler copies the pointer, so two iterators delete the same object (nothing in the project assigns iterators).  `k++` gives the place after it.
* C96: `main` prints `*task` without a test for null: a line that is rejected would be undefined behaviour (the four lines in `main.cpp` are accepted).
* C97: a first line that is rejected is undefined behaviour whatever memory there is (the member `ast` has no value, C49), so a program that only reads and drops is not safe either.
* C99: `test_parse_nal` dereferences the null pointer that `parse_task` returns for a rejected line (`interpret(*task, colored)`, Tests/test_parser.cpp:62); of the 561 such lines in examples/ 85 are rejected when the model is run on them. It also calls `::isdigit` with a `char`, which is undefined for bytes from 128 to 254 (Tests/test_parser.cpp:27). Proved as `C99_rejected_counterexample`.
* C99: in nal8 of the examples there is a line in which `^go_to` is mentioned twice; two objects are made for the operation (C36).  Together with fifteen lines whose commutative compounds have components with variables that differ in two places (for which it depends on addresses whether the parser gets along, C84) it is not among those of `C99_examples_partial`.
* C100: `parse_input` does not skip the rest of a rejected line: of the line `AA, B.` the next call takes `B.` for a line (`C100_stray_counterexample`). A last line without newline is not read: the `EOF` of `getchar` is stored as the character -1 (`C100_last_counterexample`). The names of variables are cleared in `parse_task` only, so they are kept from line to line (`C100_names_counterexample`). Bytes above 127 are other characters than in a string (`C100_signed_counterexample`). Nothing calls `parse_input`; `NarseseParser` inherits it as a protected member.
* C101: `Truth(2, 0.9)` is accepted and has the expectation 1.85 (`C101_range_counterexample`). `Budget.quality_from_truth(None)` follows the null pointer, as does printing a judgement made with `truth=None` (`C101_none_counterexample`). `Budget(0.9).p` is a `float` but `b.p = 0.9` keeps the `double`, so assigning the value just passed changes the priority (`C101_budget_counterexample`). A sentence shares the truth value it was made with, so assigning to the one changes the other (`C101_shared_counterexample`).
* C102: `parser` is `static` in `NarseseParser.h`, so Python's `narsese.parser` (made in Narsese.cpp) is not the parser that `narsese.parse` uses (that of NarseseParser.cpp), and the parser of `main.cpp` is a third one. A rejected line gives null from a parser that has returned before and is undefined for a new one (`C102_new_counterexample`); after a line that threw, it throws again or gives null, depending on the parser (`C102_threw_counterexample`).
* C103: no disagreement; `repr` is not to be read back (`Truth(0.999, 0.999)` is shown as `<Truth: %1.00, 1.00% (k=1)>`), and the numbers of `Truth` are shown with two decimals but those of sentences with three.
* C69: Python's `ExtensionalDifference` is bound to another connector.
