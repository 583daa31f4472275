import Verif.Parser.Grammar

/-!
# Printing syntax trees, and the generator of the semantic actions

`_parser::ast_print` (narsese.cpp:97-126) and `GENERATE::generate` (generate.cpp:24-92).
-/

namespace Cnars.Parser

/-- The `emit` names as they are in the tables (narsese.h:795-1306). -/
def Emit.name : Emit → List Char
  | .none => []
  | .atom_term => ['a', 't', 'o', 'm', '_', 't', 'e', 'r', 'm']
  | .budget => ['b', 'u', 'd', 'g', 'e', 't']
  | .compound_term => ['c', 'o', 'm', 'p', 'o', 'u', 'n', 'd', '_', 't', 'e', 'r', 'm']
  | .con_conjunction => ['c', 'o', 'n', '_', 'c', 'o', 'n', 'j', 'u', 'n', 'c', 't', 'i', 'o', 'n']
  | .con_disjunction => ['c', 'o', 'n', '_', 'd', 'i', 's', 'j', 'u', 'n', 'c', 't', 'i', 'o', 'n']
  | .con_ext_image => ['c', 'o', 'n', '_', 'e', 'x', 't', '_', 'i', 'm', 'a', 'g', 'e']
  | .con_ext_set => ['c', 'o', 'n', '_', 'e', 'x', 't', '_', 's', 'e', 't']
  | .con_extensional_difference =>
    ['c', 'o', 'n', '_', 'e', 'x', 't', 'e', 'n', 's', 'i', 'o', 'n', 'a', 'l', '_', 'd', 'i', 'f',
     'f', 'e', 'r', 'e', 'n', 'c', 'e']
  | .con_extensional_intersection =>
    ['c', 'o', 'n', '_', 'e', 'x', 't', 'e', 'n', 's', 'i', 'o', 'n', 'a', 'l', '_', 'i', 'n', 't',
     'e', 'r', 's', 'e', 'c', 't', 'i', 'o', 'n']
  | .con_int_image => ['c', 'o', 'n', '_', 'i', 'n', 't', '_', 'i', 'm', 'a', 'g', 'e']
  | .con_int_set => ['c', 'o', 'n', '_', 'i', 'n', 't', '_', 's', 'e', 't']
  | .con_intensional_difference =>
    ['c', 'o', 'n', '_', 'i', 'n', 't', 'e', 'n', 's', 'i', 'o', 'n', 'a', 'l', '_', 'd', 'i', 'f',
     'f', 'e', 'r', 'e', 'n', 'c', 'e']
  | .con_intensional_intersection =>
    ['c', 'o', 'n', '_', 'i', 'n', 't', 'e', 'n', 's', 'i', 'o', 'n', 'a', 'l', '_', 'i', 'n', 't',
     'e', 'r', 's', 'e', 'c', 't', 'i', 'o', 'n']
  | .con_negation => ['c', 'o', 'n', '_', 'n', 'e', 'g', 'a', 't', 'i', 'o', 'n']
  | .con_parallel_events =>
    ['c', 'o', 'n', '_', 'p', 'a', 'r', 'a', 'l', 'l', 'e', 'l', '_', 'e', 'v', 'e', 'n', 't', 's']
  | .con_product => ['c', 'o', 'n', '_', 'p', 'r', 'o', 'd', 'u', 'c', 't']
  | .con_sequential_events =>
    ['c', 'o', 'n', '_', 's', 'e', 'q', 'u', 'e', 'n', 't', 'i', 'a', 'l', '_', 'e', 'v', 'e', 'n',
     't', 's']
  | .concurrent_equivalence =>
    ['c', 'o', 'n', 'c', 'u', 'r', 'r', 'e', 'n', 't', '_', 'e', 'q', 'u', 'i', 'v', 'a', 'l', 'e',
     'n', 'c', 'e']
  | .concurrent_implication =>
    ['c', 'o', 'n', 'c', 'u', 'r', 'r', 'e', 'n', 't', '_', 'i', 'm', 'p', 'l', 'i', 'c', 'a', 't',
     'i', 'o', 'n']
  | .confidence => ['c', 'o', 'n', 'f', 'i', 'd', 'e', 'n', 'c', 'e']
  | .dependent_var => ['d', 'e', 'p', 'e', 'n', 'd', 'e', 'n', 't', '_', 'v', 'a', 'r']
  | .durability => ['d', 'u', 'r', 'a', 'b', 'i', 'l', 'i', 't', 'y']
  | .equivalence => ['e', 'q', 'u', 'i', 'v', 'a', 'l', 'e', 'n', 'c', 'e']
  | .ext_image => ['e', 'x', 't', '_', 'i', 'm', 'a', 'g', 'e']
  | .frequency => ['f', 'r', 'e', 'q', 'u', 'e', 'n', 'c', 'y']
  | .goal => ['g', 'o', 'a', 'l']
  | .implication => ['i', 'm', 'p', 'l', 'i', 'c', 'a', 't', 'i', 'o', 'n']
  | .independent_var => ['i', 'n', 'd', 'e', 'p', 'e', 'n', 'd', 'e', 'n', 't', '_', 'v', 'a', 'r']
  | .inheritance => ['i', 'n', 'h', 'e', 'r', 'i', 't', 'a', 'n', 'c', 'e']
  | .instance => ['i', 'n', 's', 't', 'a', 'n', 'c', 'e']
  | .instance_property =>
    ['i', 'n', 's', 't', 'a', 'n', 'c', 'e', '_', 'p', 'r', 'o', 'p', 'e', 'r', 't', 'y']
  | .int_image => ['i', 'n', 't', '_', 'i', 'm', 'a', 'g', 'e']
  | .integer => ['i', 'n', 't', 'e', 'g', 'e', 'r']
  | .interval => ['i', 'n', 't', 'e', 'r', 'v', 'a', 'l']
  | .judgement => ['j', 'u', 'd', 'g', 'e', 'm', 'e', 'n', 't']
  | .k_evidence => ['k', '_', 'e', 'v', 'i', 'd', 'e', 'n', 'c', 'e']
  | .multi_conj_expr => ['m', 'u', 'l', 't', 'i', '_', 'c', 'o', 'n', 'j', '_', 'e', 'x', 'p', 'r']
  | .multi_disj_expr => ['m', 'u', 'l', 't', 'i', '_', 'd', 'i', 's', 'j', '_', 'e', 'x', 'p', 'r']
  | .multi_extint_expr =>
    ['m', 'u', 'l', 't', 'i', '_', 'e', 'x', 't', 'i', 'n', 't', '_', 'e', 'x', 'p', 'r']
  | .multi_infix => ['m', 'u', 'l', 't', 'i', '_', 'i', 'n', 'f', 'i', 'x']
  | .multi_intint_expr =>
    ['m', 'u', 'l', 't', 'i', '_', 'i', 'n', 't', 'i', 'n', 't', '_', 'e', 'x', 'p', 'r']
  | .multi_parallel_expr =>
    ['m', 'u', 'l', 't', 'i', '_', 'p', 'a', 'r', 'a', 'l', 'l', 'e', 'l', '_', 'e', 'x', 'p', 'r']
  | .multi_prefix => ['m', 'u', 'l', 't', 'i', '_', 'p', 'r', 'e', 'f', 'i', 'x']
  | .multi_prefix_product =>
    ['m', 'u', 'l', 't', 'i', '_', 'p', 'r', 'e', 'f', 'i', 'x', '_', 'p', 'r', 'o', 'd', 'u', 'c',
     't']
  | .multi_prod_expr => ['m', 'u', 'l', 't', 'i', '_', 'p', 'r', 'o', 'd', '_', 'e', 'x', 'p', 'r']
  | .multi_sequential_expr =>
    ['m', 'u', 'l', 't', 'i', '_', 's', 'e', 'q', 'u', 'e', 'n', 't', 'i', 'a', 'l', '_', 'e', 'x',
     'p', 'r']
  | .negation => ['n', 'e', 'g', 'a', 't', 'i', 'o', 'n']
  | .operation => ['o', 'p', 'e', 'r', 'a', 't', 'i', 'o', 'n']
  | .predictive_equivalence =>
    ['p', 'r', 'e', 'd', 'i', 'c', 't', 'i', 'v', 'e', '_', 'e', 'q', 'u', 'i', 'v', 'a', 'l', 'e',
     'n', 'c', 'e']
  | .predictive_implication =>
    ['p', 'r', 'e', 'd', 'i', 'c', 't', 'i', 'v', 'e', '_', 'i', 'm', 'p', 'l', 'i', 'c', 'a', 't',
     'i', 'o', 'n']
  | .priority => ['p', 'r', 'i', 'o', 'r', 'i', 't', 'y']
  | .property => ['p', 'r', 'o', 'p', 'e', 'r', 't', 'y']
  | .quality => ['q', 'u', 'a', 'l', 'i', 't', 'y']
  | .query_var => ['q', 'u', 'e', 'r', 'y', '_', 'v', 'a', 'r']
  | .quest => ['q', 'u', 'e', 's', 't']
  | .question => ['q', 'u', 'e', 's', 't', 'i', 'o', 'n']
  | .retrospective_implication =>
    ['r', 'e', 't', 'r', 'o', 's', 'p', 'e', 'c', 't', 'i', 'v', 'e', '_', 'i', 'm', 'p', 'l', 'i',
     'c', 'a', 't', 'i', 'o', 'n']
  | .set => ['s', 'e', 't']
  | .similarity => ['s', 'i', 'm', 'i', 'l', 'a', 'r', 'i', 't', 'y']
  | .single_infix => ['s', 'i', 'n', 'g', 'l', 'e', '_', 'i', 'n', 'f', 'i', 'x']
  | .single_prefix => ['s', 'i', 'n', 'g', 'l', 'e', '_', 'p', 'r', 'e', 'f', 'i', 'x']
  | .statement => ['s', 't', 'a', 't', 'e', 'm', 'e', 'n', 't']
  | .statement_operation1 =>
    ['s', 't', 'a', 't', 'e', 'm', 'e', 'n', 't', '_', 'o', 'p', 'e', 'r', 'a', 't', 'i', 'o', 'n',
     '1']
  | .statement_operation2 =>
    ['s', 't', 'a', 't', 'e', 'm', 'e', 'n', 't', '_', 'o', 'p', 'e', 'r', 'a', 't', 'i', 'o', 'n',
     '2']
  | .statement_term => ['s', 't', 'a', 't', 'e', 'm', 'e', 'n', 't', '_', 't', 'e', 'r', 'm']
  | .string => ['s', 't', 'r', 'i', 'n', 'g']
  | .string_raw => ['s', 't', 'r', 'i', 'n', 'g', '_', 'r', 'a', 'w']
  | .task => ['t', 'a', 's', 'k']
  | .tense_future => ['t', 'e', 'n', 's', 'e', '_', 'f', 'u', 't', 'u', 'r', 'e']
  | .tense_past => ['t', 'e', 'n', 's', 'e', '_', 'p', 'a', 's', 't']
  | .tense_present => ['t', 'e', 'n', 's', 'e', '_', 'p', 'r', 'e', 's', 'e', 'n', 't']
  | .tense_time => ['t', 'e', 'n', 's', 'e', '_', 't', 'i', 'm', 'e']
  | .truth => ['t', 'r', 'u', 't', 'h']
  | .variable_term => ['v', 'a', 'r', 'i', 'a', 'b', 'l', 'e', '_', 't', 'e', 'r', 'm']

/-- All names. -/
def allEmits : List Emit :=
  [.none, .atom_term, .budget, .compound_term, .con_conjunction, .con_disjunction, .con_ext_image,
   .con_ext_set, .con_extensional_difference, .con_extensional_intersection, .con_int_image,
   .con_int_set, .con_intensional_difference, .con_intensional_intersection, .con_negation,
   .con_parallel_events, .con_product, .con_sequential_events, .concurrent_equivalence,
   .concurrent_implication, .confidence, .dependent_var, .durability, .equivalence, .ext_image,
   .frequency, .goal, .implication, .independent_var, .inheritance, .instance, .instance_property,
   .int_image, .integer, .interval, .judgement, .k_evidence, .multi_conj_expr, .multi_disj_expr,
   .multi_extint_expr, .multi_infix, .multi_intint_expr, .multi_parallel_expr, .multi_prefix,
   .multi_prefix_product, .multi_prod_expr, .multi_sequential_expr, .negation, .operation,
   .predictive_equivalence, .predictive_implication, .priority, .property, .quality, .query_var,
   .quest, .question, .retrospective_implication, .set, .similarity, .single_infix,
   .single_prefix, .statement, .statement_operation1, .statement_operation2, .statement_term,
   .string, .string_raw, .task, .tense_future, .tense_past, .tense_present, .tense_time, .truth,
   .variable_term]

mutual
/-- What one round of the loop of `ast_print` writes for a node and what is below it
(narsese.cpp:108-125).  `rec` is the static counter; every call leaves it as it was.  A node without a
token has a null pointer there. -/
def Ast.dump (rec : Nat) : Ast → List Char
  | .leaf e token => List.replicate rec ' ' ++ e.name ++
      (if e.name = token then [] else ' ' :: '(' :: token ++ [')']) ++ ['\n']
  | .node e children => List.replicate rec ' ' ++ e.name ++ ['\n'] ++ Ast.dumps (rec + 1) children

/-- `ast_print` (narsese.cpp:97-126) of siblings. -/
def Ast.dumps (rec : Nat) : List Ast → List Char
  | [] => []
  | a :: as => a.dump rec ++ Ast.dumps rec as
end

/-- The names collected by `generate` (generate.cpp:35-47).  They are compared with `""` by address;
`merge` says that all empty string literals have the same address, which the standard leaves open. -/
def collected (merge : Bool) (T : Tables) : List (List Char) :=
  (((T.prods.map (·.emit)) ++ (T.symbols.map (·.emit))).filter
    (fun e => !(merge && decide (e = .none)))).map Emit.name

/-- `%ns` of `snprintf` (generate.cpp:16-20): right-justified. -/
def padLeft (n : Nat) (s : List Char) : List Char := List.replicate (n - s.length) ' ' ++ s

/-- One line of the prototypes (generate.cpp:56), without its end. -/
def protoLine (n : List Char) : List Char :=
  '\t' :: 'e' :: 'x' :: 't' :: 'e' :: 'r' :: 'n' :: ' ' :: 'v' :: 'o' :: 'i' :: 'd' :: '*' :: ' ' :: n ++
    ['(', 'A', 'r', 'g', 's', ' ', '&', 'a', 'r', 'g', 's', ')', ';']

/-- The first line of a definition (generate.cpp:65). -/
def defLine (n : List Char) : List Char :=
  'v' :: 'o' :: 'i' :: 'd' :: '*' :: ' ' :: 'N' :: 'A' :: 'R' :: 'S' :: 'E' :: 'S' :: 'E' :: 'P' :: 'A' ::
    'R' :: 'S' :: 'E' :: 'R' :: ':' :: ':' :: n ++
    ['(', 'A', 'r', 'g', 's', '&', ' ', 'a', 'r', 'g', 's', ')']

/-- The other lines of a definition (generate.cpp:65). -/
def bodyLines : List (List Char) :=
  [['{'], ['\t', 'v', 'o', 'i', 'd', '*', ' ', 'r', 'e', 't', ';'],
   ['\t', 'r', 'e', 't', 'u', 'r', 'n', ' ', 'r', 'e', 't', ';'], ['}']]

/-- `max_len` (generate.cpp:70-77). -/
def maxLen (names : List (List Char)) : Nat :=
  names.foldl (fun m n => if m < n.length then n.length else m) 0

/-- One line of the registrations (generate.cpp:78-86). -/
def registLine (max : Nat) (n : List Char) : List Char :=
  '\t' :: 'r' :: 'e' :: 'g' :: 'i' :: 's' :: 't' :: '(' ::
    padLeft (max + 3) ('"' :: n ++ ['"']) ++ ',' :: ' ' :: padLeft (max + 1) n ++ [' ', ')', ';']

/-- The lines of `generate.out` for the names collected (generate.cpp:52-91).  What is printed to the
screen is left out. -/
def fileFor (names : List (List Char)) : List (List Char) :=
  ['/', '*', 'p', 'r', 'o', 't', 'o', 't', 'y', 'p', 'e', 's', '*', '/'] ::
    names.map protoLine ++ [[], []] ++
    ['/', '*', 'd', 'e', 'f', 'i', 'n', 'i', 't', 'i', 'o', 'n', 's', '*', '/'] ::
    names.flatMap (fun n => defLine n :: bodyLines) ++ [[], []] ++
    ['/', '*', 'r', 'e', 'g', 'i', 's', 't', 'e', 'r', '*', '/'] ::
    names.map (registLine (maxLen names)) ++ [[], []]

/-- `GENERATE::generate` (generate.cpp:24-92). -/
def generate (merge : Bool) (T : Tables) : List (List Char) := fileFor (collected merge T)

end Cnars.Parser
