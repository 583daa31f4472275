import Verif.Base.Res

/-!
# Types of the generated parser

`Narsese/Parser/narsese.h`, `Narsese/Parser/narsese.cpp`.
-/

namespace Cnars.Parser

/-- The `emit` names of symbols and productions (narsese.h:795-1306); `none` is the empty string
(no syntax tree node). -/
inductive Emit where
  | none
  | atom_term | budget | compound_term | con_conjunction | con_disjunction | con_ext_image
  | con_ext_set | con_extensional_difference | con_extensional_intersection | con_int_image
  | con_int_set | con_intensional_difference | con_intensional_intersection | con_negation
  | con_parallel_events | con_product | con_sequential_events | concurrent_equivalence
  | concurrent_implication | confidence | dependent_var | durability | equivalence | ext_image
  | frequency | goal | implication | independent_var | inheritance | «instance»
  | instance_property | int_image | integer | interval | judgement | k_evidence | multi_conj_expr
  | multi_disj_expr | multi_extint_expr | multi_infix | multi_intint_expr | multi_parallel_expr
  | multi_prefix | multi_prefix_product | multi_prod_expr | multi_sequential_expr | negation
  | operation | predictive_equivalence | predictive_implication | priority | property | quality
  | query_var | quest | question | retrospective_implication | «set» | similarity | single_infix
  | single_prefix | statement | statement_operation1 | statement_operation2 | statement_term
  | «string» | string_raw | task | tense_future | tense_past | tense_present | tense_time | truth
  | variable_term
  deriving Repr, DecidableEq, Inhabited

/-- `_syminfo` (narsese.h:123-131): `emit`, `type`, `greedy`; `name` is a comment in the table,
`lexem` and `whitespace` are not used by the compiled code. -/
structure SymInfo where
  emit : Emit
  kind : Nat
  greedy : Bool
  deriving Repr, DecidableEq

/-- `_prodinfo` (narsese.h:134-140): `emit`, `length`, `lhs`; `definition` is a comment in the
table. -/
structure ProdInfo where
  emit : Emit
  length : Nat
  lhs : Nat
  deriving Repr, DecidableEq

/-- One lexer machine: per state the ranges `(lo, hi, target)` and the accepted symbol plus one. -/
abbrev Machine := List (List (Nat × Nat × Nat) × Nat)

/-- `_ast` (narsese.h:143-156): a leaf has a token, an inner node has children.  The `prev`,
`next` and `parent` pointers are represented by the position in the list of siblings. -/
inductive Ast where
  | leaf (emit : Emit) (token : List Char)
  | node (emit : Emit) (children : List Ast)
  deriving Repr, Inhabited

end Cnars.Parser
