import Verif.Parser.Regex

/-!
# The Narsese grammar

`Narsese/Parser/narsese.par`, written down once more as data, and what it means for a text to be
derived from a symbol of the grammar and which syntax tree nodes the derivation makes.  This is the
specification: nothing here uses the generated tables or the driver.
-/

namespace Cnars.Parser

/-- The nonterminals of narsese.par. -/
inductive NT where
  | task | sentence | statement | copula | term | term_nonvar | op | interval | compound_term
  | «set» | int_set | ext_set | negation | int_image | ext_image | multi | single
  | multi_infix_expr | multi_prod_expr | multi_disj_expr | multi_conj_expr | multi_sequential_expr
  | multi_parallel_expr | multi_intint_expr | multi_extint_expr | con_multi | con_product
  | con_single | con_int_set | con_ext_set | con_negation | con_int_image | con_ext_image
  | «variable» | tense | desire | truth | budget | word
  deriving DecidableEq, Repr

/-- Right-hand sides: a token (with the `= name` of its definition), a nonterminal, `( … | … )`,
`…?`, `…*`, `…+`. -/
inductive Gram where
  | tok (r : Rx) (emit : Emit)
  | nt (n : NT)
  | grp (alts : List (List Gram))
  | opt (g : Gram)
  | star (g : Gram)
  | plus (g : Gram)

namespace Rx

/-- A single character. -/
def ch (c : Char) : Rx := .cls [(c.toNat, c.toNat)]

/-- Characters from a range. -/
def rng (a b : Char) : Rx := .cls [(a.toNat, b.toNat)]

/-- A keyword. -/
def lit : List Char → Rx
  | [] => .eps
  | [c] => ch c
  | c :: cs => .seq (ch c) (lit cs)

def opt (r : Rx) : Rx := .alt r .eps
def plus (r : Rx) : Rx := .seq r (.star r)

/-- `'0-9'`. -/
def digit : Rx := rng '0' '9'

/-- `("0"? '\.' '0-9'+) | ("1" "\." '0'*) | "1" | "0"` (narsese.par:148, 150, 151): numbers from 0
to 1. -/
def unit : Rx :=
  .alt (.seq (opt (ch '0')) (.seq (ch '.') (plus digit)))
    (.alt (.seq (ch '1') (.seq (ch '.') (.star (ch '0')))) (.alt (ch '1') (ch '0')))

/-- `"0"? '\.' '0'* '1-9'+ '0-9'*` (narsese.par:149, 152): numbers between 0 and 1. -/
def openUnit : Rx :=
  .seq (opt (ch '0')) (.seq (ch '.') (.seq (.star (ch '0'))
    (.seq (plus (rng '1' '9')) (.star digit))))

/-- `'1-9'+ '0-9'*` (narsese.par:153). -/
def posNat : Rx := .seq (plus (rng '1' '9')) (.star digit)

/-- `'-'? '0-9'+` (narsese.par:159). -/
def int : Rx := .seq (opt (ch '-')) (plus digit)

/-- The largest character code of the generated tables (`wchar_t` classes end at 0xFFFF). -/
def maxChar : Nat := 65535

/-- `'\"' (!'\\"' ('\\' '\\"')?)* '"'` (narsese.par:156). -/
def quoted : Rx :=
  .seq (ch '"') (.seq
    (.star (.seq (.cls [(0, 33), (35, 91), (93, maxChar)])
      (opt (.seq (ch '\\') (.cls [(34, 34), (92, 92)])))))
    (ch '"'))

/-- `!'-+<>="&|!.?@~%;,:/\\*#$[]{}()\^ '+` (narsese.par:158). -/
def raw : Rx :=
  plus (.cls [(0, 31), (39, 39), (48, 57), (65, 90), (95, 122), (127, maxChar)])

/-- `#whitespaces ' \t'` (narsese.par:10). -/
def blank : Rx := .cls [(9, 9), (32, 32)]

end Rx

namespace Gram

/-- Any number of blanks. -/
def blanks : Gram := .star (.grp [[.tok .blank .none]])

/-- A token and the blanks after it. -/
def lex (r : Rx) (e : Emit) : Gram := .grp [[.tok r e, blanks]]

/-- A keyword and the blanks after it. -/
def kw (s : List Char) : Gram := lex (Rx.lit s) .none

def priority : Gram := lex Rx.unit .priority
def durability : Gram := lex Rx.openUnit .durability
def quality : Gram := lex Rx.unit .quality
def frequency : Gram := lex Rx.unit .frequency
def confidence : Gram := lex Rx.openUnit .confidence
def k_evidence : Gram := lex Rx.posNat .k_evidence
def «string» : Gram := lex Rx.quoted .string
def string_raw : Gram := lex Rx.raw .string_raw
def integer : Gram := lex Rx.int .integer

/-- `("," term)`. -/
def commaTerm : Gram := .grp [[kw [','], .nt .term]]

/-- `term (s term)+`. -/
def infixed (s : List Char) : List Gram := [.nt .term, .plus (.grp [[kw s, .nt .term]])]

/-- `(term_nonvar|statement)`. -/
def content : Gram := .grp [[.nt .term_nonvar], [.nt .statement]]

/-- `(term|multi_infix_expr)`. -/
def operand : Gram := .grp [[.nt .term], [.nt .multi_infix_expr]]

/-- `(x)?`. -/
def maybe (x : List Gram) : Gram := .opt (.grp [x])

end Gram

open Gram in
/-- The rules: right-hand sides with the `= name` of the alternative (narsese.par:12-147). -/
def rules : NT → List (List Gram × Emit)
  | .task => [([maybe [.nt .budget], .nt .sentence], .task)]
  | .sentence =>
    [([content, kw ['.'], maybe [.nt .tense], maybe [.nt .truth]], .judgement),
     ([content, kw ['?'], maybe [.nt .tense]], .question),
     ([content, kw ['!'], maybe [.nt .tense], maybe [.nt .desire]], .goal),
     ([content, kw ['@'], maybe [.nt .tense]], .quest)]
  | .statement =>
    [([.grp [[kw ['<'], .nt .term, .nt .copula, .nt .term, kw ['>']],
             [kw ['('], .nt .term, .nt .copula, .nt .term, kw [')']]]], .statement),
     ([kw ['('], .nt .op, .star commaTerm, kw [')']], .statement_operation1),
     ([.nt .word, kw ['('], .nt .term, .star commaTerm, kw [')']], .statement_operation2)]
  | .copula =>
    [([kw ['-', '-', '>']], .inheritance), ([kw ['<', '-', '>']], .similarity),
     ([kw ['{', '-', '-']], .instance), ([kw ['-', '-', ']']], .property),
     ([kw ['{', '-', ']']], .instance_property), ([kw ['=', '=', '>']], .implication),
     ([kw ['=', '/', '>']], .predictive_implication),
     ([kw ['=', '|', '>']], .concurrent_implication),
     ([kw ['=', '\\', '>']], .retrospective_implication),
     ([kw ['<', '=', '>']], .equivalence), ([kw ['<', '/', '>']], .predictive_equivalence),
     ([kw ['<', '|', '>']], .concurrent_equivalence)]
  | .term => [([.nt .variable], .variable_term), ([.nt .term_nonvar], .none)]
  | .term_nonvar =>
    [([.nt .interval], .none), ([.nt .word], .atom_term), ([.nt .compound_term], .compound_term),
     ([.nt .statement], .statement_term), ([.nt .op], .none)]
  | .op => [([kw ['^'], .nt .word], .operation)]
  | .interval => [([kw ['+'], integer], .interval)]
  | .compound_term =>
    [([.nt .set], .none), ([.nt .multi], .none), ([.nt .single], .none), ([.nt .ext_image], .none),
     ([.nt .int_image], .none), ([.nt .negation], .none)]
  | .set => [([.grp [[.nt .int_set], [.nt .ext_set]]], .set)]
  | .int_set => [([.nt .con_int_set, .nt .term, .star commaTerm, kw [']']], .none)]
  | .ext_set => [([.nt .con_ext_set, .nt .term, .star commaTerm, kw ['}']], .none)]
  | .negation =>
    [([.grp [[.nt .con_negation, .nt .term],
             [kw ['('], .nt .con_negation, kw [','], .nt .term, kw [')']]]], .negation)]
  | .int_image =>
    [([kw ['('], .nt .con_int_image, kw [','], .nt .term, .star commaTerm, kw [')']], .int_image)]
  | .ext_image =>
    [([kw ['('], .nt .con_ext_image, kw [','], .nt .term, .star commaTerm, kw [')']], .ext_image)]
  | .multi =>
    [([kw ['('], .nt .multi_infix_expr, kw [')']], .multi_infix),
     ([kw ['('], .nt .term, .plus commaTerm, kw [')']], .multi_prefix_product),
     ([.grp [[kw ['('], .nt .con_multi, kw [','], .nt .term, .plus commaTerm, kw [')']],
             [kw ['('], .nt .con_product, kw [','], .nt .term, .star commaTerm, kw [')']]]],
       .multi_prefix)]
  | .single =>
    [([kw ['('], .nt .con_single, kw [','], operand, kw [','], operand, kw [')']], .single_prefix),
     ([kw ['('], operand, .nt .con_single, operand, kw [')']], .single_infix)]
  | .multi_infix_expr =>
    [([.nt .multi_extint_expr], .none), ([.nt .multi_intint_expr], .none),
     ([.nt .multi_parallel_expr], .none), ([.nt .multi_sequential_expr], .none),
     ([.nt .multi_conj_expr], .none), ([.nt .multi_disj_expr], .none),
     ([.nt .multi_prod_expr], .none)]
  | .multi_prod_expr => [(infixed ['*'], .multi_prod_expr)]
  | .multi_disj_expr => [(infixed ['|', '|'], .multi_disj_expr)]
  | .multi_conj_expr => [(infixed ['&', '&'], .multi_conj_expr)]
  | .multi_sequential_expr => [(infixed ['&', '/'], .multi_sequential_expr)]
  | .multi_parallel_expr => [(infixed ['&', '|'], .multi_parallel_expr)]
  | .multi_intint_expr => [(infixed ['|'], .multi_intint_expr)]
  | .multi_extint_expr => [(infixed ['&'], .multi_extint_expr)]
  | .con_multi =>
    [([kw ['&', '&']], .con_conjunction), ([kw ['|', '|']], .con_disjunction),
     ([kw ['&', '|']], .con_parallel_events), ([kw ['&', '/']], .con_sequential_events),
     ([kw ['|']], .con_intensional_intersection), ([kw ['&']], .con_extensional_intersection)]
  | .con_product => [([kw ['*']], .con_product)]
  | .con_single =>
    [([kw ['-']], .con_extensional_difference), ([kw ['~']], .con_intensional_difference)]
  | .con_int_set => [([kw ['[']], .con_int_set)]
  | .con_ext_set => [([kw ['{']], .con_ext_set)]
  | .con_negation => [([kw ['-', '-']], .con_negation)]
  | .con_int_image => [([kw ['\\']], .con_int_image)]
  | .con_ext_image => [([kw ['/']], .con_ext_image)]
  | .variable =>
    [([kw ['$'], .nt .word], .independent_var), ([kw ['#'], .nt .word], .dependent_var),
     ([kw ['?'], .nt .word], .query_var)]
  | .tense =>
    [([kw [':', '!'], integer, kw [':']], .tense_time), ([kw [':', '/', ':']], .tense_future),
     ([kw [':', '|', ':']], .tense_present), ([kw [':', '\\', ':']], .tense_past)]
  | .desire => [([.nt .truth], .none)]
  | .truth =>
    [([kw ['%'], frequency,
       maybe [kw [';'], confidence, maybe [kw [';'], k_evidence]], kw ['%']], .truth)]
  | .budget =>
    [([kw ['$'], priority,
       maybe [kw [';'], durability, maybe [kw [';'], quality]], kw ['$']], .budget)]
  | .word => [([.grp [[Gram.string], [string_raw]]], .none)]

mutual
/-- `Derives g u a`: the text `u` is derived from `g`, and the derivation makes the syntax tree nodes
`a`: a token whose definition has a name makes a leaf with its text, an alternative with a name makes
a node around the nodes of its parts, everything else passes the nodes of its parts on, in order. -/
inductive Derives : Gram → List WChar → List Ast → Prop where
  | tok_plain {r : Rx} {u : List WChar} : r.Matches u → Derives (.tok r .none) u []
  | tok_leaf {r : Rx} {e : Emit} {u : List WChar} : e ≠ .none → r.Matches u →
      Derives (.tok r e) u [.leaf e (u.map fun c => Char.ofNat c.toNat)]
  | nt_plain {n : NT} {body : List Gram} {u : List WChar} {a : List Ast} :
      (body, Emit.none) ∈ rules n → DerivesAll body u a → Derives (.nt n) u a
  | nt_node {n : NT} {body : List Gram} {e : Emit} {u : List WChar} {a : List Ast} :
      e ≠ .none → (body, e) ∈ rules n → DerivesAll body u a → Derives (.nt n) u [.node e a]
  | grp {alts : List (List Gram)} {body : List Gram} {u : List WChar} {a : List Ast} :
      body ∈ alts → DerivesAll body u a → Derives (.grp alts) u a
  | opt_none {g : Gram} : Derives (.opt g) [] []
  | opt_some {g : Gram} {u : List WChar} {a : List Ast} : Derives g u a → Derives (.opt g) u a
  | star_nil {g : Gram} : Derives (.star g) [] []
  | star_plus {g : Gram} {u : List WChar} {a : List Ast} : Derives (.plus g) u a →
      Derives (.star g) u a
  | plus_one {g : Gram} {u : List WChar} {a : List Ast} : Derives g u a → Derives (.plus g) u a
  | plus_more {g : Gram} {u v : List WChar} {a b : List Ast} : Derives (.plus g) u a →
      Derives g v b → Derives (.plus g) (u ++ v) (a ++ b)

/-- A sequence of parts. -/
inductive DerivesAll : List Gram → List WChar → List Ast → Prop where
  | nil : DerivesAll [] [] []
  | cons {g : Gram} {gs : List Gram} {u v : List WChar} {a b : List Ast} : Derives g u a →
      DerivesAll gs v b → DerivesAll (g :: gs) (u ++ v) (a ++ b)
end

/-- A line of Narsese (`task$` with leading blanks) and its syntax tree. -/
def IsNarsese (line : List WChar) (ast : List Ast) : Prop :=
  DerivesAll [Gram.blanks, .nt .task] line ast

end Cnars.Parser
