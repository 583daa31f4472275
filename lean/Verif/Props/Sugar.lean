import Verif.Parser.Sugar
import Verif.Props.Actions

/-!
# C53, C72: abbreviations and notations
-/

namespace Cnars.Props
open Cnars Cnars.Parser

/-! ### C53 -/

/-- C53: the statement made for `{--`, `--]` and `{-]` is the one made for `-->` with the set of the
subject or of the predicate, made as it is made for `{…}` and `[…]` in the text: same term, or same
failure. -/
theorem C53_copulas (M : Mach) {s p : Term} (cs : Constructed s) (cp : Constructed p) :
    Action.newStatement M s .instance p = (do
      let s' ← mkComp M.ord .extensionalSet [s] true
      Action.newStatement M s' .inheritance p) ∧
    Action.newStatement M s .property p = (do
      let p' ← mkComp M.ord .intensionalSet [p] true
      Action.newStatement M s .inheritance p') ∧
    Action.newStatement M s .instanceProperty p = (do
      let s' ← mkComp M.ord .extensionalSet [s] true
      let p' ← mkComp M.ord .intensionalSet [p] true
      Action.newStatement M s' .inheritance p') := by
  simp only [Action.newStatement, set_false cs.good, set_false cp.good, and_self]

/-- C53: two texts are accepted with trees of which the first abbreviates the second (`Ast.Abbr`, at
any number of places and any depth: `{--`, `--]`, `{-]`, `op(a,..)`, infix operators and tuples).
From the same state, the first gives a task if and only if the second does, and then both give the
same task and leave the same atoms, names and globals.  Where `{--` or `{-]` is expanded the subject
must not be written as `{…}` or `(|,…)` itself; and `(^op,a,..)` is not among the abbreviations (see
below).  What is said is about tasks, not about which of several exceptions is thrown. -/
theorem C53_abbreviations_partial {b b' : Buf} (hb : Reached b) (hb' : Reached b') {d d' : Nat}
    (hd : d < 3) (hd' : d' < 3) {strict strict' : Bool} {fuel fuel' : Nat} {text text' : List WChar}
    {r r' : Parsed} (h : parseText strict fuel b text d = .ok r)
    (h' : parseText strict' fuel' b' text' d' = .ok r') {a a' : List Ast} (ha : r.ast = some a)
    (ha' : r'.ast = some a') (hab : Ast.AbbrAll a a') {M : Mach} (hord : ∀ l, (M.ord l).Perm l)
    (bad bad' : Act Val) (env env' : Env) (t : Task) :
    evalTask M bad a env = (.ok t, env') ↔ evalTask M bad' a' env = (.ok t, env') :=
  evalTask_abbr (C43_tree hb hd h ha) (C43_tree hb' hd' h' ha') hab hord bad bad' env t env'

/-- `go(<A{--(B&C)>).` -/
def shortText : List Char :=
  ['g', 'o', '(', '<', 'A', '{', '-', '-', '(', 'B', '&', 'C', ')', '>', ')', '.']

/-- `<(*,<{A}-->(&,B,C)>)-->^go>.` -/
def fullText : List Char :=
  ['<', '(', '*', ',', '<', '{', 'A', '}', '-', '-', '>', '(', '&', ',', 'B', ',', 'C', ')', '>',
   ')', '-', '-', '>', '^', 'g', 'o', '>', '.']

/-- The tree of an atom. -/
def atomTree (s : List Char) : Ast := .node .atom_term [.leaf .string_raw s]

example : treeOf shortText = [.node .task [.node .judgement [.node .statement_operation2
    [.leaf .string_raw ['g', 'o'],
     .node .statement_term [.node .statement [atomTree ['A'], .node .instance [],
       .node .compound_term [.node .multi_infix [.node .multi_extint_expr
         [atomTree ['B'], atomTree ['C']]]]]]]]]] := by decide +kernel

theorem short_long : Ast.AbbrAll (treeOf shortText) (treeOf fullText) := by
  have h : treeOf shortText = [.node .task [.node .judgement [.node .statement_operation2
      [.leaf .string_raw ['g', 'o'],
       .node .statement_term [.node .statement [atomTree ['A'], .node .instance [],
         .node .compound_term [.node .multi_infix [.node .multi_extint_expr
           [atomTree ['B'], atomTree ['C']]]]]]]]]] := by decide +kernel
  have h' : treeOf fullText = [.node .task [.node .judgement [.node .statement
      [.node .compound_term [.node .multi_prefix [.node .con_product [],
        .node .statement_term [.node .statement
         [.node .compound_term [.node .set [.node .con_ext_set [], atomTree ['A']]],
          .node .inheritance [],
          .node .compound_term [.node .multi_prefix [.node .con_extensional_intersection [],
            atomTree ['B'], atomTree ['C']]]]]]],
       .node .inheritance [], .node .operation [.leaf .string_raw ['g', 'o']]]]]] := by
    decide +kernel
  have hat : ∀ s, Ast.Abbr (atomTree s) (atomTree s) := fun s => .node _ (.cons (.leaf _ _) .nil)
  rw [h, h']
  refine .cons (.node _ (.cons (.node _ (.cons (.callName (.cons (.node _ (.cons ?_ .nil)) .nil)) .nil))
    .nil)) .nil
  refine .instance ?_ (hat _) (.node _ (.cons (.infix rfl (.cons (hat _) (.cons (hat _) .nil))) .nil))
  intro t ht
  have : (atomTree ['A']).part = some (.syn (.name ['A'])) := rfl
  rw [this] at ht
  simp only [Option.some.injEq, Part.syn.injEq] at ht
  subst ht
  rfl

/-- Accepted, and gives a task. -/
def okText (text : List Char) : Bool :=
  match parseTask mach undefined true 1000 0 new (bytes text) with
  | (.ok (some _), _) => true
  | _ => false

example : okText shortText = true ∧ okText fullText = true := by decide +kernel

/-- C53: the operation call `(^op,a,..)` gives the statement that `<(*,a,..)-->^op>` gives, except
that the operator is evaluated before the arguments and not after them.  Missing: the same result
when both forms start from the same state, which is false, see the next theorem. -/
theorem C53_call_partial {M : Mach} {bad : Act Val} {f : Ast} {ts : List Ast} {g : Term}
    {us : List Term} {e e1 e2 : Env} :
    (evalNode M bad f e = (.ok (.term g), e1) → evalAll M bad ts e1 = (.ok (us.map .term), e2) →
      evalNode M bad (.node .statement_operation1 (f :: ts)) e =
        (.ok (.term (Term.mkStmt (Term.finishComp .product us) .inheritance g)), e2)) ∧
    (evalAll M bad ts e = (.ok (us.map .term), e1) → evalNode M bad f e1 = (.ok (.term g), e2) →
      evalNode M bad (.node .statement
          [.node .compound_term [.node .multi_prefix (.node .con_product [] :: ts)],
           .node .inheritance [], f]) e =
        (.ok (.term (Term.mkStmt (Term.finishComp .product us) .inheritance g)), e2)) := by
  have hp := product_true M.ord us
  have ha : addrs (Term.finishComp .product us) = addrsAll us := by simp [Term.finishComp, addrs]
  constructor
  · intro hf ht
    refine evalNode_ok (evalAll_ok hf ht) (by decide) (a := making (g :: us) _) (by
      rw [act, Action.statement_operation1, terms?_map]; rfl) (making_keep ?_ ?_)
    · rw [Action.newOperation, hp, Res.ok_bind, newStmt_input]
    · rw [addrs_mkStmt, ha, addrsAll]
      exact diff_nil_of_perm List.perm_append_comm
  · intro ht hf
    have h1 : evalNode M bad (.node .multi_prefix (.node .con_product [] :: ts)) e =
        (.ok (.term (Term.finishComp .product us)), e1) := by
      refine evalNode_ok (evalAll_ok (v := .conn .product) (e1 := e) rfl ht) (by decide)
        (a := making us _) (by rw [act, Action.multi_prefix, terms?_map]; rfl) (making_keep hp ?_)
      rw [ha]
      exact diff_nil_of_perm (.refl _)
    have h2 : evalNode M bad (.node .compound_term
          [.node .multi_prefix (.node .con_product [] :: ts)]) e =
        (.ok (.term (Term.finishComp .product us)), e1) :=
      evalNode_ok (evalAll_ok h1 rfl) (by decide) (a := pure _) rfl rfl
    refine evalNode_ok (evalAll_ok h2 (evalAll_ok (v := .copula .inheritance) (e1 := e1) rfl
      (evalAll_ok hf rfl))) (by decide) (a := making [_, g] _) rfl (making_keep rfl ?_)
    rw [addrsAll_two, addrs_mkStmt]
    exact diff_nil_of_perm (.refl _)

/-- C53 fails for `(^op,a,..)`: in an interpreter without names, `(^go,go).` gives a task and
`<(*,go)-->^go>.` does not, although the trees are those of the two forms.  `operation` looks for
the name `go`, and if it is known it takes the address of the term named `^go`, which there is not
(NarseseParser.cpp:455-475, Interpreter). -/
theorem C53_call_counterexample :
    (∃ f ts, treeOf ['(', '^', 'g', 'o', ',', 'g', 'o', ')', '.'] =
        [.node .task [.node .judgement [.node .statement_operation1 (f :: ts)]]] ∧
      treeOf ['<', '(', '*', ',', 'g', 'o', ')', '-', '-', '>', '^', 'g', 'o', '>', '.'] =
        [.node .task [.node .judgement [.node .statement
          [.node .compound_term [.node .multi_prefix (.node .con_product [] :: ts)],
           .node .inheritance [], f]]]]) ∧
    okText ['(', '^', 'g', 'o', ',', 'g', 'o', ')', '.'] = true ∧
    okText ['<', '(', '*', ',', 'g', 'o', ')', '-', '-', '>', '^', 'g', 'o', '>', '.'] = false := by
  refine ⟨⟨.node .operation [.leaf .string_raw ['g', 'o']], [atomTree ['g', 'o']], ?_, ?_⟩, ?_, ?_⟩ <;>
    decide +kernel

/-! ### C72 -/

/-- C72: two texts are accepted with trees that differ only by notation: where the first has infix
operators (`(A & B)`, `(A - B)`, `A & B` inside `(-, A & B, C)`) or tuples `(A, B)`, at any number of
places and any depth, the second has the prefix operator with the same arguments.  Their evaluation
is the same: same task or same failure, same atoms, names and globals. -/
theorem C72_notations {b b' : Buf} (hb : Reached b) (hb' : Reached b') {d d' : Nat}
    (hd : d < 3) (hd' : d' < 3) {strict strict' : Bool} {fuel fuel' : Nat} {text text' : List WChar}
    {r r' : Parsed} (h : parseText strict fuel b text d = .ok r)
    (h' : parseText strict' fuel' b' text' d' = .ok r') {a a' : List Ast} (ha : r.ast = some a)
    (ha' : r'.ast = some a') (hab : Ast.PrefixedAll a a') (M : Mach) (bad bad' : Act Val) (env : Env) :
    evalTask M bad a env = evalTask M bad' a' env :=
  congrFun (evalTask_prefixed (C43_tree hb hd h ha) (C43_tree hb' hd' h' ha') hab M bad bad') env

/-- `(A-(B,C)).` -/
def infixText : List Char := ['(', 'A', '-', '(', 'B', ',', 'C', ')', ')', '.']

/-- `(-,A,(*,B,C)).` -/
def prefixText : List Char := ['(', '-', ',', 'A', ',', '(', '*', ',', 'B', ',', 'C', ')', ')', '.']

theorem infix_prefix : Ast.PrefixedAll (treeOf infixText) (treeOf prefixText) := by
  have h : treeOf infixText = [.node .task [.node .judgement [.node .compound_term [.node .single_infix
      [atomTree ['A'], .node .con_extensional_difference [],
       .node .compound_term [.node .multi_prefix_product [atomTree ['B'], atomTree ['C']]]]]]]] := by
    decide +kernel
  have h' : treeOf prefixText = [.node .task [.node .judgement [.node .compound_term
      [.node .single_prefix [.node .con_extensional_difference [], atomTree ['A'],
       .node .compound_term [.node .multi_prefix
         [.node .con_product [], atomTree ['B'], atomTree ['C']]]]]]]] := by
    decide +kernel
  have hat : ∀ s, Ast.Prefixed (atomTree s) (atomTree s) := fun s => .node _ (.cons (.leaf _ _) .nil)
  rw [h, h']
  exact .cons (.node _ (.cons (.node _ (.cons (.node _ (.cons (.single (hat _) (.node _
    (.cons (.tuple (.cons (hat _) (.cons (hat _) .nil))) .nil))) .nil)) .nil)) .nil)) .nil

example : okText infixText = true ∧ okText prefixText = true := by decide +kernel

end Cnars.Props
