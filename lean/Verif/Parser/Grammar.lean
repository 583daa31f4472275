import Verif.Parser.Driver

/-!
# Parse trees

What the parser is supposed to do: parse trees over the productions, the text they span, and the
syntax tree the annotations of the grammar prescribe for them.  Nothing here depends on the driver
or on the action tables; `leafNodes` and `wrapNodes` are the two rules "a terminal / production with
an `emit` name makes a node".
-/

namespace Cnars.Parser

/-- A parse tree: a token with its text, or a production with subtrees. -/
inductive PTree where
  | leaf (sym : Nat) (text : List WChar)
  | node (prod : Nat) (children : List PTree)
  deriving Inhabited

/-- The `emit` name of a terminal. -/
def symEmit (T : Tables) (s : Nat) : Emit := ((T.symbols[s]?).map (·.emit)).getD .none

/-- The `emit` name of a production. -/
def prodEmit (T : Tables) (p : Nat) : Emit := ((T.prods[p]?).map (·.emit)).getD .none

/-- The left-hand side of a production. -/
def lhsOf (T : Tables) (p : Nat) : Nat := ((T.prods[p]?).map (·.lhs)).getD 0

/-- The right-hand side of a production. -/
def rhsOf (T : Tables) (p : Nat) : List Nat := (T.rhs[p]?).getD []

/-- The symbol at the root. -/
def PTree.root (T : Tables) : PTree → Nat
  | .leaf s _ => s
  | .node p _ => lhsOf T p

mutual
/-- The text spanned by a tree. -/
def PTree.yield : PTree → List WChar
  | .leaf _ w => w
  | .node _ cs => PTree.yields cs

/-- The text spanned by a list of trees. -/
def PTree.yields : List PTree → List WChar
  | [] => []
  | t :: ts => t.yield ++ PTree.yields ts
end

mutual
/-- The syntax tree prescribed by the grammar annotations: a terminal with an `emit` name gives a
leaf, a production with an `emit` name gives a node over the nodes of its right-hand side, a
production without one passes them on. -/
def PTree.ast (T : Tables) : PTree → List Ast
  | .leaf s w => leafNodes (symEmit T s) w
  | .node p cs => wrapNodes (prodEmit T p) (PTree.asts T cs)

/-- Left to right. -/
def PTree.asts (T : Tables) : List PTree → List Ast
  | [] => []
  | t :: ts => t.ast T ++ PTree.asts T ts
end

mutual
/-- The number of nodes and leaves. -/
def PTree.size : PTree → Nat
  | .leaf _ _ => 1
  | .node _ cs => 1 + PTree.sizes cs

/-- Summed up. -/
def PTree.sizes : List PTree → Nat
  | [] => 0
  | t :: ts => t.size + PTree.sizes ts
end

mutual
/-- Whether the end-of-input token occurs. -/
def PTree.hasEof : PTree → Bool
  | .leaf s _ => s == 0
  | .node _ cs => PTree.hasEofs cs

/-- Somewhere in the list. -/
def PTree.hasEofs : List PTree → Bool
  | [] => false
  | t :: ts => t.hasEof || PTree.hasEofs ts
end

/-- A tree whose nodes are productions and whose leaves are tokens, `tok sym w` saying that `w` is a
possible text of terminal `sym`. -/
inductive PTree.Valid (T : Tables) (tok : Nat → List WChar → Prop) : PTree → Prop where
  | leaf {s : Nat} {w : List WChar} : tok s w → Valid T tok (.leaf s w)
  | node {p : Nat} {cs : List PTree} : p < T.prods.length → rhsOf T p = cs.map (PTree.root T) →
      (∀ c ∈ cs, Valid T tok c) → Valid T tok (.node p cs)

theorem PTree.yields_append (a b : List PTree) :
    PTree.yields (a ++ b) = PTree.yields a ++ PTree.yields b := by
  induction a with
  | nil => simp [PTree.yields]
  | cons t a ih => simp [PTree.yields, ih]

theorem PTree.asts_append (T : Tables) (a b : List PTree) :
    PTree.asts T (a ++ b) = PTree.asts T a ++ PTree.asts T b := by
  induction a with
  | nil => simp [PTree.asts]
  | cons t a ih => simp [PTree.asts, ih]

theorem PTree.sizes_append (a b : List PTree) :
    PTree.sizes (a ++ b) = PTree.sizes a + PTree.sizes b := by
  induction a with
  | nil => simp [PTree.sizes]
  | cons t a ih => simp [PTree.sizes, ih]; omega

theorem PTree.sizes_reverse (a : List PTree) : PTree.sizes a.reverse = PTree.sizes a := by
  induction a with
  | nil => rfl
  | cons t a ih => simp [PTree.sizes, PTree.sizes_append, ih]; omega

theorem PTree.hasEofs_append (a b : List PTree) :
    PTree.hasEofs (a ++ b) = (PTree.hasEofs a || PTree.hasEofs b) := by
  induction a with
  | nil => simp [PTree.hasEofs]
  | cons t a ih => simp [PTree.hasEofs, ih, Bool.or_assoc]

theorem PTree.hasEofs_reverse (a : List PTree) : PTree.hasEofs a.reverse = PTree.hasEofs a := by
  induction a with
  | nil => rfl
  | cons t a ih => simp [PTree.hasEofs, PTree.hasEofs_append, ih, Bool.or_comm]

theorem PTree.hasEofs_of_mem {t : PTree} {ts : List PTree} (h : t ∈ ts) (he : t.hasEof = true) :
    PTree.hasEofs ts = true := by
  induction ts with
  | nil => simp at h
  | cons x xs ih =>
    rcases List.mem_cons.mp h with h | h
    · subst h; simp [PTree.hasEofs, he]
    · simp [PTree.hasEofs, ih h]

end Cnars.Parser
