import Verif.Narsese.Good

/-!
# The specification side: terms as plain trees

`Shape` is the term a user has in mind: no caches, no index tables, no addresses except those that
tell constants apart.  The property theorems speak about shapes.
-/

namespace Cnars
open Term

/-- A Narsese term as a plain tree. -/
inductive Shape where
  | const (addr : Word)
  | interval (n : Int)
  | var (k : VarKind) (idx : Option Int)
  | stmt (s : Shape) (c : Copula) (p : Shape)
  | comp (c : Connector) (ts : List Shape)
  deriving Inhabited

/-- The table in which a variable of a given kind keeps its own index. -/
def Info.own (i : Info) : VarKind → IV
  | .independent => i.iv
  | .dependent => i.dv
  | .query => i.qv

mutual
/-- The plain tree of a term object. -/
def shape : Term → Shape
  | .atom a _ => .const a
  | .interval n _ => .interval n
  | .var k _ i => .var k (i.own k).indices.head?
  | .stmt s c p _ => .stmt (shape s) c (shape p)
  | .comp c ts _ => .comp c (shapes ts)
/-- `shape` of each member. -/
def shapes : List Term → List Shape
  | [] => []
  | t :: ts => shape t :: shapes ts
end

theorem shapes_eq_map (ts : List Term) : shapes ts = ts.map shape := by
  induction ts with
  | nil => rfl
  | cons t ts ih => simp [shapes, ih]

mutual
/-- The leaves from left to right. -/
def Shape.leaves : Shape → List Shape
  | .const a => [.const a]
  | .interval n => [.interval n]
  | .var k i => [.var k i]
  | .stmt s _ p => s.leaves ++ p.leaves
  | .comp _ ts => Shape.leavesAll ts
def Shape.leavesAll : List Shape → List Shape
  | [] => []
  | t :: ts => t.leaves ++ Shape.leavesAll ts
end

mutual
/-- Apply a function to every variable, keeping its kind. -/
def Shape.rename (f : VarKind → Option Int → Option Int) : Shape → Shape
  | .const a => .const a
  | .interval n => .interval n
  | .var k i => .var k (f k i)
  | .stmt s c p => .stmt (s.rename f) c (p.rename f)
  | .comp c ts => .comp c (Shape.renameAll f ts)
def Shape.renameAll (f : VarKind → Option Int → Option Int) : List Shape → List Shape
  | [] => []
  | t :: ts => t.rename f :: Shape.renameAll f ts
end

mutual
/-- Number of leaves plus number of statements. -/
def Shape.complexity : Shape → Int
  | .const _ => 1
  | .interval _ => 1
  | .var _ _ => 1
  | .stmt s _ p => 1 + s.complexity + p.complexity
  | .comp _ ts => Shape.complexityAll ts
def Shape.complexityAll : List Shape → Int
  | [] => 0
  | t :: ts => t.complexity + Shape.complexityAll ts
end

mutual
/-- The occurrences of variables of one kind from left to right, each with its index and the path
of son numbers leading to it; `path` is the path so far. -/
def Shape.occs (k : VarKind) : Shape → List (Option Int × List Nat)
  | .const _ => []
  | .interval _ => []
  | .var k' i => if k' = k then [(i, [])] else []
  | .stmt s _ p =>
    (s.occs k).map (fun o => (o.1, 0 :: o.2)) ++ (p.occs k).map (fun o => (o.1, 1 :: o.2))
  | .comp _ ts => Shape.occsAll k 0 ts
def Shape.occsAll (k : VarKind) (n : Nat) : List Shape → List (Option Int × List Nat)
  | [] => []
  | t :: ts => (t.occs k).map (fun o => (o.1, n :: o.2)) ++ Shape.occsAll k (n + 1) ts
end

/-- Every constant is at an address of a 64-bit user process above the first 4 GiB (where the heap
of a position-independent executable is), and every interval length is a non-negative `int`, as the
parser produces. -/
def LeafPlaced : Shape → Prop
  | .const a => 2^32 ≤ a.toNat ∧ a.toNat < 2^63
  | .interval n => 0 ≤ n ∧ n < 2^31
  | _ => True

def Placed (t : Term) : Prop := ∀ l ∈ (shape t).leaves, LeafPlaced l

/-- No dependent (`#x`) and no query (`?x`) variable. -/
def OnlyIndependent (t : Term) : Prop :=
  ∀ l ∈ (shape t).leaves, ∀ k i, l = .var k i → k = .independent

theorem leavesAll_eq (ts : List Shape) : Shape.leavesAll ts = ts.flatMap Shape.leaves := by
  induction ts with
  | nil => rfl
  | cons t ts ih => simp [Shape.leavesAll, ih]

theorem renameAll_eq (f : VarKind → Option Int → Option Int) (ts : List Shape) :
    Shape.renameAll f ts = ts.map (Shape.rename f) := by
  induction ts with
  | nil => rfl
  | cons t ts ih => simp [Shape.renameAll, ih]

theorem complexityAll_eq (ts : List Shape) :
    Shape.complexityAll ts = (ts.map Shape.complexity).sum := by
  induction ts with
  | nil => rfl
  | cons t ts ih => simp [Shape.complexityAll, ih]

@[simp] theorem shape_mkAtom (a : Word) : shape (mkAtom a) = .const a := rfl
@[simp] theorem shape_mkOperation (a : Word) : shape (mkOperation a) = .const a := rfl
@[simp] theorem shape_mkInterval (n : Int) : shape (mkInterval n) = .interval n := rfl
@[simp] theorem shape_mkVar (k : VarKind) (name : String) (idx : Int) :
    shape (mkVar k name idx) = .var k (some idx) := by
  cases k <;> rfl
@[simp] theorem shape_mkStmt (s : Term) (c : Copula) (p : Term) :
    shape (mkStmt s c p) = .stmt (shape s) c (shape p) := rfl
@[simp] theorem shape_finishComp (c : Connector) (ts : List Term) :
    shape (finishComp c ts) = .comp c (ts.map shape) := by
  simp [finishComp, shape, shapes_eq_map]

mutual
/-- The hash the constructors compute, as a function of the plain tree. -/
def Shape.hash : Shape → Word
  | .const a => atomHash a
  | .interval n => intervalHash n
  | .var k _ => varHash k
  | .stmt s c p => stmtHash s.hash c p.hash
  | .comp c ts => compHash c (Shape.hashes ts)
def Shape.hashes : List Shape → List Word
  | [] => []
  | t :: ts => t.hash :: Shape.hashes ts
end

theorem hashes_eq (ts : List Shape) : Shape.hashes ts = ts.map Shape.hash := by
  induction ts with
  | nil => rfl
  | cons t ts ih => simp [Shape.hashes, ih]

theorem Good.hash_shape {t : Term} (h : Good t) : t.hash = (shape t).hash := by
  induction h with
  | atom => rfl
  | operation => rfl
  | interval => rfl
  | var k n i => rw [shape_mkVar]; rfl
  | stmt c _ _ ihs ihp =>
    rw [shape_mkStmt, Shape.hash, ← ihs, ← ihp]; rfl
  | @comp ts c _ _ ih =>
    rw [shape_finishComp, Shape.hash, hashes_eq, List.map_map]
    have : ts.map (fun t => t.hash) = ts.map (Shape.hash ∘ shape) :=
      List.map_congr_left (fun t ht => ih t ht)
    rw [← this]; rfl

theorem mem_leaves_stmt {s p : Term} {c : Copula} {l : Shape} :
    l ∈ (shape (mkStmt s c p)).leaves ↔ l ∈ (shape s).leaves ∨ l ∈ (shape p).leaves := by
  simp [Shape.leaves]

theorem mem_leaves_comp {ts : List Term} {c : Connector} {l : Shape} :
    l ∈ (shape (finishComp c ts)).leaves ↔ ∃ t ∈ ts, l ∈ (shape t).leaves := by
  simp [Shape.leaves, leavesAll_eq]

end Cnars
