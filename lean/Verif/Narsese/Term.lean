import Verif.Base.Hash
import Verif.Narsese.Tables

/-!
# Terms

`Narsese/include/Term.{h,inl}`, `Variable.{h,inl}`, `Interval.h`, `Operation.h`,
`Statement.{h,inl}` and the constructor tail of `Compound.cpp`.

A term is modelled as a tree that carries the same cached data as the C++ object (hash, complexity,
flags, variable index tables), computed by the modelled constructors.  Object identity is kept only
for atoms (their address enters the hash); sharing of other nodes is invisible to the functions
modelled here and is treated separately in `Heap.lean`.
-/

namespace Cnars

/-- `VARIABLE::VarPrefix` (Variable.h:17-22). -/
inductive VarKind where
  | independent | dependent | query
  deriving Repr, DecidableEq, Inhabited

/-- Enumerator values (Variable.h:19-21). -/
def VarKind.idx : VarKind → Nat
  | independent => 0 | dependent => 1 | query => 2

/-- `VARIABLE::Repr` (Variable.h:24). -/
def VarKind.symbol : VarKind → String
  | independent => "$" | dependent => "#" | query => "?"

/-- The lists of an index table `INDEXVAR::IndexVar` (utils/IndexVar.h:34-36).  The caches of the
class (`_indices_normalized`, `_hash_value`, `_is_built`, ...) and the successor graph are modelled
in `IndexVar.lean`; the `shared_ptr<int>` indices are represented by their values, which nothing
modifies after creation. -/
structure IV where
  indices : List Int
  positions : List (List Nat)
  deriving Repr, DecidableEq, Inhabited

/-- A fresh index table. -/
def IV.empty : IV := ⟨[], []⟩

/-- `add(idx, {})` on a table without successors (IndexVar.cpp:120-142): replaces the contents. -/
def IV.single (idx : Int) : IV := ⟨[idx], [[]]⟩

/-- `build` of a table connected to the tables of its sons (IndexVar.cpp:63-118): concatenation,
positions prefixed with the number of the son.  `n` is the number of the first son. -/
def IV.concat (n : Nat) : List IV → IV
  | [] => IV.empty
  | s :: ss =>
    let r := IV.concat (n + 1) ss
    ⟨s.indices ++ r.indices, s.positions.map (n :: ·) ++ r.positions⟩

/-- The cached fields common to all terms (Term.h:98-120).  `is_hashed` is true after every
constructor and is not represented; `complexity` is an unbounded integer here. -/
structure Info where
  hash : Word
  complexity : Int
  hasVar : Bool
  hasIvar : Bool
  hasDvar : Bool
  hasQvar : Bool
  isOperation : Bool
  isHigherOrder : Bool
  iv : IV
  dv : IV
  qv : IV
  deriving Repr, DecidableEq, Inhabited

/-- `TERM::Term` and its subclasses.  `is_var`, `is_ivar`, ... are given by the shape (`var kind`),
`is_interval` by `interval`.  The flags `Compound::is_commutative` and `Terms::_is_commutative` of
a compound are both `CONNECTOR::is_commutative(connector)` (Compound.cpp:300, 307, 321-331). -/
inductive Term where
  | atom (addr : Word) (i : Info)
  | interval (n : Int) (i : Info)
  | var (kind : VarKind) (name : String) (i : Info)
  | stmt (s : Term) (c : Copula) (p : Term) (i : Info)
  | comp (c : Connector) (ts : List Term) (i : Info)
  deriving Repr, Inhabited

namespace Term

def info : Term → Info
  | atom _ i => i | interval _ i => i | var _ _ i => i | stmt _ _ _ i => i | comp _ _ i => i

/-- `hash(*this)` (utils/hash.h:65-69, Term.h:131-134). -/
def hash (t : Term) : Word := t.info.hash

/-- `TermType` (Term.h:73-81, 96): intervals, operations and variables are of type `ATOM`. -/
def typeIdx : Term → Nat
  | atom .. => 0 | interval .. => 0 | var .. => 0 | stmt .. => 1 | comp .. => 2

/-- The variable kind of an atom, `none` for constants and intervals (`is_ivar`, `is_dvar`,
`is_qvar`). -/
def varKind : Term → Option VarKind
  | var k _ _ => some k
  | _ => none

def isCompound : Term → Bool
  | comp .. => true
  | _ => false

/-- `*term->terms` of a compound. -/
def comps : Term → List Term
  | comp _ ts _ => ts
  | _ => []

/-- Information of an atom with no variables. -/
def leafInfo (h : Word) (isOperation : Bool) : Info :=
  ⟨h, 1, false, false, false, false, isOperation, false, IV.empty, IV.empty, IV.empty⟩

/-- `Hash{}({ATOM, this})` (Term.h:125). -/
def atomHash (addr : Word) : Word := Hash.container [0, addr]

/-- `Term::Term()` (Term.h:125), the address of the new object being `addr`. -/
def mkAtom (addr : Word) : Term := atom addr (leafInfo (atomHash addr) false)

/-- `Operation::Operation()` (Operation.h:21-25). -/
def mkOperation (addr : Word) : Term := atom addr (leafInfo (atomHash addr) true)

/-- `Hash{}(initializer_list<signed int>{INTERVAL, interval})` (Interval.h:27). -/
def intervalHash (n : Int) : Word := Hash.container [Word.ofInt (-1), Word.ofInt n]

/-- `Interval::Interval` (Interval.h:24-28); `n` is a `signed int`. -/
def mkInterval (n : Int) : Term := interval n (leafInfo (intervalHash n) false)

/-- `Hash{}({VARIABLE, prefix})` (Variable.inl:59). -/
def varHash (k : VarKind) : Word := Hash.container [Word.ofInt (-3), BitVec.ofNat 64 k.idx]

/-- `Variable::Variable(prefix, name)` (Variable.inl:34-61) followed by `add(idx, {})` on the table
of its kind, as the parser does (NarseseParser.cpp:717-764). -/
def mkVar (k : VarKind) (name : String) (idx : Int) : Term :=
  var k name
    { hash := varHash k
      complexity := 1
      hasVar := true
      hasIvar := k = .independent
      hasDvar := k = .dependent
      hasQvar := k = .query
      isOperation := false
      isHigherOrder := false
      iv := if k = .independent then .single idx else .empty
      dv := if k = .dependent then .single idx else .empty
      qv := if k = .query then .single idx else .empty }

/-- `_init_indexvars` followed by `_build_indexvars` (Term.inl:16-42, Term.h:180-194) for one of the
three kinds.  The loop over the three kinds never advances the iterator over the son's tables, so
*every* kind is connected to the sons' `_vars_independent`; a table is built only if the flag for
its kind is set. -/
def buildTable (flag : Bool) (sons : List Term) : IV :=
  if flag then IV.concat 0 (sons.map (·.info.iv)) else IV.empty

/-- `_refresh_var_status`, `_init_indexvars`, `_build_indexvars` (Term.h:163-194). -/
def structInfo (h : Word) (complexity : Int) (isOperation isHigherOrder : Bool)
    (sons : List Term) : Info :=
  let hi := sons.any (·.info.hasIvar)
  let hd := sons.any (·.info.hasDvar)
  let hq := sons.any (·.info.hasQvar)
  { hash := h
    complexity := complexity
    hasVar := sons.any (·.info.hasVar)
    hasIvar := hi
    hasDvar := hd
    hasQvar := hq
    isOperation := isOperation
    isHigherOrder := isHigherOrder
    iv := buildTable hi sons
    dv := buildTable hd sons
    qv := buildTable hq sons }

/-- `Statement::do_hashing` (Statement.h:51-72) as called by the constructor, *before* the index
tables are connected: the three index groups are empty. -/
def stmtHash (hs : Word) (c : Copula) (hp : Word) : Word :=
  Hash.container [1, 0x3c, hs, BitVec.ofNat 64 c.idx, hp, 0x3c, 0x28, 0x29, 0x28, 0x29, 0x28, 0x29]

/-- `is_operation` of a statement (Statement.inl:26-29). -/
def stmtIsOperation (s p : Term) : Bool :=
  p.info.isOperation ||
    (p.typeIdx == 0 && p.info.isOperation &&
      (match s with | comp c _ _ => c = .product | _ => false))

/-- `Statement::Statement(subject, copula, predicate, is_input)` (Statement.inl:10-36) on the
stored (possibly cloned) subject and predicate. -/
def mkStmt (s : Term) (c : Copula) (p : Term) : Term :=
  stmt s c p (structInfo (stmtHash s.hash c p.hash) (1 + (s.info.complexity + p.info.complexity))
    (stmtIsOperation s p) (c.isHigherOrder) [s, p])

/-- `Compound::do_hashing` (Compound.h:78-104), again with empty index groups. -/
def compHash (c : Connector) (hs : List Word) : Word :=
  Hash.container ([2, 0x28, BitVec.ofNat 64 c.idx] ++ hs ++
    [0x29, 0x28, 0x29, 0x28, 0x29, 0x28, 0x29])

/-- The tail of `Compound::Compound` (Compound.cpp:311-318), on the final connector and list of
components. -/
def finishComp (c : Connector) (ts : List Term) : Term :=
  comp c ts (structInfo (compHash c (ts.map (·.hash))) ((ts.map (·.info.complexity)).sum)
    false false ts)

/-- `indices[0]`. -/
def IV.front (v : IV) : Res Int := Res.ofOption v.indices.head?

/-- `operator==` on two terms of type ATOM with equal hashes (Term.inl:67-79).  For query and
dependent variables the code reads `this->_vars_independent->indices[0]`. -/
def leafEq (a b : Term) : Res Bool :=
  match a.varKind, b.varKind with
  | some .query, some .query => do
    let x ← IV.front a.info.iv
    let y ← IV.front b.info.qv
    return x == y
  | some .dependent, some .dependent => do
    let x ← IV.front a.info.iv
    let y ← IV.front b.info.dv
    return x == y
  | some .independent, some .independent => do
    let x ← IV.front a.info.iv
    let y ← IV.front b.info.iv
    return x == y
  | _, _ => return a.hash == b.hash

mutual
/-- `Term::operator==` (Term.inl:54-112). -/
def eq : Term → Term → Res Bool
  | .stmt s1 c1 p1 i1, b =>
    match b with
    | .stmt s2 c2 p2 i2 =>
      if i1.hash ≠ i2.hash then return false
      else do
        if ← eq s1 s2 then
          if ← eq p1 p2 then return c1 == c2
          else return false
        else return false
    | _ => return false
  | .comp c1 ts1 i1, b =>
    match b with
    | .comp c2 ts2 i2 =>
      if i1.hash ≠ i2.hash then return false
      else if ts1.length ≠ ts2.length then return false
      else if c1 ≠ c2 then return false
      else eqAll ts1 ts2
    | _ => return false
  | .atom d i, b => if b.typeIdx ≠ 0 || i.hash != b.hash then return false else leafEq (.atom d i) b
  | .interval n i, b =>
    if b.typeIdx ≠ 0 || i.hash != b.hash then return false else leafEq (.interval n i) b
  | .var k n i, b =>
    if b.typeIdx ≠ 0 || i.hash != b.hash then return false else leafEq (.var k n i) b
/-- The loop Term.inl:100-107. -/
def eqAll : List Term → List Term → Res Bool
  | t1 :: ts1, ts =>
    match ts with
    | t2 :: ts2 => do
      if ← eq t1 t2 then eqAll ts1 ts2 else return false
    | [] => return true
  | [], _ => return true
end

/-- `operator<` on two variable-containing terms of type ATOM with equal hashes
(Term.inl:134-146). -/
def leafLt (a b : Term) : Res Bool :=
  match a.varKind, b.varKind with
  | some .query, some .query => do
    let x ← IV.front a.info.qv
    let y ← IV.front b.info.qv
    return decide (x < y)
  | some .dependent, some .dependent => do
    let x ← IV.front a.info.dv
    let y ← IV.front b.info.dv
    return decide (x < y)
  | some .independent, some .independent => do
    let x ← IV.front a.info.iv
    let y ← IV.front b.info.iv
    return decide (x < y)
  | _, _ => return decide (a.hash < b.hash)

/-- The first part of `operator<` (Term.inl:121-132), which decides by hash, by presence of
variables, and by type; `none` if these do not decide. -/
def ltHead (a b : Term) : Option Bool :=
  if a.hash ≠ b.hash then some (decide (a.hash < b.hash))
  else if !a.info.hasVar && !b.info.hasVar then some (decide (a.hash < b.hash))
  else if !a.info.hasVar && b.info.hasVar then some false
  else if a.info.hasVar && !b.info.hasVar then some true
  else if a.typeIdx ≠ b.typeIdx then some (decide (a.typeIdx < b.typeIdx))
  else none

mutual
/-- `Term::operator<` (Term.inl:114-180). -/
def lt : Term → Term → Res Bool
  | .stmt s1 c1 p1 i1, b =>
    match ltHead (.stmt s1 c1 p1 i1) b with
    | some r => return r
    | none =>
      match b with
      | .stmt s2 c2 p2 _ => do
        if ← lt s1 s2 then return true
        else if ← lt p1 p2 then return true
        else return decide (c1.idx < c2.idx)
      | _ => return false
  | .comp c1 ts1 i1, b =>
    match ltHead (.comp c1 ts1 i1) b with
    | some r => return r
    | none =>
      match b with
      | .comp c2 ts2 _ =>
        if ts1.length ≠ ts2.length then return decide (ts1.length < ts2.length)
        else if c1 ≠ c2 then return decide (c1.idx < c2.idx)
        else ltAny ts1 ts2
      | _ => return false
  | .atom d i, b => match ltHead (.atom d i) b with | some r => return r | none => leafLt (.atom d i) b
  | .interval n i, b =>
    match ltHead (.interval n i) b with | some r => return r | none => leafLt (.interval n i) b
  | .var k n i, b =>
    match ltHead (.var k n i) b with | some r => return r | none => leafLt (.var k n i) b
/-- The loop Term.inl:168-175. -/
def ltAny : List Term → List Term → Res Bool
  | t1 :: ts1, ts =>
    match ts with
    | t2 :: ts2 => do
      if ← lt t1 t2 then return true else ltAny ts1 ts2
    | [] => return false
  | [], _ => return false
end

end Term
end Cnars
