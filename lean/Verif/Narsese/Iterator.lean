import Verif.Narsese.Terms

/-!
# Iterators over components: class `Iterator` (Term.h:202-308)

An `Iterator` has a pointer to an iterator of the standard library in memory of its own.  Which type that has is
not known to the compiler; a flag tells.
-/

namespace Cnars.Iter
open Cnars

/-- The types of the objects behind `it_`: `std::vector<pTerm>::const_iterator`, `std::vector<pTerm>::iterator`,
`std::set<pTerm>::iterator` (which in libstdc++ is the same type for all comparators, and constant). -/
inductive Kind where
  | vecConst | vec | set
  deriving DecidableEq, Repr

/-- Both kinds of iterators on a vector. -/
def Kind.isVec : Kind → Bool
  | .set => false
  | _ => true

/-- Such an object: its type, the `Terms` it goes over (by number), and where it is. -/
structure Block where
  kind : Kind
  of : Nat
  pos : Nat
  deriving Repr

/-- An `Iterator` (Term.h:305-307): the flag, and the pointer (by number). -/
structure It where
  comm : Bool
  block : Nat
  deriving Repr

/-- The state: the `Terms` there are, which do not change here; memory (`none`: freed; simplified: numbers are not
used again); the iterators (`none`: destroyed). -/
structure State where
  conts : List Terms
  blocks : List (Option Block)
  its : List (Option It)

/-- What an operation gives. -/
inductive Out where
  | none
  | term (t : Term)
  | bool (b : Bool)

/-- What can be done with iterators. -/
inductive Op where
  /-- `terms.begin()` (Term.h:455-461) -/
  | begin (c : Nat)
  /-- `terms.end()` (Term.h:463-469) -/
  | finish (c : Nat)
  /-- `Iterator j(k)` -/
  | copy (k : Nat)
  /-- `k = j`: the assignment that the compiler makes -/
  | assign (k j : Nat)
  /-- `++k`, `k++` -/
  | incr (k : Nat)
  /-- `Iterator j = k++` -/
  | postIncr (k : Nat)
  /-- `k + n` -/
  | plus (k : Nat) (n : BitVec 32)
  /-- `k - n` -/
  | minus (k : Nat) (n : BitVec 32)
  /-- `*k` -/
  | deref (k : Nat)
  /-- `k == j` -/
  | eq (k j : Nat)
  /-- `k != j` -/
  | ne (k j : Nat)
  /-- the end of `k` -/
  | destroy (k : Nat)

/-- The type under which an iterator's object is read (Term.h:217-220, 236-251 and so on). -/
def readAs (comm : Bool) : Kind := if comm then .set else .vec

/-- The type under which it is deleted (Term.h:225-234): the other one. -/
def deleteAs (comm : Bool) : Kind := if comm then .vec else .set

/-- A living iterator. -/
def State.it (s : State) (k : Nat) : Res It :=
  match s.its[k]? with
  | some (some i) => .ok i
  | _ => .ub

/-- Reads the object behind an iterator.  If `typed`, under its own type only; otherwise constant and other
iterators on vectors are the same. -/
def State.read (typed : Bool) (s : State) (i : It) : Res Block :=
  match s.blocks[i.block]? with
  | some (some b) =>
    if b.kind = readAs i.comm ∨ (typed = false ∧ b.kind.isVec = (readAs i.comm).isVec) then .ok b else .ub
  | _ => .ub

/-- A new iterator on a new object. -/
def State.alloc (s : State) (b : Block) (comm : Bool) : State :=
  { s with blocks := s.blocks ++ [some b], its := s.its ++ [some ⟨comm, s.blocks.length⟩] }

/-- The two constructors from iterators of the library (Term.h:222-223). -/
def ofLib (comm : Bool) : Kind := if comm then .set else .vecConst

/-- The number of components. -/
def State.size (s : State) (c : Nat) : Res Nat :=
  match s.conts[c]? with
  | some t => .ok t.items.length
  | none => .ub

/-- `operator+`, `operator-` (Term.h:274-303): `std::advance` outside the range is undefined. -/
def State.advance (typed : Bool) (s : State) (k : Nat) (n : Int) : Res (State × Out) := do
  let i ← s.it k
  let b ← s.read typed i
  let m ← s.size b.of
  let p := (b.pos : Int) + n
  if 0 ≤ p ∧ p ≤ m then return (s.alloc ⟨ofLib i.comm, b.of, p.toNat⟩ i.comm, .none) else .ub

/-- `operator++` (Term.h:244-251). -/
def State.increment (typed : Bool) (s : State) (k : Nat) : Res State := do
  let i ← s.it k
  let b ← s.read typed i
  let m ← s.size b.of
  if b.pos < m then return { s with blocks := s.blocks.set i.block (some { b with pos := b.pos + 1 }) } else .ub

/-- The copy constructor (Term.h:214-221). -/
def State.dup (typed : Bool) (s : State) (k : Nat) : Res State := do
  let i ← s.it k
  let b ← s.read typed i
  return s.alloc { b with kind := readAs i.comm } i.comm

/-- `operator==` (Term.h:266-272).  The flag of the left one is used for both; iterators on different
containers must not be compared. -/
def State.same (typed : Bool) (s : State) (k j : Nat) : Res Bool := do
  let i ← s.it k
  let i' ← s.it j
  let b ← s.read typed i
  let b' ← s.read typed { i' with comm := i.comm }
  if b.of = b'.of then return b.pos == b'.pos else .ub

/-- One operation.  `typed`: an object may be used and deleted under its own type only. -/
def State.step (typed : Bool) (s : State) : Op → Res (State × Out)
  | .begin c => match s.conts[c]? with
    | some t => .ok (s.alloc ⟨ofLib t.comm, c, 0⟩ t.comm, .none)
    | none => .ub
  | .finish c => match s.conts[c]? with
    | some t => .ok (s.alloc ⟨ofLib t.comm, c, t.items.length⟩ t.comm, .none)
    | none => .ub
  | .copy k => do
    let s ← s.dup typed k
    return (s, .none)
  | .assign k j => do
    let _ ← s.it k
    let i ← s.it j
    return ({ s with its := s.its.set k (some i) }, .none)
  | .incr k => do
    let s ← s.increment typed k
    return (s, .none)
  | .postIncr k => do
    let s ← s.increment typed k
    let s ← s.dup typed k
    return (s, .none)
  | .plus k n => s.advance typed k n.toInt
  | .minus k n => if n = BitVec.intMin 32 then .ub else s.advance typed k (-n.toInt)
  | .deref k => do
    let i ← s.it k
    let b ← s.read typed i
    match s.conts[b.of]? with
    | some t => match t.items[b.pos]? with
      | some x => return (s, .term x)
      | none => .ub
    | none => .ub
  | .eq k j => do
    let b ← s.same typed k j
    return (s, .bool b)
  | .ne k j => do
    let b ← s.same typed k j
    return (s, .bool !b)
  | .destroy k => do
    let i ← s.it k
    match s.blocks[i.block]? with
    | some (some b) =>
      if typed = true ∧ b.kind ≠ deleteAs i.comm then .ub
      else return ({ s with blocks := s.blocks.set i.block none, its := s.its.set k none }, .none)
    | _ => .ub

/-- A program. -/
def State.run (typed : Bool) (s : State) : List Op → Res (State × List Out)
  | [] => .ok (s, [])
  | op :: ops => do
    let (s, o) ← s.step typed op
    let (s, os) ← State.run typed s ops
    return (s, o :: os)

/-- The loop of `fill_terms` over a `Terms` (Term.h:480-497): `for (it = terms.begin(); it != terms.end(); it++)`,
from the test on.  Gives what was visited.  Fuel is the number of tests. -/
def State.loop (typed : Bool) (c k : Nat) : Nat → State → List Term → Res (State × List Term)
  | 0, _, _ => .outOfFuel
  | f + 1, s, seen => do
    let (s, _) ← s.step typed (.finish c)
    let e := s.its.length - 1
    let (s, o) ← s.step typed (.ne k e)
    let (s, _) ← s.step typed (.destroy e)
    match o with
    | .bool true => do
      let (s, o) ← s.step typed (.deref k)
      match o with
      | .term x => do
        let (s, _) ← s.step typed (.incr k)
        State.loop typed c k f s (seen ++ [x])
      | _ => .ub
    | _ => do
      let (s, _) ← s.step typed (.destroy k)
      return (s, seen)

/-- The whole loop. -/
def State.forEach (typed : Bool) (s : State) (c fuel : Nat) : Res (State × List Term) := do
  let (s, _) ← s.step typed (.begin c)
  State.loop typed c (s.its.length - 1) fuel s []

end Cnars.Iter
