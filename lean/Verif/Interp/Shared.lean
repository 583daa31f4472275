import Verif.Interp.World

/-!
# Terms that share their parts

Statements and compounds as objects that are counted, and the variables of a Python program that refers to
them.  `World` has the named atoms, here are all other objects, with the handles in them.
-/

namespace Cnars.Shared
open Cnars

/-- What a `pTerm` (Term.h:50-68) points to: a named atom (by its number in the `World`), or another object. -/
inductive Ref where
  | atom (j : Nat)
  | obj (i : Nat)
  deriving DecidableEq, Repr

/-- The types of these objects (Term.h:73-81): atoms without a name, variables and intervals are `leaf`. -/
inductive Kind where
  | leaf | statement | compound
  deriving DecidableEq, Repr

/-- An object: how many handles point to it, and the handles in it (Term.h:83-97): `subject` and `predicate` of
a statement, the elements of `terms` of a compound.  An object that was deleted has neither. -/
structure Node where
  kind : Kind
  uses : Nat
  members : List Ref
  deriving Repr

/-- A variable of the program.  `own`: an object of Python that has its own `pTerm`.  `borrow i m`: one that
refers to the `m`-th handle in the object `i`, without owning anything. -/
inductive Var where
  | own (r : Ref)
  | borrow (i m : Nat)
  deriving DecidableEq, Repr

/-- The state. -/
structure Graph where
  world : World
  nodes : List Node
  vars : List Var

/-- Nothing was made. -/
def Graph.init : Graph := ⟨World.init, [], []⟩

/-- Copies a handle (the implicit copy constructor of `pTerm`).  The handle copied exists. -/
def Graph.addRef (g : Graph) : Ref → Res Graph
  | .atom j => match g.world.handles.idxOf? j with
    | some i => do
      let w ← g.world.copy i
      return { g with world := w }
    | none => .ub
  | .obj i => match g.nodes[i]? with
    | some n => if n.uses = 0 then .ub else
        .ok { g with nodes := g.nodes.set i { n with uses := n.uses + 1 } }
    | none => .ub

/-- Copies several. -/
def Graph.addRefs (g : Graph) (rs : List Ref) : Res Graph := rs.foldlM Graph.addRef g

/-- Destroys handles (Term.inl:44-52, then `~shared_ptr`): the one on a named atom as in `World.drop`; the last
one on another object deletes the object, and the handles in it are destroyed.  Simplified: in the order of the
members.  Fuel is the number of handles. -/
def Graph.release : Nat → Graph → List Ref → Res Graph
  | _, g, [] => .ok g
  | 0, _, _ :: _ => .outOfFuel
  | f + 1, g, .atom j :: rest => match g.world.handles.idxOf? j with
    | some i => do
      let w ← g.world.drop i
      Graph.release f { g with world := w } rest
    | none => .ub
  | f + 1, g, .obj i :: rest => match g.nodes[i]? with
    | some n => match n.uses with
      | 0 => .ub
      | 1 => Graph.release f { g with nodes := g.nodes.set i ⟨n.kind, 0, []⟩ } (n.members ++ rest)
      | k + 2 => Graph.release f { g with nodes := g.nodes.set i { n with uses := k + 1 } } rest
    | none => .ub

/-- All handles in objects. -/
def Graph.inner (g : Graph) : List Ref := g.nodes.flatMap (·.members)

/-- `subject`, `predicate`, or an element of `terms`, and so on from there.  `none` if there is no such part. -/
def Graph.follow (g : Graph) : Ref → List Nat → Option Ref
  | r, [] => some r
  | .atom _, _ :: _ => none
  | .obj i, m :: path => match g.nodes[i]? with
    | some n => match n.members[m]? with
      | some r => g.follow r path
      | none => none
    | none => none

/-- The handle that a variable refers to; undefined if its object was deleted. -/
def Graph.handle (g : Graph) : Var → Res Ref
  | .own r => .ok r
  | .borrow i m => match g.nodes[i]? with
    | some n => if n.uses = 0 then .ub else match n.members[m]? with
      | some r => .ok r
      | none => .ub
    | none => .ub

/-- A part of what variable `k` refers to. -/
def Graph.get (g : Graph) (k : Nat) (path : List Nat) : Res (Option Ref) :=
  match g.vars[k]? with
  | some v => do
    let r ← g.handle v
    return g.follow r path
  | none => .ok none

/-- Several parts; `none` if there is one that does not exist. -/
def Graph.gets (g : Graph) : List (Nat × List Nat) → Res (Option (List Ref))
  | [] => .ok (some [])
  | (k, path) :: srcs => do
    let r ← g.get k path
    let rs ← g.gets srcs
    return r.bind fun r => rs.map (r :: ·)

/-- What a program can do. -/
inductive Op where
  /-- `Term(word)` (Term.cpp:86-90). -/
  | create (n : String) (addr : Word)
  /-- An operation, as the parser makes it. -/
  | operation (n : String) (addr : Word)
  /-- `Statement(s, c, p)` (Statement.cpp:17-21), `Compound(c, …)` (Compound.cpp:336-343), `Term()`
  (Term.cpp:81-85) and other atoms without a name: a new object with copies of handles.  Which handles these
  are is left open: the arguments, their parts (Compound.cpp flattens and merges), or other new objects, that
  is clones. -/
  | build (kind : Kind) (srcs : List (Nat × List Nat))
  /-- `x = y`, `x = y.subject`, `x = y.predicate` (Term.cpp:91-106: `py::cast` of a handle makes a copy), `x =
  task.term` (Task.h:33), and further such attributes. -/
  | take (k : Nat) (path : List Nat)
  /-- `x1, x2, … = y.terms` (Term.cpp:107-122).  For a statement a list with copies of the handles.  For a
  compound an iterator made with `py::make_iterator`, which gives references to the elements (its policy is
  `reference_internal`), and nothing keeps the compound: there is no `keep_alive`.  Simplified: the iterator is used
  at once. -/
  | terms (k : Nat) (path : List Nat)
  /-- Variable `k` goes. -/
  | drop (k : Nat)

/-- The handle that was made last. -/
def newest (w : World) : Res Ref :=
  match w.handles.getLast? with
  | some j => .ok (.atom j)
  | none => .ub

/-- One operation.  What Python does if a part does not exist (`None`, or an exception) changes nothing. -/
def Graph.step (g : Graph) : Op → Res Graph
  | .create n a => do
    let w ← g.world.create n a
    let r ← newest w
    return { g with world := w, vars := g.vars ++ [.own r] }
  | .operation n a => do
    let w ← g.world.operation n a
    let r ← newest w
    return { g with world := w, vars := g.vars ++ [.own r] }
  | .build kind srcs => do
    match ← g.gets srcs with
    | none => return g
    | some rs =>
      let g ← g.addRefs rs
      return { g with nodes := g.nodes ++ [⟨kind, 1, rs⟩], vars := g.vars ++ [.own (.obj g.nodes.length)] }
  | .take k path => do
    match ← g.get k path with
    | none => return g
    | some r =>
      let g ← g.addRef r
      return { g with vars := g.vars ++ [.own r] }
  | .terms k path => do
    match ← g.get k path with
    | some (.obj i) => match g.nodes[i]? with
      | some n => match n.kind with
        | .leaf => return g
        | .statement =>
          let g ← g.addRefs n.members
          return { g with vars := g.vars ++ n.members.map .own }
        | .compound => return { g with vars := g.vars ++ (List.range n.members.length).map (.borrow i) }
      | none => .ub
    | _ => return g
  | .drop k => match g.vars[k]? with
    | some (.own r) => Graph.release (g.inner.length + 1) { g with vars := g.vars.eraseIdx k } [r]
    | some (.borrow _ _) => .ok { g with vars := g.vars.eraseIdx k }
    | none => .ok g

/-- A history. -/
def Graph.run (g : Graph) (ops : List Op) : Res Graph := ops.foldlM Graph.step g

end Cnars.Shared
