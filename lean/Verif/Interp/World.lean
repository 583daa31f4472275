import Verif.Interp.Store
import Verif.Narsese.Term

/-!
# Named atoms, their handles and the dictionaries

`pTerm` (Narsese/include/Term.h:50-68) is a `shared_ptr` whose destructor takes the term out of the
dictionaries when only the dictionaries' own handle is left.  The state here is that of the
dictionaries together with all handles on named atoms.
-/

namespace Cnars

/-- A named atom: where it was allocated, the name it was created under, and whether it is an
`Operation`.  Name and kind are recorded for stating properties; the code keeps the name only in the
dictionaries. -/
structure Named where
  addr : Word
  name : String
  isOp : Bool
deriving DecidableEq

/-- The dictionaries and the handles.  Named atoms are numbered in the order of their creation.  A
handle of a user (a variable, a component of a compound, a heap object made by `atom_term`) is the
number of its atom.  The handle that the dictionaries point to is created with the atom by `new
pTerm(new Term(), …)` and is identified by the same number; `dictH` has those not deleted yet,
whether or not a dictionary still points to them. -/
structure World where
  store : Store Nat
  atoms : List Named
  handles : List Nat
  dictH : List Nat

namespace World

/-- Nothing created yet. -/
def init : World := ⟨Store.init, [], [], []⟩

/-- `use_count()` of the handles on atom `t`. -/
def useCount (w : World) (t : Nat) : Nat := w.handles.count t + w.dictH.count t

/-- The dictionary key of atom `t`: its hash value, converted to `int`. -/
def key (w : World) (t : Nat) : Key :=
  match w.atoms[t]? with
  | some a => keyOf (Term.atomHash a.addr)
  | none => 0#32

/-- `Interpreter::remove` (Interpreter.hpp:71-95) with the destructor that `delete ptr` runs
(Term.inl:44-52), which comes back to `remove` if it sees two uses.  Fuel is the depth of that
recursion. -/
def removeF : Nat → World → Key → Res World
  | 0, _, _ => .outOfFuel
  | fuel + 1, w, k =>
    match w.store.startRemove k with
    | (false, _, _) => .ok w
    | (true, s, none) => .ok { w with store := s }
    | (true, s, some none) => .ok { w with store := s.finishRemove k }
    | (true, s, some (some h)) =>
      if h ∈ w.dictH then do
        let w := { w with store := s }
        let w ← if w.useCount h = 2 then removeF fuel w (w.key h) else .ok w
        if h ∈ w.dictH then
          .ok { w with dictH := w.dictH.erase h, store := w.store.finishRemove k }
        else .ub
      else .ub

/-- Fuel enough for any nesting: every level takes an entry out of the dictionary, and there are at
most as many entries as atoms. -/
def fuel (w : World) : Nat := w.atoms.length + 2

/-- `*term` for the handle that the dictionaries have for a name (Term.cpp:31-33 and 38,
NarseseParser.cpp:426-428 and 438): a null pointer or a deleted handle is undefined behaviour. -/
def lookup (w : World) (n : String) : Res World :=
  let (k, s) := w.store.getByName n
  let (p, s) := s.getObject k
  match p with
  | none => .ub
  | some h => if h ∈ w.dictH then .ok { w with store := s, handles := w.handles ++ [h] } else .ub

/-- The new atom of `Term::create`, `atom_term` and `operation`; the allocator answers `addr`. -/
def alloc (w : World) (n : String) (addr : Word) (isOp : Bool) : World :=
  { store := w.store.put (keyOf (Term.atomHash addr)) n (some w.atoms.length)
    atoms := w.atoms ++ [⟨addr, n, isOp⟩]
    handles := w.handles ++ [w.atoms.length]
    dictH := w.dictH ++ [w.atoms.length] }

/-- `Term::create` (Term.cpp:18-40) and `atom_term` (NarseseParser.cpp:421-440): the new handle is
the last one. -/
def create (w : World) (n : String) (addr : Word) : Res World :=
  if w.store.checkByName n then w.lookup n else .ok (w.alloc n addr false)

/-- `operation` (NarseseParser.cpp:455-475): it asks for `name` but looks up `^name`. -/
def operation (w : World) (n : String) (addr : Word) : Res World :=
  if w.store.checkByName n then w.lookup ("^" ++ n) else .ok (w.alloc ("^" ++ n) addr true)

/-- Copying handle `i`. -/
def copy (w : World) (i : Nat) : Res World :=
  match w.handles[i]? with
  | some t => .ok { w with handles := w.handles ++ [t] }
  | none => .ub

/-- `pTerm::~pTerm` (Term.inl:44-52) on handle `i`. -/
def drop (w : World) (i : Nat) : Res World :=
  match w.handles[i]? with
  | some t => do
    let w ← if w.useCount t = 2 then w.removeF w.fuel (w.key t) else .ok w
    .ok { w with handles := w.handles.eraseIdx i }
  | none => .ub

/-- The implicit copy assignment: handle `i` becomes one on the atom of handle `j`; the old
reference goes without `~pTerm` running. -/
def assign (w : World) (i j : Nat) : Res World :=
  match w.handles[i]?, w.handles[j]? with
  | some _, some t => .ok { w with handles := w.handles.set i t }
  | _, _ => .ub

end World

/-- What can happen to handles. -/
inductive WorldOp where
  | create (n : String) (addr : Word)
  | operation (n : String) (addr : Word)
  | copy (i : Nat)
  | drop (i : Nat)
  | assign (i j : Nat)

/-- One step. -/
def World.step (w : World) : WorldOp → Res World
  | .create n a => w.create n a
  | .operation n a => w.operation n a
  | .copy i => w.copy i
  | .drop i => w.drop i
  | .assign i j => w.assign i j

/-- A history. -/
def World.run (w : World) (ops : List WorldOp) : Res World :=
  ops.foldlM World.step w

end Cnars
