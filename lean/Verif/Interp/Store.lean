import Verif.Base.Hash

/-!
# The dictionaries of `INTERPRETER::Interpreter` (Interpreter/include/Interpreter.hpp:33-165)

All member functions take the key as `int`; the maps are keyed by `size_t`, to which the `int` is
sign-extended.  So the maps are functions of the low 32 bits, and a key is a `BitVec 32` here.
-/

namespace Cnars

/-- A key as the member functions see it. -/
abbrev Key := BitVec 32

/-- The implicit conversion of a hash value to the parameter `int key`. -/
def keyOf (hash : Word) : Key := hash.setWidth 32

/-- A `std::map`; `none` is absence. -/
abbrev Map (α β : Type) := α → Option β

namespace Map

def empty {α β : Type} : Map α β := fun _ => none

/-- `m[k] = v`. -/
def set {α β : Type} [DecidableEq α] (m : Map α β) (k : α) (v : β) : Map α β :=
  fun x => if x = k then some v else m x

/-- `m.erase(k)`. -/
def erase {α β : Type} [DecidableEq α] (m : Map α β) (k : α) : Map α β :=
  fun x => if x = k then none else m x

variable {α β : Type} [DecidableEq α]

@[simp] theorem set_self (m : Map α β) (k : α) (v : β) : m.set k v k = some v := by simp [set]
theorem set_ne (m : Map α β) {k x : α} (v : β) (h : x ≠ k) : m.set k v x = m x := by simp [set, h]
theorem set_apply (m : Map α β) (k x : α) (v : β) :
    m.set k v x = if x = k then some v else m x := rfl
@[simp] theorem erase_self (m : Map α β) (k : α) : m.erase k k = none := by simp [erase]
theorem erase_ne (m : Map α β) {k x : α} (h : x ≠ k) : m.erase k x = m x := by simp [erase, h]
theorem erase_apply (m : Map α β) (k x : α) :
    m.erase k x = if x = k then none else m x := rfl

end Map

/-- The four maps (Interpreter.hpp:36-39).  `P` is the type of the objects pointed to; the entries of
`objects` are pointers that may be null.  Counts are unbounded here. -/
structure Store (P : Type) where
  dict : Map Key String
  objs : Map Key (Option P)
  inv : Map String Key
  count : Map Key Int

namespace Store
variable {P : Type}

/-- An interpreter with empty maps. -/
def init : Store P := ⟨Map.empty, Map.empty, Map.empty, Map.empty⟩

/-- `check` (Interpreter.hpp:52). -/
def check (s : Store P) (k : Key) : Bool := (s.dict k).isSome

/-- `check_by_name` (Interpreter.hpp:53). -/
def checkByName (s : Store P) (n : String) : Bool := (s.inv n).isSome

/-- `check_count` (Interpreter.hpp:54-69): the answer, and the state afterwards (a zero count is
erased). -/
def checkCount (s : Store P) (k : Key) : Int × Store P :=
  match s.count k with
  | none => (0, s)
  | some c => (c, if c = 0 then { s with count := s.count.erase k } else s)

/-- `put` (Interpreter.hpp:41-47).  In `count[key] = …` the right-hand side is evaluated first
(C++17). -/
def put (s : Store P) (k : Key) (n : String) (p : Option P) : Store P :=
  let s := { s with dict := s.dict.set k n, objs := s.objs.set k p, inv := s.inv.set n k }
  let (c, s) := s.checkCount k
  { s with count := s.count.set k (if c = 0 then 1 else (s.count k).getD 0 + 1) }

/-- `get` (Interpreter.hpp:49): `map::operator[]` inserts the empty string if there is none. -/
def get (s : Store P) (k : Key) : String × Store P :=
  match s.dict k with
  | some n => (n, s)
  | none => ("", { s with dict := s.dict.set k "" })

/-- `get_object` (Interpreter.hpp:50): inserts a null pointer if there is none. -/
def getObject (s : Store P) (k : Key) : Option P × Store P :=
  match s.objs k with
  | some p => (p, s)
  | none => (none, { s with objs := s.objs.set k none })

/-- `get_by_name` (Interpreter.hpp:51): inserts 0 if there is none. -/
def getByName (s : Store P) (n : String) : Key × Store P :=
  match s.inv n with
  | some k => (k, s)
  | none => (0, { s with inv := s.inv.set n 0 })

/-- `remove` (Interpreter.hpp:71-95) up to `delete ptr`: the answer, the state at that point and the
pointer to delete.  `remove` ends with `objects.erase(key)`, see `finishRemove`. -/
def startRemove (s : Store P) (k : Key) : Bool × Store P × Option (Option P) :=
  match s.dict k with
  | none => (false, s, none)
  | some n =>
    (true, { s with
        dict := s.dict.erase k
        count := s.count.erase k
        inv := if (s.inv n).isSome then s.inv.erase n else s.inv }, s.objs k)

/-- The last statement of `remove` (Interpreter.hpp:87). -/
def finishRemove (s : Store P) (k : Key) : Store P := { s with objs := s.objs.erase k }

/-- `remove` when the destructor of the deleted handle does not come back to the interpreter (or
finds nothing to remove). -/
def remove (s : Store P) (k : Key) : Bool × Store P :=
  match s.startRemove k with
  | (b, s, some _) => (b, s.finishRemove k)
  | (b, s, none) => (b, s)

/-- `remove_by_name` (Interpreter.hpp:96-119), with the same remark. -/
def removeByName (s : Store P) (n : String) : Bool × Store P :=
  match s.inv n with
  | none => (false, s)
  | some k =>
    let s := { s with inv := s.inv.erase n }
    if s.check k then
      (true, { s with
        dict := s.dict.erase k, count := s.count.erase k, objs := s.objs.erase k })
    else (true, s)

/-- `erase` (Interpreter.hpp:121-136). -/
def erase (s : Store P) (k : Key) : Bool × Store P :=
  match s.checkCount k with
  | (c, s) =>
    if 0 < c then
      let s := { s with count := s.count.set k (c - 1) }
      if c - 1 = 0 then (true, (s.remove k).2) else (true, s)
    else (false, s)

end Store

/-- The operations on the dictionaries. -/
inductive StoreOp (P : Type) where
  | put (k : Key) (n : String) (p : Option P)
  | get (k : Key)
  | getObject (k : Key)
  | getByName (n : String)
  | remove (k : Key)
  | removeByName (n : String)
  | erase (k : Key)
  | checkCount (k : Key)

/-- The state after one operation. -/
def Store.step {P : Type} (s : Store P) : StoreOp P → Store P
  | .put k n p => s.put k n p
  | .get k => (s.get k).2
  | .getObject k => (s.getObject k).2
  | .getByName n => (s.getByName n).2
  | .remove k => (s.remove k).2
  | .removeByName n => (s.removeByName n).2
  | .erase k => (s.erase k).2
  | .checkCount k => (s.checkCount k).2

/-- The state after a history. -/
def Store.run {P : Type} (s : Store P) (ops : List (StoreOp P)) : Store P := ops.foldl Store.step s

end Cnars
