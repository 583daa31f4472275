import Verif.Narsese.Normalize
import Verif.Narsese.Term

/-!
# `INDEXVAR::IndexVar` with its caches and successor graph (utils/IndexVar.h, utils/IndexVar.cpp)

Tables are numbered in the order of their creation; a `pIndexVar` is such a number.  Tables are
never forgotten here (a destroyed table has no handle left and cannot be observed).  The
`shared_ptr<int>` indices are represented by their values: no code writes through them.
`predecessor` is written but never read and is left out.
-/

namespace Cnars

/-- The fields of `IndexVar` (IndexVar.h:34-43). -/
structure Tab where
  indices : List Int
  positions : List (List Nat)
  norm : Option (List Int)
  hash : BitVec 32
  hashed : Bool
  built : Bool
  succ : List Nat
  deriving Repr, DecidableEq, Inhabited

abbrev TabHeap := List Tab

namespace Tab

/-- `IndexVar()` (IndexVar.h:34-45). -/
def fresh : Tab := ⟨[], [], none, 0, false, false, []⟩

/-- `Hash{}(*normalized)` stored in an `unsigned int` (IndexVar.h:93-97). -/
def hashVal (l : List Int) : BitVec 32 := (Hash.container (l.map Word.ofInt)).setWidth 32

/-- `indices_normalized()` (IndexVar.h:80-88, IndexVar.cpp:50-61): the table afterwards. -/
def cacheNorm (t : Tab) : Tab :=
  match t.norm with
  | some _ => t
  | none => { t with norm := some (normalize t.indices) }

/-- `do_hashing()` (IndexVar.h:90-97). -/
def doHash (t : Tab) : Tab :=
  let t := t.cacheNorm
  { t with hash := hashVal (t.norm.getD []), hashed := true }

/-- `__hash__()` (IndexVar.h:99-102): the table afterwards; the answer is its field `hash`. -/
def rehash (t : Tab) : Tab := if t.hashed then t else t.doHash

end Tab

namespace TabHeap

/-- Dereferencing a handle. -/
def get (h : TabHeap) (t : Nat) : Res Tab := Res.ofOption h[t]?

/-- The table reached by `successors[p0]->successors[p1]...` (IndexVar.cpp:133-137, 149-153); an
index out of range is undefined. -/
def walk (h : TabHeap) (t : Nat) : List Nat → Res Nat
  | [] => .ok t
  | p :: ps => do
    let tab ← get h t
    let s ← Res.ofOption tab.succ[p]?
    walk h s ps

/-- `clone` (IndexVar.h:52-72). -/
def clone (h : TabHeap) (t : Nat) : Res TabHeap := do
  let tab ← get h t
  return h ++ [{ tab with built := false, succ := [] }]

/-- `connect` (IndexVar.cpp:63-88).  With `generate_pos` the vector `son->indices` is inserted into
itself through the reference `indices`, which is undefined unless it is empty. -/
def connect (h : TabHeap) (f s : Nat) (gen : Bool) : Res TabHeap := do
  let ft ← get h f
  let st ← get h s
  let ft' : Tab := { ft with hashed := false, built := false, norm := none, succ := ft.succ ++ [s] }
  let h := h.set f ft'
  if !gen then return h
  else if st.indices ≠ [] then .ub
  else
    let st ← get h s
    let ps := st.positions.map (ft.succ.length :: ·) ++ st.positions
    return h.set f { ft' with positions := ft'.positions ++ ps }

/-- The contents of the table `t` after appending those of its `b`-th successor `s`
(IndexVar.cpp:104-113). -/
def append (h : TabHeap) (t b s : Nat) : Res TabHeap := do
  let st ← get h s
  let tt ← get h t
  return h.set t { tt with
    indices := tt.indices ++ st.indices
    positions := tt.positions ++ st.positions.map (b :: ·) }

/-- The loop over the successors (IndexVar.cpp:101-114); `rec` is `successors[bias_pos]->build`. -/
def buildLoop (rec : TabHeap → Nat → Res TabHeap) (h : TabHeap) (t b : Nat) :
    List Nat → Res TabHeap
  | [] => .ok h
  | s :: ss => do
    let h ← rec h s
    let h ← append h t b s
    buildLoop rec h t (b + 1) ss

/-- `build` (IndexVar.cpp:90-118).  The recursion over the successors need not end if they form a
cycle: the first argument bounds its depth. -/
def buildF : Nat → Bool → TabHeap → Nat → Res TabHeap
  | 0, _, _, _ => .outOfFuel
  | n + 1, rebuild, h, t => do
    let tab ← get h t
    if !rebuild && tab.built then return h
    else
      let h := if tab.succ ≠ [] then h.set t { tab with indices := [], positions := [] } else h
      let h ← buildLoop (buildF n rebuild) h t 0 tab.succ
      let tab ← get h t
      return h.set t ({ tab with built := true }.rehash)

/-- `add` (IndexVar.cpp:120-142). -/
def add (h : TabHeap) (t : Nat) (idx : Int) (path : List Nat) : Res TabHeap := do
  let tab ← get h t
  let tab := { tab with hashed := false, norm := none }
  let tab := if path = [] then { tab with indices := [], positions := [] } else tab
  let h := h.set t tab
  let s ← walk h t path
  let st ← get h s
  return h.set s { st with positions := st.positions ++ [[]], indices := st.indices ++ [idx] }

/-- `remove` (IndexVar.cpp:144-156). -/
def remove (h : TabHeap) (t : Nat) (path : List Nat) : Res TabHeap := do
  let tab ← get h t
  let h := h.set t { tab with hashed := false, norm := none }
  let s ← walk h t path
  let st ← get h s
  return h.set s { st with positions := [], indices := [] }

end TabHeap

/-- The operations on tables. -/
inductive TabOp where
  | create
  | clone (t : Nat)
  | connect (f s : Nat) (gen : Bool)
  /-- `build(rebuild)` with recursion of depth at most `fuel`. -/
  | build (fuel : Nat) (rebuild : Bool) (t : Nat)
  | add (t : Nat) (idx : Int) (path : List Nat)
  | remove (t : Nat) (path : List Nat)
  /-- `indices_normalized()`. -/
  | readNorm (t : Nat)
  /-- `__hash__()`. -/
  | readHash (t : Nat)
  /-- `_is_built = true` (Term.h:184-193). -/
  | markBuilt (t : Nat)

open TabHeap in
/-- One operation. -/
def tabStep (h : TabHeap) : TabOp → Res TabHeap
  | .create => .ok (h ++ [Tab.fresh])
  | .clone t => TabHeap.clone h t
  | .connect f s gen => TabHeap.connect h f s gen
  | .build fuel rebuild t => buildF fuel rebuild h t
  | .add t idx path => TabHeap.add h t idx path
  | .remove t path => TabHeap.remove h t path
  | .readNorm t => do let tab ← get h t; return h.set t tab.cacheNorm
  | .readHash t => do let tab ← get h t; return h.set t tab.rehash
  | .markBuilt t => do let tab ← get h t; return h.set t { tab with built := true }

/-- A history of operations. -/
def tabRun (h : TabHeap) : List TabOp → Res TabHeap
  | [] => .ok h
  | op :: ops => do let h ← tabStep h op; tabRun h ops

/-- What `indices_normalized()` answers in a state. -/
def TabHeap.reportedNorm (h : TabHeap) (t : Nat) : Res (List Int) := do
  let tab ← h.get t
  return tab.cacheNorm.norm.getD []

/-- What `__hash__()` answers in a state. -/
def TabHeap.reportedHash (h : TabHeap) (t : Nat) : Res (BitVec 32) := do
  let tab ← h.get t
  return tab.rehash.hash

end Cnars
