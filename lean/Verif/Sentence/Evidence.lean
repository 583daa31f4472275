import Verif.Base.Hash

/-!
# `Narsese/include/Evidence.h`, `Global.h`

Evidential bases.  A `Base` object holds a `shared_ptr` to a set of ids; copies of a base share the
set.  The sets live in a heap (`World.sets`), a base refers to its set by index.
-/

namespace Cnars.Evidence
open Cnars

/-- `std::set<size_t>::insert` on the ascending list of the elements. -/
def sinsert (x : Nat) : List Nat → List Nat
  | [] => [x]
  | y :: ys => if x < y then x :: y :: ys else if x = y then y :: ys else y :: sinsert x ys

/-- A `std::set<size_t>` initialised from a list. -/
def setOf (l : List Nat) : List Nat := l.foldl (fun s x => sinsert x s) []

/-- The loop of `Base::interleave(base, base1, base2)` (Evidence.h:47-61).  `l1`, `l2` are the
elements between the iterators and the ends, `acc` is the set of `base`.  The only caller in which
`base` is one of the operands (`extend`) clears it first, so that its iterator is at the end.
With both iterators at their ends the loop would spin forever (`outOfFuel`). -/
def interleaveLoop (len : Nat) : (i : Nat) → (l1 l2 acc : List Nat) → Res (List Nat)
  | i, [], [], acc => if i < len then .outOfFuel else .ok acc
  | i, [], x2 :: l2, acc =>
    if i < len then interleaveLoop len (i + 1) [] l2 (sinsert x2 acc) else .ok acc
  | i, x1 :: l1, [], acc =>
    if i < len then interleaveLoop len (i + 1) l1 [] (sinsert x1 acc) else .ok acc
  | i, x1 :: l1, x2 :: l2, acc =>
    if i < len then interleaveLoop len (i + 2) l1 l2 (sinsert x1 (sinsert x2 acc)) else .ok acc

/-- `Base::interleave(base, base1, base2)` (Evidence.h:41-62); `cap` is
`CONFIG::maximum_evidential_base_length`. -/
def interleave3 (cap : Nat) (base base1 base2 : List Nat) : Res (List Nat) :=
  interleaveLoop (min (base1.length + base2.length) cap) 0 base1 base2 base

/-- `std::set_intersection` on two ascending ranges (used at Evidence.h:83). -/
def setIntersection : List Nat → List Nat → List Nat
  | [], _ => []
  | _ :: _, [] => []
  | x :: xs, y :: ys =>
    if x < y then setIntersection xs (y :: ys)
    else if y < x then setIntersection (x :: xs) ys
    else x :: setIntersection xs ys
termination_by xs ys => xs.length + ys.length

/-- Conversion of a `size_t` to `int`, by which `is_overlaped` collects the common ids. -/
def toInt32 (x : Nat) : Int := (BitVec.ofNat 32 x).toInt

/-- `Base::is_overlaped` (Evidence.h:78-88) on the two sets: the common ids are inserted, converted
to `int`, into a `std::set<int>`, whose emptiness is that of the list of insertions. -/
def isOverlaped (s1 s2 : List Nat) : Bool := !((setIntersection s1 s2).map toInt32).isEmpty

/-- A `Base` object (Evidence.h:20-31): index of the shared set, cached hash. -/
structure Base where
  set : Nat
  hash : Word
  isHashed : Bool
  deriving Repr, DecidableEq

/-- All live sets and bases, and the id counter (Global.h:7). -/
structure World where
  sets : List (List Nat)
  bases : List Base
  nextId : Nat
  deriving Repr, DecidableEq

def World.empty : World := ⟨[], [], 0⟩

/-- Operations of the class; bases are named by their index in `World.bases`. -/
inductive Op where
  /-- `new Base()` (Evidence.h:26-30). -/
  | new
  /-- `Base(set<size_t>)` (Evidence.h:31). -/
  | newOf (ids : List Nat)
  /-- the implicit copy constructor: shares the set, copies the cache. -/
  | copy (b : Nat)
  /-- `add` (Evidence.h:71-76). -/
  | add (b id : Nat)
  /-- `extend` (Evidence.h:33-39). -/
  | extend (b other : Nat)
  /-- `interleave(base1, base2)` (Evidence.h:64-69). -/
  | interleave (b1 b2 : Nat)
  /-- `__hash__` (Evidence.h:92-102). -/
  | hash (b : Nat)
  deriving Repr, DecidableEq

/-- Conversion of the ids to hash words. -/
def hashOf (s : List Nat) : Word := Hash.container (s.map (BitVec.ofNat 64))

/-- One operation.  Indices that do not exist are caller errors (`ub`). -/
def step (cap : Nat) (w : World) : Op → Res World
  | .new =>
    .ok { sets := w.sets ++ [[w.nextId]], nextId := (w.nextId + 1) % 2^64
          bases := w.bases ++ [⟨w.sets.length, 0, false⟩] }
  | .newOf ids =>
    .ok { w with sets := w.sets ++ [setOf ids], bases := w.bases ++ [⟨w.sets.length, 0, false⟩] }
  | .copy b => do
    let o ← Res.ofOption w.bases[b]?
    .ok { w with bases := w.bases ++ [o] }
  | .add b id => do
    let o ← Res.ofOption w.bases[b]?
    let s ← Res.ofOption w.sets[o.set]?
    .ok { w with sets := w.sets.set o.set (sinsert id s)
                 bases := w.bases.set b { o with isHashed := false } }
  | .extend b other => do
    let o ← Res.ofOption w.bases[b]?
    let p ← Res.ofOption w.bases[other]?
    let _ ← Res.ofOption w.sets[o.set]?
    -- `base1` is a copy of `*this`, so clearing the set empties it, too
    let sets := w.sets.set o.set []
    let s1 ← Res.ofOption sets[o.set]?
    let s2 ← Res.ofOption sets[p.set]?
    let r ← interleave3 cap s1 s1 s2
    .ok { w with sets := sets.set o.set r }
  | .interleave b1 b2 => do
    let o ← Res.ofOption w.bases[b1]?
    let p ← Res.ofOption w.bases[b2]?
    let s1 ← Res.ofOption w.sets[o.set]?
    let s2 ← Res.ofOption w.sets[p.set]?
    -- `new Base()` puts a fresh id into the new base before the evidence of the operands
    let r ← interleave3 cap [w.nextId] s1 s2
    .ok { sets := w.sets ++ [r], nextId := (w.nextId + 1) % 2^64
          bases := w.bases ++ [⟨w.sets.length, 0, false⟩] }
  | .hash b => do
    let o ← Res.ofOption w.bases[b]?
    let s ← Res.ofOption w.sets[o.set]?
    if o.isHashed then .ok w
    else .ok { w with bases := w.bases.set b { o with hash := hashOf s, isHashed := true } }

/-- The evidence of a base. -/
def World.evidence (w : World) (b : Nat) : Option (List Nat) := do
  let o ← w.bases[b]?
  w.sets[o.set]?

/-- The value returned by `__hash__` (Evidence.h:99-102). -/
def World.reportedHash (w : World) (b : Nat) : Option Word := do
  let o ← w.bases[b]?
  let s ← w.sets[o.set]?
  pure (if o.isHashed then o.hash else hashOf s)

/-- A history of operations. -/
def run (cap : Nat) (w : World) : List Op → Res World
  | [] => .ok w
  | o :: os => do run cap (← step cap w o) os

end Cnars.Evidence
