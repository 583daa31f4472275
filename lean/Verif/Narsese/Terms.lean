import Verif.Narsese.Term

/-!
# Component lists: class `Terms` (Term.h:310-498)

`std::set<pTerm, compare>` is modelled by the list of its elements in ascending order.  The standard
gives insertion a meaning only if the comparator is a strict weak order; here an insertion is `ub`
as soon as the answers of the comparator on the new element and *any* present element contradict
such an order.  When they do not, every search strategy finds the same place, so the result is
determined.
-/

namespace Cnars
open Term

/-- All elements are strictly above `x`; anything else contradicts the order. -/
def checkAbove (x : Term) : List Term → Res Unit
  | [] => .ok ()
  | z :: zs => do
    let xz ← lt x z
    let zx ← lt z x
    if xz && !zx then checkAbove x zs else .ub

/-- `std::set::insert`. -/
def setInsert (x : Term) : List Term → Res (List Term)
  | [] => .ok [x]
  | y :: ys => do
    let yx ← lt y x
    let xy ← lt x y
    if yx && xy then .ub
    else if yx then do
      let r ← setInsert x ys
      return y :: r
    else if xy then do
      checkAbove x ys
      return x :: y :: ys
    else do
      checkAbove x ys
      return y :: ys

/-- Inserting a sequence of elements one after the other. -/
def setInsertAll : List Term → List Term → Res (List Term)
  | [], s => .ok s
  | x :: xs, s => do
    let s ← setInsert x s
    setInsertAll xs s

/-- `Terms` (Term.h:324-335): `items` is `terms_unordered` if the flag is set and `terms_ordered`
otherwise; the other container stays empty. -/
structure Terms where
  comm : Bool
  items : List Term

namespace Terms

/-- The member `terms_unordered`. -/
def unordered (t : Terms) : List Term := if t.comm then t.items else []

/-- `push_back` (Term.h:439-445). -/
def pushBack (t : Terms) (x : Term) : Res Terms :=
  if t.comm then do
    let s ← setInsert x t.items
    return ⟨true, s⟩
  else return ⟨false, t.items ++ [x]⟩

/-- `fill_terms` (Term.h:480-497), as used by all constructors (Term.h:338-360). -/
def ofList (comm : Bool) (xs : List Term) : Res Terms :=
  if comm then do
    let s ← setInsertAll xs []
    return ⟨true, s⟩
  else return ⟨false, xs⟩

/-- `std::set_union` under the comparator: copies from the first range the elements that are not
above the head of the second. -/
def mergeUnion : List Term → List Term → Res (List Term)
  | [], ys => .ok ys
  | x :: xs, [] => .ok (x :: xs)
  | x :: xs, y :: ys => do
    if ← lt x y then
      let r ← mergeUnion xs (y :: ys)
      return x :: r
    else if ← lt y x then
      let r ← mergeUnion (x :: xs) ys
      return y :: r
    else
      let r ← mergeUnion xs ys
      return x :: r
termination_by xs ys => xs.length + ys.length

/-- `std::set_intersection` under the comparator. -/
def mergeInter : List Term → List Term → Res (List Term)
  | [], _ => .ok []
  | _ :: _, [] => .ok []
  | x :: xs, y :: ys => do
    if ← lt x y then mergeInter xs (y :: ys)
    else if ← lt y x then mergeInter (x :: xs) ys
    else
      let r ← mergeInter xs ys
      return x :: r
termination_by xs ys => xs.length + ys.length

/-- `std::set_difference` under the comparator. -/
def mergeDiff : List Term → List Term → Res (List Term)
  | [], _ => .ok []
  | x :: xs, [] => .ok (x :: xs)
  | x :: xs, y :: ys => do
    if ← lt x y then
      let r ← mergeDiff xs (y :: ys)
      return x :: r
    else if ← lt y x then mergeDiff (x :: xs) ys
    else mergeDiff xs ys
termination_by xs ys => xs.length + ys.length

/-- The loop shared by `intersection`, `union_` and `difference`: each operand must be commutative;
the result of the algorithm is inserted into a fresh set (`std::inserter`). -/
def foldOp (op : List Term → List Term → Res (List Term)) : List Term → List Terms → Res (List Term)
  | acc, [] => .ok acc
  | acc, t :: ts =>
    if !t.comm then .throw "Each `Terms` should be commutative."
    else do
      let r ← op acc t.items
      let temp ← setInsertAll r []
      foldOp op temp ts

/-- The common shape of the three functions: the first operand's `terms_unordered` is taken
*without* looking at its flag. -/
def setOp (op : List Term → List Term → Res (List Term)) : List Terms → Res Terms
  | [] => .throw "Empty input."
  | t :: ts => do
    let r ← foldOp op t.unordered ts
    ofList true r

/-- `Terms::intersection` (Term.h:373-393). -/
def intersection (ts : List Terms) : Res Terms := setOp mergeInter ts
/-- `Terms::union_` (Term.h:395-415). -/
def union (ts : List Terms) : Res Terms := setOp mergeUnion ts
/-- `Terms::difference` (Term.h:417-437). -/
def difference (ts : List Terms) : Res Terms := setOp mergeDiff ts

end Terms
end Cnars
