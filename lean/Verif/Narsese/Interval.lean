import Verif.Narsese.Term

/-!
# Arithmetic on interval objects (`Narsese/include/Interval.h`)
-/

namespace Cnars
open Term

/-- `int` range. -/
def fitsInt (n : Int) : Prop := -2^31 ≤ n ∧ n < 2^31

instance (n : Int) : Decidable (fitsInt n) := inferInstanceAs (Decidable (_ ∧ _))

/-- `operator signed int` (Interval.h:30-33). -/
def intervalValue : Term → Res Int
  | .interval n _ => .ok n
  | _ => .ub

/-- `Interval::operator+` (Interval.h:35-38); signed overflow is undefined. -/
def intervalAdd (a b : Term) : Res Term := do
  let m ← intervalValue a
  let n ← intervalValue b
  if fitsInt (m + n) then return mkInterval (m + n) else .ub

/-- `Interval::operator+=` (Interval.h:40-44): the stored hash is not touched. -/
def intervalAddAssign (a b : Term) : Res Term := do
  let m ← intervalValue a
  let n ← intervalValue b
  if fitsInt (m + n) then return .interval (m + n) a.info else .ub

/-- A history of `i += j` on one object. -/
def intervalAddAssignAll : Term → List Term → Res Term
  | a, [] => .ok a
  | a, b :: bs => do
    let a ← intervalAddAssign a b
    intervalAddAssignAll a bs

/-- A history of `i = i + j`. -/
def intervalAddAll : Term → List Term → Res Term
  | a, [] => .ok a
  | a, b :: bs => do
    let a ← intervalAdd a b
    intervalAddAll a bs

end Cnars
