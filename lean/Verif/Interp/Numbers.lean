import Verif.Nal.Arith
import Mathlib.Algebra.Order.Floor.Ring
import Mathlib.Algebra.Order.Round

/-!
# The budget values of a printed task (`Interpreter::interpret(Task&)`, Interpreter.cpp:218-231)
-/

namespace Cnars

/-- A stored `double` or `float`. -/
inductive Num (K : Type) where
  | nan | posInf | negInf | fin (x : K)
  deriving DecidableEq

namespace Num

variable {K : Type} [Field K] [LinearOrder K]

/-- Conversion to `float` (Interpreter.cpp:222-224).  Numbers too large for a `float` stay finite
here; they are clamped to 0 or 1 next, as the infinities they become in the code are. -/
def toFloat (R : Rnd K) : Num K → Num K
  | fin x => fin (R.s x)
  | n => n

/-- `p >= 0 ? (p <= 1 ? p : 1) : 0` (Interpreter.cpp:225-227). -/
def clamp : Num K → K
  | nan => 0
  | posInf => 1
  | negInf => 0
  | fin x => if 0 ≤ x then (if x ≤ 1 then x else 1) else 0

variable [FloorRing K]

/-- `std::round`: to the nearest integer, halves away from zero. -/
def cround (x : K) : Int := if 0 ≤ x then ⌊x + 1 / 2⌋ else ⌈x - 1 / 2⌉

/-- `std::round(clamp(p) * 1000) / 1000` (Interpreter.cpp:225-227). -/
def shown (R : Rnd K) (n : Num K) : K :=
  R.s (R.s ((cround (R.s ((n.toFloat R).clamp * 1000)) : Int) : K) / 1000)

end Num
end Cnars
