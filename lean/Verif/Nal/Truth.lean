import Verif.Base.Res
import Verif.Nal.Arith

/-!
# Truth values and truth functions

`Narsese/include/Truth.h`, `Narsese/include/Budget.h`, `NAL/Functions/include/*.h`.
All functions are parametrised by the rounding of `double` and `float` operations.
-/

namespace Cnars

/-- `TRUTH::Truth` (Truth.h:16-24): three `float` fields. -/
structure Truth (K : Type) where
  f : K
  c : K
  k : K
  deriving Repr, DecidableEq

variable {K : Type} [Field K] [LinearOrder K]

/-- Division; `none` stands for a result that is not a finite number (division by zero). -/
def fdiv (a b : K) : Option K := if b = 0 then none else some (a / b)

namespace Nal

variable (R : Rnd K)

/-- `And(x1,x2)` (ExtendedBooleanFunction.h:10). -/
def and2 (x1 x2 : K) : K := R.d (x1 * x2)
/-- `And(x1,x2,x3)` (ExtendedBooleanFunction.h:12); multiplication associates to the left. -/
def and3 (x1 x2 x3 : K) : K := R.d (R.d (x1 * x2) * x3)
/-- `And(x1,x2,x3,x4)` (ExtendedBooleanFunction.h:14). -/
def and4 (x1 x2 x3 x4 : K) : K := R.d (R.d (R.d (x1 * x2) * x3) * x4)
/-- `Or(x1,x2)` (ExtendedBooleanFunction.h:16). -/
def or2 (x1 x2 : K) : K := R.d (1 - R.d (R.d (1 - x1) * R.d (1 - x2)))
/-- `Or(x1,x2,x3)` (ExtendedBooleanFunction.h:18). -/
def or3 (x1 x2 x3 : K) : K :=
  R.d (1 - R.d (R.d (R.d (1 - x1) * R.d (1 - x2)) * R.d (1 - x3)))
/-- `Or(x1,x2,x3,x4)` (ExtendedBooleanFunction.h:20). -/
def or4 (x1 x2 x3 x4 : K) : K :=
  R.d (1 - R.d (R.d (R.d (R.d (1 - x1) * R.d (1 - x2)) * R.d (1 - x3)) * R.d (1 - x4)))
/-- `Or({x...})` (ExtendedBooleanFunction.h:22-26): `std::accumulate` from 1.0. -/
def orList (xs : List K) : K :=
  R.d (1 - xs.foldl (fun acc xi => R.d (acc * R.d (1 - xi))) 1)

end Nal

namespace Truth

variable (R : Rnd K)

/-- `e()` (Truth.h:26-29): `f - 0.5` is a `double`. -/
def e (t : Truth K) : K := R.d (R.d (t.c * R.d (t.f - 1 / 2)) + 1 / 2)

/-- `w()` (Truth.h:31-34): computed in `float`, then widened. -/
def w (t : Truth K) : Option K := (fdiv (R.s (t.k * t.c)) (R.s (1 - t.c))).map R.s

/-- `w_p()` (Truth.h:36-39). -/
def wp (t : Truth K) : Option K := (fdiv (R.s (R.s (t.k * t.f) * t.c)) (R.s (1 - t.c))).map R.s

/-- `w_m()` (Truth.h:41-44). -/
def wm (t : Truth K) : Option K :=
  (fdiv (R.s (R.s (t.k * R.s (1 - t.f)) * t.c)) (R.s (1 - t.c))).map R.s

/-- `set_w(w_p, w)` (Truth.h:46-50): `double` arithmetic, narrowed on assignment. -/
def setW (t : Truth K) (wp w : K) : Option (Truth K) := do
  let f ← if w > 0 then fdiv wp w else some (1 / 2)
  let c ← fdiv w (R.d (w + t.k))
  pure { f := R.s (R.d f), c := R.s (R.d c), k := t.k }

/-- `Truth(k)` (Truth.h:24) with `CONFIG::f = 1.0`, `CONFIG::c = 0.9` (Config.cpp:11-12). -/
def default (k : K) : Truth K := { f := 1, c := R.s (9 / 10), k := k }

end Truth

namespace Nal

variable (R : Rnd K)

/-- `fc_to_w` (UncertaintyMappingFunctions.h:10). -/
def fcToW (_f c k : K) : Option K := (fdiv (R.s (k * c)) (R.s (1 - c))).map R.s
/-- `fc_to_w_plus` (UncertaintyMappingFunctions.h:9). -/
def fcToWPlus (f c k : K) : Option K := (fdiv (R.s (R.s (k * f) * c)) (R.s (1 - c))).map R.s
/-- `fc_to_w_minus` (UncertaintyMappingFunctions.h:11). -/
def fcToWMinus (f c k : K) : Option K :=
  (fdiv (R.s (R.s (k * R.s (1 - f)) * c)) (R.s (1 - c))).map R.s
/-- `w_to_f` (UncertaintyMappingFunctions.h:12); the parameters are `float`. -/
def wToF (wPlus w : K) : Option K :=
  if R.s w > 1 / 100000000 then (fdiv (R.s wPlus) (R.s w)).map R.s else some 0
/-- `w_to_c` (UncertaintyMappingFunctions.h:13). -/
def wToC (w k : K) : Option K := (fdiv (R.s w) (R.s (R.s w + R.s k))).map R.s

/-- `truth_from_w` (UncertaintyMappingFunctions.h:16-30). -/
def truthFromW (wPlus w k : K) : Option (Truth K) :=
  if R.s w ≠ 0 then do
    let f ← wToF R wPlus w
    let c ← wToC R w k
    pure { f := f, c := c, k := R.s k }
  else some { f := 1 / 2, c := 0, k := R.s k }

/-- `w_from_truth` (UncertaintyMappingFunctions.h:33-40; the overload UncertaintyMappingFunctions.cpp:9-14
returns the same pair): positive and negative evidence. -/
def wFromTruth (t : Truth K) : Option (K × K) := do
  let p ← fcToWPlus R t.f t.c t.k
  let m ← fcToWMinus R t.f t.c t.k
  pure (p, m)

/-- `revision` (TruthFunctions.h:14-17): the pairs are added in `double`. -/
def revisionPair (p1 p2 m1 m2 : K) : K × K := (R.d (p1 + p2), R.d (m1 + m2))

/-- `truth_revision` (TruthFunctions.h:19-30): the new value of `truth1` (updated in place). -/
def truthRevision (t1 t2 : Truth K) : Option (Truth K) := do
  let w1 ← t1.w R
  let w2 ← t2.w R
  let p1 ← t1.wp R
  let p2 ← t2.wp R
  let w := R.d (w1 + w2)
  let wp := R.d (p1 + p2)
  let f ← wToF R wp w
  let c ← wToC R w t1.k
  pure { f := f, c := c, k := t1.k }

/-- `truth_deduction` (TruthFunctions.h:37-47). -/
def truthDeduction (t1 t2 : Truth K) : Truth K :=
  { f := R.s (and2 R t1.f t2.f), c := R.s (and4 R t1.f t2.f t1.c t2.c), k := t1.k }

/-- `truth_induction` (TruthFunctions.h:49-56): a fresh truth value with horizon 1. -/
def truthInduction (t1 t2 : Truth K) : Option (Truth K) :=
  (Truth.default R 1).setW R (and4 R t1.f t2.f t1.c t2.c) (and3 R t2.f t1.c t2.c)

/-- `truth_comparison` (TruthFunctions.h:58-65). -/
def truthComparison (t1 t2 : Truth K) : Option (Truth K) :=
  (Truth.default R 1).setW R (and4 R t1.f t2.f t1.c t2.c)
    (and3 R (or2 R t1.f t2.f) t1.c t2.c)

/-- `Budget::quality_from_truth` (Budget.h:30-34). -/
def qualityFromTruth (t : Truth K) : K :=
  max (t.e R) (R.d (R.d (1 - t.e R) * (3 / 4)))

/-- Signed 64-bit subtraction; overflow is undefined. -/
def sub64 (a b : Int) : Res Int :=
  if -2^63 ≤ a - b ∧ a - b < 2^63 then .ok (a - b) else .ub

/-- Signed 64-bit addition; overflow is undefined. -/
def add64 (a b : Int) : Res Int :=
  if -2^63 ≤ a + b ∧ a + b < 2^63 then .ok (a + b) else .ub

/-- `abs` on `int64_t` (the most negative value is undefined). -/
def abs64 (a : Int) : Res Int := if a = -2^63 then .ub else .ok |a|

/-- `project` (TemporalFunctions.h:11-17).  `decay_duration` is `size_t`, so `d`, the quotient and
`1 - k_c` are computed modulo 2^64 in unsigned integers; only the last product is a `float`. -/
def project (t : Truth K) (tSource tCurrent tTarget : Int) (decay : Nat) : Res (Truth K) := do
  let a ← abs64 (← sub64 tSource tCurrent)
  let b ← abs64 (← sub64 tTarget tCurrent)
  let ab ← add64 a b
  let d : Nat := (ab.toNat + decay) % 2^64
  let st ← abs64 (← sub64 tSource tTarget)
  let kc : Nat := if d > 0 then st.toNat / d else 0
  let oneMinus : Nat := (1 + 2^64 - kc) % 2^64
  pure { f := t.f, c := R.s (R.s (oneMinus : K) * t.c), k := t.k }

end Nal
end Cnars
