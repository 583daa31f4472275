import Mathlib.Algebra.Order.Field.Basic
import Mathlib.Order.Interval.Set.Basic
import Mathlib.Order.Monotone.Basic
import Mathlib.Tactic.Linarith
import Mathlib.Tactic.Positivity
import Mathlib.Tactic.FieldSimp
import Mathlib.Tactic.Ring
import Mathlib.Tactic.NormNum

/-!
# Floating-point arithmetic

Numbers live in an arbitrary linearly ordered field `K`; every `double` operation is followed by
the rounding `R.d`, every `float` operation (and every narrowing to `float`) by `R.s`.
`Rnd.exact` does not round.  A theorem for all `R` with `R.Sound` holds for every IEEE-754 rounding
mode as long as no operation overflows; a theorem about `Rnd.exact` is about the real-number
function.  Infinities and NaNs are not values of `K`: division by zero is `none`.
-/

namespace Cnars

/-- A pair of rounding functions, for `double` and for `float`. -/
structure Rnd (K : Type*) where
  d : K → K
  s : K → K

namespace Rnd

variable {K : Type*} [Field K] [LinearOrder K]

/-- Exact arithmetic. -/
def exact (K : Type*) : Rnd K := ⟨id, id⟩

/-- What is used about rounding: it is monotone, leaves 0, 1, 1/2 and -1/2 alone, is
idempotent, every `float` is a `double`, and the double of a `double` in [0,1] is a `double`. -/
structure Sound (R : Rnd K) : Prop where
  d_mono : Monotone R.d
  s_mono : Monotone R.s
  d_zero : R.d 0 = 0
  d_one : R.d 1 = 1
  d_half : R.d (1 / 2) = 1 / 2
  d_neg_half : R.d (-(1 / 2)) = -(1 / 2)
  s_zero : R.s 0 = 0
  s_one : R.s 1 = 1
  s_half : R.s (1 / 2) = 1 / 2
  d_s : ∀ x, R.d (R.s x) = R.s x
  s_s : ∀ x, R.s (R.s x) = R.s x
  d_d : ∀ x, R.d (R.d x) = R.d x
  d_dbl : ∀ x, 0 ≤ x → x ≤ 1 → R.d x = x → R.d (x + x) = x + x

theorem exact_sound : (exact K).Sound where
  d_mono := monotone_id
  s_mono := monotone_id
  d_zero := rfl
  d_one := rfl
  d_half := rfl
  d_neg_half := rfl
  s_zero := rfl
  s_one := rfl
  s_half := rfl
  d_s := fun _ => rfl
  s_s := fun _ => rfl
  d_d := fun _ => rfl
  d_dbl := fun _ _ _ _ => rfl

variable {R : Rnd K}

theorem Sound.d_unit (h : R.Sound) {x : K} (hx : 0 ≤ x ∧ x ≤ 1) : 0 ≤ R.d x ∧ R.d x ≤ 1 :=
  ⟨h.d_zero ▸ h.d_mono hx.1, h.d_one ▸ h.d_mono hx.2⟩

theorem Sound.s_unit (h : R.Sound) {x : K} (hx : 0 ≤ x ∧ x ≤ 1) : 0 ≤ R.s x ∧ R.s x ≤ 1 :=
  ⟨h.s_zero ▸ h.s_mono hx.1, h.s_one ▸ h.s_mono hx.2⟩

theorem Sound.d_nonneg (h : R.Sound) {x : K} (hx : 0 ≤ x) : 0 ≤ R.d x :=
  h.d_zero ▸ h.d_mono hx

theorem Sound.s_nonneg (h : R.Sound) {x : K} (hx : 0 ≤ x) : 0 ≤ R.s x :=
  h.s_zero ▸ h.s_mono hx

end Rnd
end Cnars
