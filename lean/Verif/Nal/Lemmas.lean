import Verif.Nal.Truth
import Mathlib.Algebra.BigOperators.Group.List.Basic

/-!
# Helper lemmas for the numeric properties
-/

set_option linter.unusedSectionVars false

namespace Cnars.Props
open Cnars Cnars.Nal

variable {K : Type} [Field K] [LinearOrder K] [IsStrictOrderedRing K]

/-- The unit interval. -/
def Unit01 (x : K) : Prop := 0 ≤ x ∧ x ≤ 1

section lemmas
variable {R : Rnd K}

theorem Unit01.mul {x y : K} (hx : Unit01 x) (hy : Unit01 y) : Unit01 (x * y) :=
  ⟨mul_nonneg hx.1 hy.1, mul_le_one₀ hx.2 hy.1 hy.2⟩

theorem Unit01.sub {x : K} (hx : Unit01 x) : Unit01 (1 - x) :=
  ⟨sub_nonneg.2 hx.2, by linarith [hx.1]⟩

theorem Unit01.d (h : R.Sound) {x : K} (hx : Unit01 x) : Unit01 (R.d x) := h.d_unit hx
theorem Unit01.s (h : R.Sound) {x : K} (hx : Unit01 x) : Unit01 (R.s x) := h.s_unit hx

theorem orList_fold_unit (h : R.Sound) (xs : List K) (acc : K) (ha : Unit01 acc)
    (hx : ∀ x ∈ xs, Unit01 x) :
    Unit01 (xs.foldl (fun acc xi => R.d (acc * R.d (1 - xi))) acc) := by
  induction xs generalizing acc with
  | nil => simpa using ha
  | cons x xs ih =>
    refine ih _ ?_ (fun y hy => hx y (List.mem_cons_of_mem _ hy))
    exact (ha.mul ((hx x (List.mem_cons_self ..)).sub.d h)).d h

theorem orList_fold_exact (xs : List K) (acc : K) :
    xs.foldl (fun acc xi => (Rnd.exact K).d (acc * (Rnd.exact K).d (1 - xi))) acc
      = acc * (xs.map (fun x => 1 - x)).prod := by
  induction xs generalizing acc with
  | nil => simp
  | cons x xs ih => simp only [List.foldl_cons, ih]; simp [Rnd.exact, mul_assoc]

theorem orList_fold_mono (h : R.Sound) :
    ∀ (xs ys : List K) (a b : K), List.Forall₂ (· ≤ ·) xs ys → 0 ≤ b → b ≤ a →
      (∀ x ∈ xs, Unit01 x) → (∀ y ∈ ys, Unit01 y) →
      ys.foldl (fun acc xi => R.d (acc * R.d (1 - xi))) b
        ≤ xs.foldl (fun acc xi => R.d (acc * R.d (1 - xi))) a := by
  intro xs ys a b hxy
  induction hxy generalizing a b with
  | nil => intro _ hab _ _; simpa using hab
  | @cons x y xs ys hle _ ih =>
    intro hb hab hx hy
    have hx0 := hx x (List.mem_cons_self ..)
    have hy0 := hy y (List.mem_cons_self ..)
    simp only [List.foldl_cons]
    refine ih _ _ ?_ ?_ (fun z hz => hx z (List.mem_cons_of_mem _ hz))
      (fun z hz => hy z (List.mem_cons_of_mem _ hz))
    · exact h.d_nonneg (mul_nonneg hb (hy0.sub.d h).1)
    · apply h.d_mono
      exact mul_le_mul hab (h.d_mono (by linarith)) (hy0.sub.d h).1 (le_trans hb hab)

end lemmas

end Cnars.Props
