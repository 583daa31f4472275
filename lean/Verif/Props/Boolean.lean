import Verif.Nal.Lemmas
import Mathlib.Data.Rat.Defs
import Mathlib.Algebra.Order.Ring.Rat

/-!
# C61: And/Or
-/

namespace Cnars.Props
open Cnars Cnars.Nal

variable {K : Type} [Field K] [LinearOrder K] [IsStrictOrderedRing K]

/-- C61, ranges: under every sound rounding, every And/Or of numbers in [0,1] is in [0,1]. -/
theorem C61_range (R : Rnd K) (h : R.Sound) (x1 x2 x3 x4 : K) (xs : List K)
    (h1 : 0 ≤ x1 ∧ x1 ≤ 1) (h2 : 0 ≤ x2 ∧ x2 ≤ 1) (h3 : 0 ≤ x3 ∧ x3 ≤ 1) (h4 : 0 ≤ x4 ∧ x4 ≤ 1)
    (hs : ∀ x ∈ xs, 0 ≤ x ∧ x ≤ 1) :
    (0 ≤ and2 R x1 x2 ∧ and2 R x1 x2 ≤ 1) ∧
    (0 ≤ and3 R x1 x2 x3 ∧ and3 R x1 x2 x3 ≤ 1) ∧
    (0 ≤ and4 R x1 x2 x3 x4 ∧ and4 R x1 x2 x3 x4 ≤ 1) ∧
    (0 ≤ or2 R x1 x2 ∧ or2 R x1 x2 ≤ 1) ∧
    (0 ≤ or3 R x1 x2 x3 ∧ or3 R x1 x2 x3 ≤ 1) ∧
    (0 ≤ or4 R x1 x2 x3 x4 ∧ or4 R x1 x2 x3 x4 ≤ 1) ∧
    (0 ≤ orList R xs ∧ orList R xs ≤ 1) := by
  replace h1 : Unit01 x1 := h1
  replace h2 : Unit01 x2 := h2
  replace h3 : Unit01 x3 := h3
  replace h4 : Unit01 x4 := h4
  have p2 : Unit01 (R.d (x1 * x2)) := (h1.mul h2).d h
  have p3 : Unit01 (R.d (R.d (x1 * x2) * x3)) := (p2.mul h3).d h
  have q2 : Unit01 (R.d (R.d (1 - x1) * R.d (1 - x2))) :=
    ((h1.sub.d h).mul (h2.sub.d h)).d h
  have q3 := (q2.mul (h3.sub.d h)).d h
  have q4 := (q3.mul (h4.sub.d h)).d h
  exact ⟨p2, p3, (p3.mul h4).d h, q2.sub.d h, q3.sub.d h, q4.sub.d h,
    (orList_fold_unit h xs 1 ⟨zero_le_one, le_refl 1⟩ hs).sub.d h⟩

example : ((0:ℚ) ≤ 1/3 ∧ (1/3:ℚ) ≤ 1) ∧ and2 (Rnd.exact ℚ) (1/3) (1/2) = 1/6 ∧
    orList (Rnd.exact ℚ) [1/2, 1/2, 1/2] = 7/8 := by
  refine ⟨by norm_num, ?_, ?_⟩ <;> norm_num [and2, orList, Rnd.exact]

/-- C61, algebra: And is multiplication, so it is commutative and the 3- and 4-argument versions
are iterated 2-argument ones; the same for Or, where the list version agrees with all of them and
does not depend on the order; Or is the De Morgan dual of And.  Missing: the same after rounding, which
is false: `C61_rounding_counterexample` in `Verif/Props/Ieee.lean`. -/
theorem C61_algebra_partial (x1 x2 x3 x4 : K) (xs ys : List K) (hp : xs.Perm ys) :
    let E := Rnd.exact K
    and2 E x1 x2 = and2 E x2 x1 ∧
    and3 E x1 x2 x3 = and2 E (and2 E x1 x2) x3 ∧ and3 E x1 x2 x3 = and2 E x1 (and2 E x2 x3) ∧
    and4 E x1 x2 x3 x4 = and2 E (and2 E x1 x2) (and2 E x3 x4) ∧
    or2 E x1 x2 = or2 E x2 x1 ∧
    or3 E x1 x2 x3 = or2 E (or2 E x1 x2) x3 ∧ or3 E x1 x2 x3 = or2 E x1 (or2 E x2 x3) ∧
    or4 E x1 x2 x3 x4 = or2 E (or2 E x1 x2) (or2 E x3 x4) ∧
    orList E [x1, x2] = or2 E x1 x2 ∧ orList E [x1, x2, x3] = or3 E x1 x2 x3 ∧
    orList E [x1, x2, x3, x4] = or4 E x1 x2 x3 x4 ∧
    orList E xs = 1 - (xs.map (fun x => 1 - x)).prod ∧
    orList E xs = orList E ys ∧
    orList E (xs ++ ys) = or2 E (orList E xs) (orList E ys) ∧
    or2 E x1 x2 = 1 - and2 E (1 - x1) (1 - x2) := by
  have hl : ∀ zs : List K,
      orList (Rnd.exact K) zs = 1 - (zs.map (fun x => 1 - x)).prod := by
    intro zs; simp only [orList, orList_fold_exact]; simp [Rnd.exact]
  refine ⟨?_, ?_, ?_, ?_, ?_, ?_, ?_, ?_, ?_, ?_, ?_, hl xs, ?_, ?_, ?_⟩
  · simp only [and2, Rnd.exact, id]; ring
  · simp only [and2, and3, Rnd.exact, id]
  · simp only [and2, and3, Rnd.exact, id]; ring
  · simp only [and2, and4, Rnd.exact, id]; ring
  · simp only [or2, Rnd.exact, id]; ring
  · simp only [or2, or3, Rnd.exact, id]; ring
  · simp only [or2, or3, Rnd.exact, id]; ring
  · simp only [or2, or4, Rnd.exact, id]; ring
  · simp only [orList, or2, Rnd.exact, id, List.foldl]; ring
  · simp only [orList, or3, Rnd.exact, id, List.foldl]; ring
  · simp only [orList, or4, Rnd.exact, id, List.foldl]; ring
  · rw [hl, hl, (hp.map _).prod_eq]
  · rw [hl, hl, hl]; simp only [or2, Rnd.exact, id, List.map_append, List.prod_append]; ring
  · simp only [or2, and2, Rnd.exact, id]

example : [(1/2 : ℚ), 1/3].Perm [1/3, 1/2] := List.Perm.swap ..

omit [IsStrictOrderedRing K] in
/-- C61, algebra under every rounding: And and Or of two arguments are commutative, the versions for
three and four arguments are iterated ones of two, and the list version agrees with all of them; Or is the De Morgan dual of
And. -/
theorem C61_rounded (R : Rnd K) (h : R.Sound) (x1 x2 x3 x4 : K) :
    and2 R x1 x2 = and2 R x2 x1 ∧ or2 R x1 x2 = or2 R x2 x1 ∧
    and3 R x1 x2 x3 = and2 R (and2 R x1 x2) x3 ∧
    and4 R x1 x2 x3 x4 = and2 R (and2 R (and2 R x1 x2) x3) x4 ∧
    orList R [x1, x2] = or2 R x1 x2 ∧ orList R [x1, x2, x3] = or3 R x1 x2 x3 ∧
    orList R [x1, x2, x3, x4] = or4 R x1 x2 x3 x4 ∧
    or2 R x1 x2 = R.d (1 - and2 R (R.d (1 - x1)) (R.d (1 - x2))) ∧
    or3 R x1 x2 x3 = R.d (1 - and3 R (R.d (1 - x1)) (R.d (1 - x2)) (R.d (1 - x3))) ∧
    or4 R x1 x2 x3 x4 =
      R.d (1 - and4 R (R.d (1 - x1)) (R.d (1 - x2)) (R.d (1 - x3)) (R.d (1 - x4))) := by
  refine ⟨by rw [and2, mul_comm]; rfl, by rw [or2, mul_comm (R.d (1 - x1))]; rfl, rfl, rfl, ?_, ?_, ?_, rfl, rfl,
    rfl⟩ <;> simp [orList, or2, or3, or4, h.d_d]

/-- C61, order: under every sound rounding And and Or are monotone in each argument and the list
version is monotone pointwise; exactly, And is below the minimum and Or above the maximum, and for
And this survives rounding of representable numbers.  Missing: the same for Or, which is false:
`C61_rounding_counterexample` in `Verif/Props/Ieee.lean`. -/
theorem C61_order_partial (R : Rnd K) (h : R.Sound) (x x' y y' : K) (xs ys : List K)
    (hx : 0 ≤ x ∧ x ≤ 1) (hx' : 0 ≤ x' ∧ x' ≤ 1) (hy : 0 ≤ y ∧ y ≤ 1) (hy' : 0 ≤ y' ∧ y' ≤ 1)
    (hxx : x ≤ x') (hyy : y ≤ y') (hl : List.Forall₂ (· ≤ ·) xs ys)
    (hxs : ∀ x ∈ xs, 0 ≤ x ∧ x ≤ 1) (hys : ∀ y ∈ ys, 0 ≤ y ∧ y ≤ 1) :
    and2 R x y ≤ and2 R x' y' ∧ or2 R x y ≤ or2 R x' y' ∧ orList R xs ≤ orList R ys ∧
    (R.d x = x → R.d y = y → and2 R x y ≤ min x y) ∧
    and2 (Rnd.exact K) x y ≤ min x y ∧ max x y ≤ or2 (Rnd.exact K) x y := by
  refine ⟨?_, ?_, ?_, ?_, ?_, ?_⟩
  · exact h.d_mono (mul_le_mul hxx hyy hy.1 hx'.1)
  · apply h.d_mono
    have : R.d (R.d (1 - x') * R.d (1 - y')) ≤ R.d (R.d (1 - x) * R.d (1 - y)) := by
      apply h.d_mono
      exact mul_le_mul (h.d_mono (by linarith)) (h.d_mono (by linarith))
        (Unit01.d h (Unit01.sub hy')).1 (Unit01.d h (Unit01.sub hx)).1
    linarith
  · apply h.d_mono
    have := orList_fold_mono h xs ys 1 1 hl zero_le_one (le_refl _) hxs hys
    linarith
  · intro ex ey
    refine le_min ?_ ?_
    · calc R.d (x * y) ≤ R.d x := h.d_mono (mul_le_of_le_one_right hx.1 hy.2)
        _ = x := ex
    · calc R.d (x * y) ≤ R.d y := h.d_mono (mul_le_of_le_one_left hy.1 hx.2)
        _ = y := ey
  · exact le_min (mul_le_of_le_one_right hx.1 hy.2) (mul_le_of_le_one_left hy.1 hx.2)
  · have e : or2 (Rnd.exact K) x y = 1 - (1 - x) * (1 - y) := rfl
    rw [e]
    apply max_le
    · nlinarith [mul_nonneg (sub_nonneg.2 hx.2) hy.1]
    · nlinarith [mul_nonneg (sub_nonneg.2 hy.2) hx.1]

example : List.Forall₂ (· ≤ ·) [(1/4 : ℚ), 1/3] [1/2, 1/3] := by
  refine .cons (by norm_num) (.cons (by norm_num) .nil)

end Cnars.Props
