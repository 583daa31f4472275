import Verif.Nal.Ieee
import Verif.Nal.Truth

/-!
# Relative errors

A calculus of relative errors in units of the last place of `float`, for the bounds in
`Props/Errors.lean`.  Nothing of `/repo` is modelled here.
-/

namespace Cnars.Ieee
open Cnars Cnars.Nal

/-- What one rounding to `float` leaves of a number at least. -/
def keep : ℚ := 1 - 1 / 2 ^ 24

theorem keep_pos : 0 < keep := by norm_num [keep]
theorem keep_le : keep ≤ 1 := by norm_num [keep]
theorem keep_pow_pos (n : Nat) : 0 < keep ^ n := pow_pos keep_pos n
theorem keep_pow_le (n : Nat) : keep ^ n ≤ 1 := pow_le_one₀ keep_pos.le keep_le

/-- Two numbers that are not negative and differ as if by `n` roundings. -/
structure Close (n : Nat) (x y : ℚ) : Prop where
  left : 0 ≤ x
  right : 0 ≤ y
  low : y * keep ^ n ≤ x
  high : x * keep ^ n ≤ y

namespace Close

theorem refl {x : ℚ} (h : 0 ≤ x) : Close 0 x x := ⟨h, h, by simp, by simp⟩

theorem symm {n : Nat} {x y : ℚ} (h : Close n x y) : Close n y x := ⟨h.right, h.left, h.high, h.low⟩

theorem mono {n m : Nat} {x y : ℚ} (h : Close n x y) (hn : n ≤ m) : Close m x y := by
  have := pow_le_pow_of_le_one keep_pos.le keep_le hn
  exact ⟨h.left, h.right, (mul_le_mul_of_nonneg_left this h.right).trans h.low,
    (mul_le_mul_of_nonneg_left this h.left).trans h.high⟩

theorem trans {n m : Nat} {x y z : ℚ} (h : Close n x y) (g : Close m y z) : Close (n + m) x z := by
  refine ⟨h.left, g.right, ?_, ?_⟩
  · rw [Nat.add_comm, pow_add, ← mul_assoc]
    exact (mul_le_mul_of_nonneg_right g.low (keep_pow_pos n).le).trans h.low
  · rw [pow_add, ← mul_assoc]
    exact (mul_le_mul_of_nonneg_right h.high (keep_pow_pos m).le).trans g.high

theorem mul {n m : Nat} {x y x' y' : ℚ} (h : Close n x y) (g : Close m x' y') :
    Close (n + m) (x * x') (y * y') := by
  refine ⟨mul_nonneg h.left g.left, mul_nonneg h.right g.right, ?_, ?_⟩
  · rw [pow_add, mul_mul_mul_comm]
    exact mul_le_mul h.low g.low (mul_nonneg g.right (keep_pow_pos m).le) h.left
  · rw [pow_add, mul_mul_mul_comm]
    exact mul_le_mul h.high g.high (mul_nonneg g.left (keep_pow_pos m).le) h.right

theorem pos {n : Nat} {x y : ℚ} (h : Close n x y) (hy : 0 < y) : 0 < x :=
  lt_of_lt_of_le (mul_pos hy (keep_pow_pos n)) h.low

theorem inv {n : Nat} {x y : ℚ} (h : Close n x y) (hy : 0 < y) : Close n x⁻¹ y⁻¹ := by
  have hx := h.pos hy
  refine ⟨(inv_pos.mpr hx).le, (inv_pos.mpr hy).le, ?_, ?_⟩
  · rw [inv_mul_le_iff₀ hy, le_mul_inv_iff₀ hx, mul_comm]
    exact h.high
  · rw [inv_mul_le_iff₀ hx, le_mul_inv_iff₀ hy, mul_comm]
    exact h.low

theorem div {n m : Nat} {x y x' y' : ℚ} (h : Close n x y) (g : Close m x' y') (hy : 0 < y') :
    Close (n + m) (x / x') (y / y') := by
  rw [div_eq_mul_inv, div_eq_mul_inv]
  exact h.mul (g.inv hy)

theorem add {n : Nat} {x y x' y' : ℚ} (h : Close n x y) (g : Close n x' y') :
    Close n (x + x') (y + y') :=
  ⟨add_nonneg h.left g.left, add_nonneg h.right g.right,
    by rw [add_mul]; exact add_le_add h.low g.low, by rw [add_mul]; exact add_le_add h.high g.high⟩

/-- Confidence is less sensitive than evidence. -/
theorem ratio {n : Nat} {w W k : ℚ} (h : Close n w W) (hk : 0 < k) :
    Close n (w / (w + k)) (W / (W + k)) := by
  have hw : 0 < w + k := add_pos_of_nonneg_of_pos h.left hk
  have hW : 0 < W + k := add_pos_of_nonneg_of_pos h.right hk
  have hq := keep_pow_le n
  have hq0 := (keep_pow_pos n).le
  refine ⟨div_nonneg h.left hw.le, div_nonneg h.right hW.le, ?_, ?_⟩
  · rw [div_mul_eq_mul_div, div_le_div_iff₀ hW hw]
    have h1 := mul_le_mul_of_nonneg_right h.low hk.le
    have h2 := mul_le_mul_of_nonneg_right hq (mul_nonneg h.right h.left)
    linarith
  · rw [div_mul_eq_mul_div, div_le_div_iff₀ hw hW]
    have h1 := mul_le_mul_of_nonneg_right h.high hk.le
    have h2 := mul_le_mul_of_nonneg_right hq (mul_nonneg h.right h.left)
    linarith

/-- At least half is left. -/
theorem half {n : Nat} {x y : ℚ} (h : Close n x y) (hn : n ≤ 15) : y / 2 ≤ x := by
  have h1 := (h.mono hn).low
  have h2 : (1 / 2 : ℚ) ≤ keep ^ 15 := by norm_num [keep]
  have h3 := mul_le_mul_of_nonneg_left h2 h.right
  linarith

theorem bound7 {x y : ℚ} (h : Close 7 x y) : |x - y| ≤ y / 2 ^ 21 := by
  have h1 : (1 - 1 / 2 ^ 21 : ℚ) ≤ keep ^ 7 := by norm_num [keep]
  have h2 : 1 ≤ (1 + 1 / 2 ^ 21 : ℚ) * keep ^ 7 := by norm_num [keep]
  have h3 := mul_le_mul_of_nonneg_left h1 h.right
  have h4 := mul_le_mul_of_nonneg_left h2 h.left
  have h5 := mul_le_mul_of_nonneg_right h.high (show (0 : ℚ) ≤ 1 + 1 / 2 ^ 21 by norm_num)
  rw [abs_le]
  constructor
  · linarith [h.low]
  · linarith

theorem bound15 {x y : ℚ} (h : Close 15 x y) : |x - y| ≤ y / 2 ^ 20 := by
  have h1 : (1 - 1 / 2 ^ 20 : ℚ) ≤ keep ^ 15 := by norm_num [keep]
  have h2 : 1 ≤ (1 + 1 / 2 ^ 20 : ℚ) * keep ^ 15 := by norm_num [keep]
  have h3 := mul_le_mul_of_nonneg_left h1 h.right
  have h4 := mul_le_mul_of_nonneg_left h2 h.left
  have h5 := mul_le_mul_of_nonneg_right h.high (show (0 : ℚ) ≤ 1 + 1 / 2 ^ 20 by norm_num)
  rw [abs_le]
  constructor
  · linarith [h.low]
  · linarith

end Close

theorem close_of_err {x y : ℚ} (h : |y - x| ≤ 1 / 2 ^ 24 * x) (hx : 0 ≤ x) : Close 1 y x := by
  rw [abs_le] at h
  have hu : (1 / 2 ^ 24 : ℚ) ≤ 1 := by norm_num
  have h1 := mul_le_mul_of_nonneg_right hu hx
  refine ⟨by linarith, hx, ?_, ?_⟩ <;> rw [pow_one, keep]
  · linarith
  · have h2 := mul_le_mul_of_nonneg_right (show y ≤ x + 1 / 2 ^ 24 * x by linarith)
      (show (0 : ℚ) ≤ 1 - 1 / 2 ^ 24 by norm_num)
    have h3 : (x + 1 / 2 ^ 24 * x) * (1 - 1 / 2 ^ 24) = x - 1 / 2 ^ 48 * x := by ring
    have h4 : 0 ≤ (1 / 2 ^ 48 : ℚ) * x := mul_nonneg (by norm_num) hx
    linarith

/-- Zero, or not below the smallest normal `float`. -/
def Normal (x : ℚ) : Prop := x = 0 ∨ 1 / 2 ^ 126 ≤ x

theorem Normal.nonneg {x : ℚ} (h : Normal x) : 0 ≤ x := by
  rcases h with rfl | h
  · rfl
  · exact le_trans (by norm_num) h

theorem close_s {x : ℚ} (h : Normal x) : Close 1 (ieee.s x) x := by
  rcases h with rfl | h
  · rw [ieee_sound.s_zero]
    exact (Close.refl le_rfl).mono (by omega)
  · have hx : 0 ≤ x := le_trans (by norm_num) h
    refine close_of_err ((ieee_err x).trans ?_) hx
    rw [abs_of_nonneg hx]
    refine max_le (le_of_eq (by rw [pow2_eq]; norm_num)) ?_
    have := mul_le_mul_of_nonneg_left h (show (0 : ℚ) ≤ 1 / 2 ^ 24 by norm_num)
    refine le_trans ?_ this
    rw [pow2_eq]
    norm_num

theorem close_d {x : ℚ} (h : Normal x) : Close 1 (ieee.d x) x := by
  rcases h with rfl | h
  · rw [ieee_sound.d_zero]
    exact (Close.refl le_rfl).mono (by omega)
  · have hx : 0 ≤ x := le_trans (by norm_num) h
    refine close_of_err ((ieee_err_d x).trans ?_) hx
    rw [abs_of_nonneg hx]
    refine max_le (mul_le_mul_of_nonneg_right (by rw [pow2_eq]; norm_num) hx) ?_
    have := mul_le_mul_of_nonneg_left h (show (0 : ℚ) ≤ 1 / 2 ^ 24 by norm_num)
    refine le_trans (le_trans (pow2_le.mpr (show (-1075 : Int) ≤ -150 by norm_num)) ?_) this
    rw [pow2_eq]
    norm_num

/-- What is close to a number far from the smallest ones is normal. -/
theorem Close.normal {n : Nat} {x y : ℚ} (h : Close n x y) (hn : n ≤ 15)
    (hy : y = 0 ∨ 1 / 2 ^ 125 ≤ y) : Normal x := by
  rcases hy with rfl | hy
  · refine .inl (le_antisymm ?_ h.left)
    have := h.high
    by_contra hx
    exact absurd (mul_pos (not_le.mp hx) (keep_pow_pos n)) (not_lt.mpr this)
  · refine .inr (le_trans ?_ (h.half hn))
    linarith [show (1 / 2 ^ 126 : ℚ) = 1 / 2 ^ 125 / 2 by norm_num]

theorem Close.round {n : Nat} {x y : ℚ} (h : Close n x y) (hn : n ≤ 15)
    (hy : y = 0 ∨ 1 / 2 ^ 125 ≤ y) : Close (n + 1) (ieee.s x) y := by
  rw [Nat.add_comm]
  exact (close_s (h.normal hn hy)).trans h

theorem Close.round_d {n : Nat} {x y : ℚ} (h : Close n x y) (hn : n ≤ 15)
    (hy : y = 0 ∨ 1 / 2 ^ 125 ≤ y) : Close (n + 1) (ieee.d x) y := by
  rw [Nat.add_comm]
  exact (close_d (h.normal hn hy)).trans h

/-- A truth value that is not near the ends of the range of `float`; every `float` below 1 differs from 1
by at least `2 ^ (-24)`. -/
structure Tame (t : Truth ℚ) : Prop where
  c0 : 1 / 2 ^ 60 ≤ t.c
  c1 : t.c ≤ 1 - 1 / 2 ^ 24
  k1 : 1 ≤ t.k
  f0 : t.f = 0 ∨ 1 / 2 ^ 60 ≤ t.f
  f1 : t.f = 1 ∨ t.f ≤ 1 - 1 / 2 ^ 24

namespace Tame

variable {t : Truth ℚ} (h : Tame t)
include h

theorem cpos : 0 < t.c := lt_of_lt_of_le (by norm_num) h.c0
theorem kpos : 0 < t.k := lt_of_lt_of_le (by norm_num) h.k1
theorem dpos : (1 / 2 ^ 24 : ℚ) ≤ 1 - t.c := by linarith [h.c1]
theorem dpos' : 0 < 1 - t.c := lt_of_lt_of_le (by norm_num) h.dpos
theorem fnonneg : 0 ≤ t.f := by
  rcases h.f0 with h | h
  · exact h.ge
  · exact le_trans (by norm_num) h
theorem fle : t.f ≤ 1 := by
  rcases h.f1 with h | h
  · exact h.le
  · exact h.trans (by norm_num)

theorem big {x : ℚ} (hx : 1 / 2 ^ 60 ≤ x) : 1 / 2 ^ 120 ≤ t.k * x * t.c := by
  have h1 := mul_le_mul hx h.c0 (by norm_num) (le_trans (by norm_num) hx)
  have h2 := mul_le_mul_of_nonneg_right h.k1 (mul_nonneg (le_trans (by norm_num) hx) h.cpos.le)
  have h3 : t.k * x * t.c = t.k * (x * t.c) := by ring
  rw [h3]
  have h4 : (1 / 2 ^ 120 : ℚ) = 1 / 2 ^ 60 * (1 / 2 ^ 60) := by norm_num
  linarith

theorem quot {x : ℚ} (hx : 0 ≤ x) : x ≤ x / (1 - t.c) := by
  rw [le_div_iff₀ h.dpos']
  have := mul_le_mul_of_nonneg_left (show 1 - t.c ≤ 1 by linarith [h.cpos]) hx
  linarith

/-- The divisor. -/
theorem den : Close 1 (ieee.s (1 - t.c)) (1 - t.c) :=
  close_s (.inr (le_trans (by norm_num) h.dpos))

theorem den_pos : 0 < ieee.s (1 - t.c) := h.den.pos h.dpos'

/-- Evidence in any proportion `x`, rounded as `w_p` and `w_m` are. -/
theorem part {x y : ℚ} (hc : Close 1 y (t.k * x)) (hx : x = 0 ∨ 1 / 2 ^ 60 ≤ x) :
    Close 4 (ieee.s (ieee.s (y * t.c) / ieee.s (1 - t.c))) (t.k * x * t.c / (1 - t.c)) ∧
    ∃ z, Close 1 (ieee.s (ieee.s (y * t.c) / ieee.s (1 - t.c))) (z / ieee.s (1 - t.c)) ∧
      Close 2 z (t.k * x * t.c) := by
  have hx0 : 0 ≤ x := by
    rcases hx with h | h
    · exact h.ge
    · exact le_trans (by norm_num) h
  have hn : t.k * x * t.c = 0 ∨ 1 / 2 ^ 125 ≤ t.k * x * t.c := by
    rcases hx with rfl | hx
    · left; ring
    · exact .inr (le_trans (by norm_num) (h.big hx))
  have h0 : 0 ≤ t.k * x * t.c := mul_nonneg (mul_nonneg h.kpos.le hx0) h.cpos.le
  have hm : t.k * x * t.c / (1 - t.c) = 0 ∨ 1 / 2 ^ 125 ≤ t.k * x * t.c / (1 - t.c) := by
    rcases hn with e | hn
    · left; rw [e, zero_div]
    · exact .inr (hn.trans (h.quot h0))
  have g1 : Close 2 (ieee.s (y * t.c)) (t.k * x * t.c) :=
    (hc.mul (Close.refl h.cpos.le)).round (by norm_num) hn
  have g2 := g1.div h.den h.dpos'
  exact ⟨g2.round (by norm_num) hm, _, close_s (g2.normal (by norm_num) hm), g1⟩

theorem wp_ok : ∃ p, t.wp ieee = some p ∧ Close 4 p (t.k * t.f * t.c / (1 - t.c)) ∧
    ∃ z, Close 1 p (z / ieee.s (1 - t.c)) ∧ Close 2 z (t.k * t.f * t.c) := by
  have hn : Normal (t.k * t.f) := by
    rcases h.f0 with e | e
    · left; rw [e, mul_zero]
    · refine .inr (le_trans ?_ (mul_le_mul h.k1 e (by norm_num) h.kpos.le))
      norm_num
  refine ⟨_, by rw [Truth.wp, fdiv, if_neg h.den_pos.ne']; rfl, h.part (close_s hn) h.f0⟩

theorem w_ok : ∃ w, t.w ieee = some w ∧ Close 3 w (t.k * t.c / (1 - t.c)) ∧
    ∃ z, Close 1 w (z / ieee.s (1 - t.c)) ∧ Close 1 z (t.k * t.c) := by
  have h0 : 1 / 2 ^ 60 ≤ t.k * t.c := by
    have := mul_le_mul h.k1 h.c0 (by norm_num) h.kpos.le
    linarith
  have hp : 0 ≤ t.k * t.c := mul_nonneg h.kpos.le h.cpos.le
  have g1 : Close 1 (ieee.s (t.k * t.c)) (t.k * t.c) := close_s (.inr (le_trans (by norm_num) h0))
  have g2 := g1.div h.den h.dpos'
  have hm : t.k * t.c / (1 - t.c) = 0 ∨ 1 / 2 ^ 125 ≤ t.k * t.c / (1 - t.c) :=
    .inr (le_trans (by norm_num) (h0.trans (h.quot hp)))
  exact ⟨_, by rw [Truth.w, fdiv, if_neg h.den_pos.ne']; rfl, g2.round (by norm_num) hm, _,
    close_s (g2.normal (by norm_num) hm), g1⟩

theorem wm_ok : ∃ m, t.wm ieee = some m ∧ Close 5 m (t.k * (1 - t.f) * t.c / (1 - t.c)) := by
  have hx : 1 - t.f = 0 ∨ 1 / 2 ^ 24 ≤ 1 - t.f := by
    rcases h.f1 with e | e
    · left; rw [e, sub_self]
    · right; linarith
  have hy : Normal (1 - t.f) := hx.imp id fun e => le_trans (by norm_num) e
  have h1 := close_s hy
  have hk : t.k * (1 - t.f) = 0 ∨ 1 / 2 ^ 125 ≤ t.k * (1 - t.f) := by
    rcases hx with e | e
    · left; rw [e, mul_zero]
    · refine .inr (le_trans ?_ (mul_le_mul h.k1 e (by norm_num) h.kpos.le))
      norm_num
  have h2 : Close 2 (ieee.s (t.k * ieee.s (1 - t.f))) (t.k * (1 - t.f)) := by
    have := (Close.refl h.kpos.le).mul h1
    rw [Nat.zero_add] at this
    exact this.round (by norm_num) hk
  have h0 : 0 ≤ t.k * (1 - t.f) * t.c := mul_nonneg (mul_nonneg h.kpos.le hy.nonneg) h.cpos.le
  have hn : t.k * (1 - t.f) * t.c = 0 ∨ 1 / 2 ^ 125 ≤ t.k * (1 - t.f) * t.c := by
    rcases hx with e | e
    · left; rw [e]; ring
    · exact .inr (le_trans (by norm_num) (h.big (le_trans (by norm_num) e)))
  have hm : t.k * (1 - t.f) * t.c / (1 - t.c) = 0 ∨
      1 / 2 ^ 125 ≤ t.k * (1 - t.f) * t.c / (1 - t.c) := by
    rcases hn with e | hn
    · left; rw [e, zero_div]
    · exact .inr (hn.trans (h.quot h0))
  have g1 : Close 3 (ieee.s (ieee.s (t.k * ieee.s (1 - t.f)) * t.c)) (t.k * (1 - t.f) * t.c) :=
    (h2.mul (Close.refl h.cpos.le)).round (by norm_num) hn
  have g2 := g1.div h.den h.dpos'
  exact ⟨_, by rw [Truth.wm, fdiv, if_neg h.den_pos.ne']; rfl, g2.round (by norm_num) hm⟩

/-- The quotient of positive and total evidence. -/
theorem freq {p w : ℚ} (hp : t.wp ieee = some p) (hw : t.w ieee = some w) :
    0 < w ∧ Close 5 (p / w) t.f := by
  obtain ⟨p', e1, _, z, a1, a2⟩ := h.wp_ok
  obtain ⟨w', e2, b0, z', b1, b2⟩ := h.w_ok
  rw [hp] at e1
  rw [hw] at e2
  cases e1
  cases e2
  have hkc : 0 < t.k * t.c := mul_pos h.kpos h.cpos
  have hz' : 0 < z' := b2.pos hkc
  have hq := h.den_pos
  refine ⟨b0.pos (div_pos hkc h.dpos'), ?_⟩
  have g1 := a1.div b1 (div_pos hz' hq)
  have g2 := a2.div b2 hkc
  have e3 : z / ieee.s (1 - t.c) / (z' / ieee.s (1 - t.c)) = z / z' := by
    have := hz'.ne'
    have := hq.ne'
    field_simp
  have e4 : t.k * t.f * t.c / (t.k * t.c) = t.f := by
    have := h.kpos.ne'
    have := h.cpos.ne'
    field_simp
  rw [e3] at g1
  rw [e4] at g2
  exact g1.trans g2

theorem exact_c : t.k * t.c / (1 - t.c) / (t.k * t.c / (1 - t.c) + t.k) = t.c := by
  have h1 := h.dpos'.ne'
  have h2 := h.kpos.ne'
  field_simp
  ring

end Tame

end Cnars.Ieee
