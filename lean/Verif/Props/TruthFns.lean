import Verif.Nal.Lemmas
import Mathlib.Data.Rat.Defs
import Mathlib.Algebra.Order.Ring.Rat

/-!
# C62 – C66: truth functions, evidence amounts, revision, projection, quality
-/

set_option linter.unusedSectionVars false

namespace Cnars.Props
open Cnars Cnars.Nal

variable {K : Type} [Field K] [LinearOrder K] [IsStrictOrderedRing K]

/-- A truth value in the range promised by the documentation: `f ∈ [0,1]`, `c ∈ [0,1)`. -/
def InRange (t : Truth K) : Prop := 0 ≤ t.f ∧ t.f ≤ 1 ∧ 0 ≤ t.c ∧ t.c < 1

/-- The fields are `float` numbers. -/
def IsFloat (R : Rnd K) (t : Truth K) : Prop := R.s t.f = t.f ∧ R.s t.c = t.c ∧ R.s t.k = t.k

/-- C62, deduction, under every sound rounding: the result is in range, and neither frequency nor
confidence exceeds that of a premise. -/
theorem C62_deduction (R : Rnd K) (h : R.Sound) (t1 t2 : Truth K) (h1 : InRange t1)
    (h2 : InRange t2) (hf1 : IsFloat R t1) (hf2 : IsFloat R t2) :
    InRange (truthDeduction R t1 t2) ∧
    (truthDeduction R t1 t2).f ≤ min t1.f t2.f ∧ (truthDeduction R t1 t2).c ≤ min t1.c t2.c := by
  obtain ⟨a1, a2, a3, a4⟩ := h1
  obtain ⟨b1, b2, b3, b4⟩ := h2
  have hd : ∀ x : K, R.s x = x → R.d x = x := fun x hx => by rw [← hx, h.d_s, hx]
  have p2 : Unit01 (R.d (t1.f * t2.f)) := Unit01.d h (Unit01.mul ⟨a1, a2⟩ ⟨b1, b2⟩)
  have c1 : Unit01 t1.c := ⟨a3, a4.le⟩
  have c2 : Unit01 t2.c := ⟨b3, b4.le⟩
  have p3 := (p2.mul c1).d h
  have p4 := (p3.mul c2).d h
  have f1 : R.s (R.d (t1.f * t2.f)) ≤ t1.f := by
    have : R.d (t1.f * t2.f) ≤ t1.f := by
      conv_rhs => rw [← hd _ hf1.1]
      exact h.d_mono (mul_le_of_le_one_right a1 b2)
    calc _ ≤ R.s t1.f := h.s_mono this
      _ = t1.f := hf1.1
  have f2 : R.s (R.d (t1.f * t2.f)) ≤ t2.f := by
    have : R.d (t1.f * t2.f) ≤ t2.f := by
      conv_rhs => rw [← hd _ hf2.1]
      exact h.d_mono (mul_le_of_le_one_left b1 a2)
    calc _ ≤ R.s t2.f := h.s_mono this
      _ = t2.f := hf2.1
  have e3 : R.d (R.d (t1.f * t2.f) * t1.c) ≤ t1.c := by
    conv_rhs => rw [← hd _ hf1.2.1]
    exact h.d_mono (mul_le_of_le_one_left a3 p2.2)
  have e4 : R.d (R.d (R.d (t1.f * t2.f) * t1.c) * t2.c) ≤ t1.c := by
    conv_rhs => rw [← hd _ hf1.2.1]
    refine h.d_mono (le_trans (mul_le_of_le_one_right p3.1 c2.2) e3)
  have e5 : R.d (R.d (R.d (t1.f * t2.f) * t1.c) * t2.c) ≤ t2.c := by
    conv_rhs => rw [← hd _ hf2.2.1]
    exact h.d_mono (mul_le_of_le_one_left b3 p3.2)
  have g1 : (truthDeduction R t1 t2).c ≤ t1.c := by
    calc _ ≤ R.s t1.c := h.s_mono e4
      _ = t1.c := hf1.2.1
  have g2 : (truthDeduction R t1 t2).c ≤ t2.c := by
    calc _ ≤ R.s t2.c := h.s_mono e5
      _ = t2.c := hf2.2.1
  exact ⟨⟨(p2.s h).1, (p2.s h).2, (p4.s h).1, lt_of_le_of_lt g1 a4⟩, le_min f1 f2, le_min g1 g2⟩

example : InRange (⟨1, 9/10, 1⟩ : Truth ℚ) ∧ IsFloat (Rnd.exact ℚ) (⟨1, 9/10, 1⟩ : Truth ℚ) ∧
    truthDeduction (Rnd.exact ℚ) ⟨1, 9/10, 1⟩ ⟨1/2, 9/10, 1⟩ = ⟨1/2, 81/200, 1⟩ := by
  refine ⟨by norm_num [InRange], ⟨rfl, rfl, rfl⟩, ?_⟩
  norm_num [truthDeduction, and2, and4, Rnd.exact]

/-- Helper for C62: `set_w` on a fresh truth value. -/
theorem setW_default (R : Rnd K) (h : R.Sound) (wp w : K) (hw : Unit01 w) (hdw : R.d w = w)
    (hwp : 0 ≤ wp) :
    ∃ r, (Truth.default R (1 : K)).setW R wp w = some r ∧ r.k = 1 ∧
      0 ≤ r.f ∧ (wp ≤ w → r.f ≤ 1) ∧ 0 ≤ r.c ∧ r.c ≤ 1 / 2 := by
  have hden : 1 ≤ R.d (w + 1) := by
    have := h.d_mono (show (1 : K) ≤ w + 1 by linarith [hw.1])
    rwa [h.d_one] at this
  have hden2 : w + w ≤ R.d (w + 1) := by
    have := h.d_mono (show w + w ≤ w + 1 by linarith [hw.2])
    rwa [h.d_dbl w hw.1 hw.2 hdw] at this
  have hpos : 0 < R.d (w + 1) := lt_of_lt_of_le zero_lt_one hden
  have hc : 0 ≤ w / R.d (w + 1) ∧ w / R.d (w + 1) ≤ 1 / 2 := by
    refine ⟨div_nonneg hw.1 hpos.le, ?_⟩
    rw [div_le_iff₀ hpos]; linarith
  have hc' : 0 ≤ R.s (R.d (w / R.d (w + 1))) ∧ R.s (R.d (w / R.d (w + 1))) ≤ 1 / 2 := by
    refine ⟨h.s_nonneg (h.d_nonneg hc.1), ?_⟩
    have := h.s_mono (h.d_mono hc.2)
    rwa [h.d_half, h.s_half] at this
  by_cases hw0 : w > 0
  · refine ⟨⟨R.s (R.d (wp / w)), R.s (R.d (w / R.d (w + 1))), 1⟩, ?_, rfl, ?_, ?_, hc'.1, hc'.2⟩
    · simp [Truth.setW, Truth.default, hw0, fdiv, hw0.ne', hpos.ne']
    · exact h.s_nonneg (h.d_nonneg (div_nonneg hwp hw.1))
    · intro hle
      exact (Unit01.s h (Unit01.d h ⟨div_nonneg hwp hw.1, (div_le_one hw0).2 hle⟩)).2
  · refine ⟨⟨R.s (R.d (1 / 2)), R.s (R.d (w / R.d (w + 1))), 1⟩, ?_, rfl, ?_, ?_, hc'.1, hc'.2⟩
    · simp [Truth.setW, Truth.default, hw0, fdiv, hpos.ne']
    · simp only [h.d_half, h.s_half]; norm_num
    · intro _; simp only [h.d_half, h.s_half]; norm_num

/-- C62, induction, under every sound rounding: the result exists,
has horizon 1, is in range and has confidence at most 1/2. -/
theorem C62_induction (R : Rnd K) (h : R.Sound)  (t1 t2 : Truth K) (h1 : InRange t1) (h2 : InRange t2) (hf2 : IsFloat R t2) :
    ∃ r, truthInduction R t1 t2 = some r ∧ r.k = 1 ∧ InRange r ∧ r.c ≤ 1 / 2 := by
  obtain ⟨a1, a2, a3, a4⟩ := h1
  obtain ⟨b1, b2, b3, b4⟩ := h2
  have c1 : Unit01 t1.c := ⟨a3, a4.le⟩
  have c2 : Unit01 t2.c := ⟨b3, b4.le⟩
  have p2 : Unit01 (R.d (t1.f * t2.f)) := Unit01.d h (Unit01.mul ⟨a1, a2⟩ ⟨b1, b2⟩)
  have p4 := ((((p2.mul c1).d h).mul c2).d h)
  have q2 : Unit01 (R.d (t2.f * t1.c)) := Unit01.d h (Unit01.mul ⟨b1, b2⟩ c1)
  have q3 := (q2.mul c2).d h
  have hdf2 : R.d t2.f = t2.f := by rw [← hf2.1, h.d_s, hf2.1]
  have le2 : R.d (t1.f * t2.f) ≤ t2.f := by
    conv_rhs => rw [← hdf2]
    exact h.d_mono (mul_le_of_le_one_left b1 a2)
  have le4 : and4 R t1.f t2.f t1.c t2.c ≤ and3 R t2.f t1.c t2.c :=
    h.d_mono (mul_le_mul_of_nonneg_right (h.d_mono (mul_le_mul_of_nonneg_right le2 a3)) b3)
  obtain ⟨r, e, k, f0, f1, c0, c1'⟩ := setW_default R h (and4 R t1.f t2.f t1.c t2.c)
    (and3 R t2.f t1.c t2.c) q3 (h.d_d _) p4.1
  exact ⟨r, e, k, ⟨f0, f1 le4, c0, lt_of_le_of_lt c1' (by norm_num)⟩, c1'⟩

example : truthInduction (Rnd.exact ℚ) ⟨1, 9/10, 1⟩ ⟨1/2, 9/10, 1⟩ =
    some ⟨1, (81/200) / (81/200 + 1), 1⟩ := by
  norm_num [truthInduction, Truth.setW, Truth.default, and3, and4, Rnd.exact, fdiv]

/-- C62, induction and comparison in exact arithmetic: the result exists, is in range, and its
confidence is strictly below 1/2. -/
theorem C62_exact (t1 t2 : Truth K) (h1 : InRange t1) (h2 : InRange t2) :
    (∃ r, truthInduction (Rnd.exact K) t1 t2 = some r ∧ InRange r ∧ r.c < 1 / 2 ∧ r.k = 1) ∧
    (∃ r, truthComparison (Rnd.exact K) t1 t2 = some r ∧ InRange r ∧ r.c < 1 / 2 ∧ r.k = 1) := by
  obtain ⟨a1, a2, a3, a4⟩ := h1
  obtain ⟨b1, b2, b3, b4⟩ := h2
  have key : ∀ wp w : K, 0 ≤ wp → wp ≤ w → w < 1 →
      ∃ r, (Truth.default (Rnd.exact K) (1 : K)).setW (Rnd.exact K) wp w = some r ∧
        InRange r ∧ r.c < 1 / 2 ∧ r.k = 1 := by
    intro wp w h0 hle hlt
    have hw0 : 0 ≤ w := le_trans h0 hle
    have hpos : 0 < w + 1 := by linarith
    have hc0 : 0 ≤ w / (w + 1) := div_nonneg hw0 hpos.le
    have hc1 : w / (w + 1) < 1 / 2 := by rw [div_lt_iff₀ hpos]; linarith
    by_cases hw : w > 0
    · refine ⟨⟨wp / w, w / (w + 1), 1⟩, ?_, ⟨div_nonneg h0 hw0, (div_le_one hw).2 hle, hc0,
        lt_trans hc1 (by norm_num)⟩, hc1, rfl⟩
      simp [Truth.setW, Truth.default, hw, fdiv, hw.ne', hpos.ne', Rnd.exact]
    · refine ⟨⟨1 / 2, w / (w + 1), 1⟩, ?_, ⟨by norm_num, by norm_num, hc0,
        lt_trans hc1 (by norm_num)⟩, hc1, rfl⟩
      simp [Truth.setW, Truth.default, hw, fdiv, hpos.ne', Rnd.exact]
  have cc : Unit01 (t1.c * t2.c) := Unit01.mul ⟨a3, a4.le⟩ ⟨b3, b4.le⟩
  have ccl : t1.c * t2.c < 1 := lt_of_le_of_lt (mul_le_of_le_one_right a3 b4.le) a4
  have ff : Unit01 (t1.f * t2.f) := Unit01.mul ⟨a1, a2⟩ ⟨b1, b2⟩
  constructor
  · apply key
    · simp only [and4, Rnd.exact, id]
      rw [mul_assoc]; exact mul_nonneg ff.1 cc.1
    · simp only [and4, and3, Rnd.exact, id]
      rw [mul_assoc (t1.f * t2.f), mul_assoc t2.f]
      exact mul_le_mul_of_nonneg_right (mul_le_of_le_one_left b1 a2) cc.1
    · simp only [and3, Rnd.exact, id]
      rw [mul_assoc]
      exact lt_of_le_of_lt (mul_le_of_le_one_left cc.1 b2) ccl
  · have hor : t1.f * t2.f ≤ 1 - (1 - t1.f) * (1 - t2.f) := by nlinarith
    have hor1 : 1 - (1 - t1.f) * (1 - t2.f) ≤ 1 := by
      nlinarith [mul_nonneg (sub_nonneg.2 a2) (sub_nonneg.2 b2)]
    apply key
    · simp only [and4, Rnd.exact, id]
      rw [mul_assoc]; exact mul_nonneg ff.1 cc.1
    · simp only [and4, and3, or2, Rnd.exact, id]
      rw [mul_assoc (t1.f * t2.f), mul_assoc (1 - (1 - t1.f) * (1 - t2.f))]
      exact mul_le_mul_of_nonneg_right hor cc.1
    · simp only [and3, or2, Rnd.exact, id]
      rw [mul_assoc]
      exact lt_of_le_of_lt (mul_le_of_le_one_left cc.1 hor1) ccl

example : truthComparison (Rnd.exact ℚ) ⟨1, 9/10, 1⟩ ⟨1/2, 9/10, 1⟩ =
    some ⟨1/2, (81/100) / (81/100 + 1), 1⟩ := by
  norm_num [truthComparison, Truth.setW, Truth.default, and3, and4, or2, Rnd.exact, fdiv]

/-- C63: evidence amounts.  For `0 < c < 1` and `k > 0` the three amounts are finite, positive and
negative evidence add up to the total, and writing the amounts back with `set_w` restores the truth
value.  Missing: the same after rounding, which is false: `C63_rounding_counterexample` in
`Verif/Props/Ieee.lean`. -/
theorem C63_roundtrip_partial (t : Truth K) (hc0 : 0 < t.c) (hc1 : t.c < 1) (hk : 0 < t.k) :
    ∃ w p m, t.w (Rnd.exact K) = some w ∧ t.wp (Rnd.exact K) = some p ∧
      t.wm (Rnd.exact K) = some m ∧ p + m = w ∧ 0 < w ∧ w * (1 - t.c) = t.k * t.c ∧ p = t.f * w ∧
      t.setW (Rnd.exact K) p w = some t := by
  have h1 : (1 : K) - t.c ≠ 0 := by linarith [sub_pos.2 hc1] |> ne_of_gt
  have h1p : 0 < 1 - t.c := sub_pos.2 hc1
  have hw : 0 < t.k * t.c / (1 - t.c) := div_pos (mul_pos hk hc0) h1p
  refine ⟨t.k * t.c / (1 - t.c), t.k * t.f * t.c / (1 - t.c), t.k * (1 - t.f) * t.c / (1 - t.c),
    ?_, ?_, ?_, ?_, hw, ?_, ?_, ?_⟩
  · simp [Truth.w, fdiv, Rnd.exact, h1]
  · simp [Truth.wp, fdiv, Rnd.exact, h1]
  · simp [Truth.wm, fdiv, Rnd.exact, h1]
  · field_simp; ring
  · field_simp
  · field_simp
  · have hden : t.k * t.c / (1 - t.c) + t.k = t.k / (1 - t.c) := by field_simp; ring
    have hden0 : t.k / (1 - t.c) ≠ 0 := (div_pos hk h1p).ne'
    have ef : t.k * t.f * t.c / (1 - t.c) / (t.k * t.c / (1 - t.c)) = t.f := by
      field_simp
    have ec : t.k * t.c / (1 - t.c) / (t.k / (1 - t.c)) = t.c := by
      field_simp
    simp [Truth.setW, fdiv, Rnd.exact, hw, hw.ne', hden, hden0, ef, ec]

example : (0:ℚ) < 9/10 ∧ (9/10:ℚ) < 1 ∧ (⟨1/2, 9/10, 1⟩ : Truth ℚ).w (Rnd.exact ℚ) = some 9 := by
  refine ⟨by norm_num, by norm_num, ?_⟩
  norm_num [Truth.w, fdiv, Rnd.exact]

/-- C63: the expectation is in [0,1] under every sound rounding; exactly, it is `f` at `c = 1`, `1/2`
at `c = 0`, and lies between `f` and `1/2`. -/
theorem C63_expectation (R : Rnd K) (h : R.Sound) (t : Truth K) (hf : 0 ≤ t.f ∧ t.f ≤ 1)
    (hc : 0 ≤ t.c ∧ t.c ≤ 1) :
    (0 ≤ t.e R ∧ t.e R ≤ 1) ∧
    (t.c = 1 → t.e (Rnd.exact K) = t.f) ∧ (t.c = 0 → t.e (Rnd.exact K) = 1 / 2) ∧
    min t.f (1 / 2) ≤ t.e (Rnd.exact K) ∧ t.e (Rnd.exact K) ≤ max t.f (1 / 2) := by
  have hd1 : -(1 / 2) ≤ R.d (t.f - 1 / 2) := by
    rw [← h.d_neg_half]; exact h.d_mono (by linarith [hf.1])
  have hd2 : R.d (t.f - 1 / 2) ≤ 1 / 2 := by
    conv_rhs => rw [← h.d_half]
    exact h.d_mono (by linarith [hf.2])
  have hm1 : -(1 / 2) ≤ R.d (t.c * R.d (t.f - 1 / 2)) := by
    rw [← h.d_neg_half]; exact h.d_mono (by nlinarith [hc.1, hc.2])
  have hm2 : R.d (t.c * R.d (t.f - 1 / 2)) ≤ 1 / 2 := by
    conv_rhs => rw [← h.d_half]
    exact h.d_mono (by nlinarith [hc.1, hc.2])
  refine ⟨h.d_unit ⟨by linarith, by linarith⟩, ?_, ?_, ?_, ?_⟩
  · intro e; simp [Truth.e, Rnd.exact, e]
  · intro e; simp [Truth.e, Rnd.exact, e]
  · simp only [Truth.e, Rnd.exact, id]
    rcases le_total t.f (1 / 2) with hle | hle
    · rw [min_eq_left hle]; nlinarith [hc.1, hc.2]
    · rw [min_eq_right hle]; nlinarith [hc.1, hc.2, mul_nonneg hc.1 (sub_nonneg.2 hle)]
  · simp only [Truth.e, Rnd.exact, id]
    rcases le_total t.f (1 / 2) with hle | hle
    · rw [max_eq_right hle]; nlinarith [hc.1, hc.2, mul_nonneg hc.1 (sub_nonneg.2 hle)]
    · rw [max_eq_left hle]; nlinarith [hc.1, hc.2]

example : (⟨1, 9/10, 1⟩ : Truth ℚ).e (Rnd.exact ℚ) = 19/20 := by
  norm_num [Truth.e, Rnd.exact]

/-- C63 for the free functions `fc_to_w*`, `w_to_f`, `w_to_c`, `truth_from_w`: the round trip works
when the total evidence exceeds 1e-8.  Missing: smaller amounts, where it fails
(`C63_mapping_counterexample`). -/
theorem C63_mapping_partial (f c k : K) (hc0 : 0 < c) (hc1 : c < 1) (hk : 0 < k)
    (hbig : 1 / 100000000 < k * c / (1 - c)) :
    ∃ w p m, fcToW (Rnd.exact K) f c k = some w ∧ fcToWPlus (Rnd.exact K) f c k = some p ∧
      fcToWMinus (Rnd.exact K) f c k = some m ∧ p + m = w ∧
      wToF (Rnd.exact K) p w = some f ∧ wToC (Rnd.exact K) w k = some c ∧
      truthFromW (Rnd.exact K) p w k = some ⟨f, c, k⟩ := by
  have h1p : 0 < 1 - c := sub_pos.2 hc1
  have h1 : (1 : K) - c ≠ 0 := h1p.ne'
  have hw : 0 < k * c / (1 - c) := div_pos (mul_pos hk hc0) h1p
  have hden : k * c / (1 - c) + k = k / (1 - c) := by field_simp; ring
  have hden0 : k / (1 - c) ≠ 0 := (div_pos hk h1p).ne'
  have ef : k * f * c / (1 - c) / (k * c / (1 - c)) = f := by field_simp
  have ec : k * c / (1 - c) / (k / (1 - c)) = c := by field_simp
  have hF : wToF (Rnd.exact K) (k * f * c / (1 - c)) (k * c / (1 - c)) = some f := by
    have hg : (Rnd.exact K).s (k * c / (1 - c)) > 1 / 100000000 := hbig
    rw [wToF, if_pos hg]
    simp [fdiv, Rnd.exact, hw.ne', ef]
  have hC : wToC (Rnd.exact K) (k * c / (1 - c)) k = some c := by
    simp [wToC, fdiv, Rnd.exact, hden, hden0, ec]
  refine ⟨k * c / (1 - c), k * f * c / (1 - c), k * (1 - f) * c / (1 - c), ?_, ?_, ?_, ?_,
    hF, hC, ?_⟩
  · simp [fcToW, fdiv, Rnd.exact, h1]
  · simp [fcToWPlus, fdiv, Rnd.exact, h1]
  · simp [fcToWMinus, fdiv, Rnd.exact, h1]
  · field_simp; ring
  · rw [truthFromW, if_pos (show (Rnd.exact K).s _ ≠ 0 from hw.ne'), hF, hC]; rfl

example : (1 / 100000000 : ℚ) < 1 * (9/10) / (1 - 9/10) := by norm_num

/-- C63 counterexample: with very little evidence the free functions turn frequency 1 into 0. -/
theorem C63_mapping_counterexample :
    ∃ f c k w p : ℚ, 0 < c ∧ c < 1 ∧ 0 < k ∧ f = 1 ∧
      fcToW (Rnd.exact ℚ) f c k = some w ∧ fcToWPlus (Rnd.exact ℚ) f c k = some p ∧
      wToF (Rnd.exact ℚ) p w = some 0 := by
  refine ⟨1, 1/10^9, 1, 1/(10^9 - 1), 1/(10^9 - 1), by norm_num, by norm_num, by norm_num, rfl,
    ?_, ?_, ?_⟩
  · norm_num [fcToW, fdiv, Rnd.exact]
  · norm_num [fcToWPlus, fdiv, Rnd.exact]
  · norm_num [wToF, fdiv, Rnd.exact]

/-- Specification: the total evidence behind a truth value. -/
def evidence (t : Truth K) : K := t.k * t.c / (1 - t.c)

/-- A truth value with some, but not infinite, evidence. -/
def Informed (t : Truth K) : Prop := 0 < t.c ∧ t.c < 1 ∧ 0 < t.k ∧ 0 ≤ t.f ∧ t.f ≤ 1

theorem evidence_pos {t : Truth K} (h : Informed t) : 0 < evidence t :=
  div_pos (mul_pos h.2.2.1 h.1) (sub_pos.2 h.2.1)

theorem conf_eq {t : Truth K} (h : Informed t) : t.c = evidence t / (evidence t + t.k) := by
  have h1p : 0 < 1 - t.c := sub_pos.2 h.2.1
  have hk := h.2.2.1
  have hden : t.k * t.c / (1 - t.c) + t.k = t.k / (1 - t.c) := by field_simp; ring
  rw [evidence, hden]; field_simp

/-- The value of a revision (exact arithmetic), from which C64 follows. -/
theorem revision_value (t1 t2 : Truth K) (h1 : Informed t1) (h2 : Informed t2)
    (hbig : 1 / 100000000 < evidence t1 + evidence t2) :
    truthRevision (Rnd.exact K) t1 t2 = some
      ⟨(t1.f * evidence t1 + t2.f * evidence t2) / (evidence t1 + evidence t2),
       (evidence t1 + evidence t2) / (evidence t1 + evidence t2 + t1.k), t1.k⟩ := by
  have a1 : (1 : K) - t1.c ≠ 0 := (sub_pos.2 h1.2.1).ne'
  have a2 : (1 : K) - t2.c ≠ 0 := (sub_pos.2 h2.2.1).ne'
  have p1 := evidence_pos h1
  have p2 := evidence_pos h2
  have w1 : t1.w (Rnd.exact K) = some (evidence t1) := by simp [Truth.w, fdiv, Rnd.exact, a1, evidence]
  have w2 : t2.w (Rnd.exact K) = some (evidence t2) := by simp [Truth.w, fdiv, Rnd.exact, a2, evidence]
  have q1 : t1.wp (Rnd.exact K) = some (t1.f * evidence t1) := by
    simp only [Truth.wp, fdiv, Rnd.exact, id, a1, if_false, Option.map_some, evidence]
    congr 1; field_simp
  have q2 : t2.wp (Rnd.exact K) = some (t2.f * evidence t2) := by
    simp only [Truth.wp, fdiv, Rnd.exact, id, a2, if_false, Option.map_some, evidence]
    congr 1; field_simp
  have hs : evidence t1 + evidence t2 ≠ 0 := (add_pos p1 p2).ne'
  have hk : evidence t1 + evidence t2 + t1.k ≠ 0 := (add_pos (add_pos p1 p2) h1.2.2.1).ne'
  have hF : wToF (Rnd.exact K) (t1.f * evidence t1 + t2.f * evidence t2)
      (evidence t1 + evidence t2) =
      some ((t1.f * evidence t1 + t2.f * evidence t2) / (evidence t1 + evidence t2)) := by
    rw [wToF, if_pos (show (Rnd.exact K).s _ > _ from hbig)]
    simp [fdiv, Rnd.exact, hs]
  have hC : wToC (Rnd.exact K) (evidence t1 + evidence t2) t1.k =
      some ((evidence t1 + evidence t2) / (evidence t1 + evidence t2 + t1.k)) := by
    simp [wToC, fdiv, Rnd.exact, hk]
  have hdF : (Rnd.exact K).d = id := rfl
  simp only [truthRevision, w1, w2, q1, q2, hdF, id, Option.bind_eq_bind, Option.bind_some, hF, hC]
  rfl

/-- C64 for pairs: with equal horizons and more than 1e-8 evidence in total, revision adds up the
evidence, its confidence exceeds both, its frequency lies between the two, its horizon is kept, and
the order of the premises does not matter.  Missing: tiny amounts of evidence
(`C64_counterexample`). -/
theorem C64_partial (t1 t2 : Truth K) (h1 : Informed t1) (h2 : Informed t2) (hk : t1.k = t2.k)
    (hbig : 1 / 100000000 < evidence t1 + evidence t2) :
    ∃ r, truthRevision (Rnd.exact K) t1 t2 = some r ∧
      truthRevision (Rnd.exact K) t2 t1 = some r ∧ Informed r ∧ r.k = t1.k ∧
      evidence r = evidence t1 + evidence t2 ∧
      r.f * evidence r = t1.f * evidence t1 + t2.f * evidence t2 ∧
      t1.c < r.c ∧ t2.c < r.c ∧ min t1.f t2.f ≤ r.f ∧ r.f ≤ max t1.f t2.f := by
  have e1 := revision_value t1 t2 h1 h2 hbig
  have e2 := revision_value t2 t1 h2 h1 (by rwa [add_comm])
  have p1 := evidence_pos h1
  have p2 := evidence_pos h2
  have c1 := conf_eq h1
  have c2 := conf_eq h2
  have k1 := h1.2.2.1
  have k2 := h2.2.2.1
  set a := evidence t1 with ha
  set b := evidence t2 with hb
  have hab : 0 < a + b := add_pos p1 p2
  have habk : 0 < a + b + t1.k := add_pos hab k1
  have lt1 : t1.c < (a + b) / (a + b + t1.k) := by
    rw [c1, div_lt_div_iff₀ (add_pos p1 k1) habk]; nlinarith
  have lt2 : t2.c < (a + b) / (a + b + t1.k) := by
    rw [c2, div_lt_div_iff₀ (add_pos p2 k2) habk, hk]; nlinarith
  have fm : min t1.f t2.f ≤ (t1.f * a + t2.f * b) / (a + b) := by
    rw [le_div_iff₀ hab]
    nlinarith [min_le_left t1.f t2.f, min_le_right t1.f t2.f,
      mul_le_mul_of_nonneg_right (min_le_left t1.f t2.f) p1.le,
      mul_le_mul_of_nonneg_right (min_le_right t1.f t2.f) p2.le]
  have fM : (t1.f * a + t2.f * b) / (a + b) ≤ max t1.f t2.f := by
    rw [div_le_iff₀ hab]
    nlinarith [mul_le_mul_of_nonneg_right (le_max_left t1.f t2.f) p1.le,
      mul_le_mul_of_nonneg_right (le_max_right t1.f t2.f) p2.le]
  have hce : evidence (⟨(t1.f * a + t2.f * b) / (a + b), (a + b) / (a + b + t1.k), t1.k⟩ : Truth K)
      = a + b := by
    have : 1 - (a + b) / (a + b + t1.k) = t1.k / (a + b + t1.k) := by field_simp; ring
    simp only [evidence, this]; field_simp
  refine ⟨⟨(t1.f * a + t2.f * b) / (a + b), (a + b) / (a + b + t1.k), t1.k⟩, e1, ?_, ?_, rfl, hce,
    ?_, lt1, lt2, fm, fM⟩
  · rw [e2, hk, add_comm b a, add_comm (t2.f * b)]
  · exact ⟨div_pos hab habk, (div_lt_one habk).2 (by linarith), k1,
      le_trans (le_min h1.2.2.2.1 h2.2.2.2.1) fm, le_trans fM (max_le h1.2.2.2.2 h2.2.2.2.2)⟩
  · rw [hce]; simp only []; field_simp

example : Informed (⟨1, 9/10, 1⟩ : Truth ℚ) ∧ Informed (⟨0, 1/2, 1⟩ : Truth ℚ) ∧
    truthRevision (Rnd.exact ℚ) ⟨1, 9/10, 1⟩ ⟨0, 1/2, 1⟩ = some ⟨9/10, 10/11, 1⟩ := by
  refine ⟨by norm_num [Informed], by norm_num [Informed], ?_⟩
  norm_num [truthRevision, Truth.w, Truth.wp, fdiv, Rnd.exact, wToF, wToC]

/-- Revising a truth value by a sequence of others, one after the other. -/
def reviseAll (R : Rnd K) (t : Truth K) (ts : List (Truth K)) : Option (Truth K) :=
  ts.foldlM (truthRevision R) t

theorem truth_ext_of {a b : Truth K} (ha : Informed a) (hb : Informed b) (hk : a.k = b.k)
    (he : evidence a = evidence b) (hf : a.f * evidence a = b.f * evidence b) : a = b := by
  have hc : a.c = b.c := by rw [conf_eq ha, conf_eq hb, he, hk]
  have hff : a.f = b.f := by
    rw [he] at hf; exact mul_right_cancel₀ (evidence_pos hb).ne' hf
  cases a; cases b; simp_all

/-- C64 for sequences: revising by any list of truth values with the same horizon sums all the
evidence, and the outcome depends neither on the order of the list nor on which value is the
starting point.  (Each value carrying more than 1e-8 evidence.) -/
theorem C64_sequence_partial (t : Truth K) (ts : List (Truth K))
    (h : ∀ u ∈ t :: ts, Informed u ∧ u.k = t.k ∧ 1 / 100000000 < evidence u) :
    (∃ r, reviseAll (Rnd.exact K) t ts = some r ∧ Informed r ∧ r.k = t.k ∧
      evidence r = ((t :: ts).map evidence).sum ∧
      r.f * evidence r = ((t :: ts).map (fun u => u.f * evidence u)).sum) ∧
    (∀ t' ts', (t' :: ts').Perm (t :: ts) →
      reviseAll (Rnd.exact K) t' ts' = reviseAll (Rnd.exact K) t ts) := by
  have main : ∀ (ts : List (Truth K)) (t : Truth K),
      (∀ u ∈ t :: ts, Informed u ∧ u.k = t.k ∧ 1 / 100000000 < evidence u) →
      ∃ r, reviseAll (Rnd.exact K) t ts = some r ∧ Informed r ∧ r.k = t.k ∧
        evidence r = ((t :: ts).map evidence).sum ∧
        r.f * evidence r = ((t :: ts).map (fun u => u.f * evidence u)).sum := by
    intro ts
    induction ts with
    | nil => intro t ht; exact ⟨t, rfl, (ht t (by simp)).1, rfl, by simp, by simp⟩
    | cons u us ih =>
      intro t ht
      obtain ⟨it, _, bt⟩ := ht t (by simp)
      obtain ⟨iu, ku, bu⟩ := ht u (by simp)
      obtain ⟨r, er, _, ir, kr, evr, fr, _⟩ :=
        C64_partial t u it iu ku.symm (by linarith [evidence_pos iu])
      obtain ⟨r', er', ir', kr', evr', fr'⟩ := ih r (by
        intro v hv
        rcases List.mem_cons.1 hv with rfl | hv
        · exact ⟨ir, rfl, by rw [evr]; linarith [evidence_pos iu]⟩
        · have := ht v (by simp [hv]); exact ⟨this.1, by rw [this.2.1, kr], this.2.2⟩)
      refine ⟨r', ?_, ir', by rw [kr', kr], ?_, ?_⟩
      · simp only [reviseAll, List.foldlM_cons, er]; exact er'
      · rw [evr']; simp only [List.map_cons, List.sum_cons, evr]; ring
      · rw [fr']; simp only [List.map_cons, List.sum_cons, fr]; ring
  refine ⟨main ts t h, ?_⟩
  intro t' ts' hp
  have hk' : t'.k = t.k := (h t' (hp.mem_iff.1 (by simp))).2.1
  obtain ⟨r, er, ir, kr, evr, fr⟩ := main ts t h
  obtain ⟨r', er', ir', kr', evr', fr'⟩ := main ts' t' (fun u hu => by
    have := h u (hp.mem_iff.1 hu); exact ⟨this.1, by rw [this.2.1, hk'], this.2.2⟩)
  rw [er, er']
  congr 1
  refine truth_ext_of ir' ir (by rw [kr', kr, hk']) ?_ ?_
  · rw [evr, evr', (hp.map _).sum_eq]
  · rw [fr, fr', (hp.map _).sum_eq]

example : ∀ u ∈ [(⟨1, 9/10, 1⟩ : Truth ℚ), ⟨0, 1/2, 1⟩, ⟨1/3, 1/2, 1⟩],
    Informed u ∧ u.k = 1 ∧ 1 / 100000000 < evidence u := by
  intro u hu
  simp only [List.mem_cons, List.not_mem_nil, or_false] at hu
  rcases hu with rfl | rfl | rfl <;> norm_num [Informed, evidence]

/-- C64 counterexample: two nearly evidence-free values of frequency 1 revise to frequency 0. -/
theorem C64_counterexample :
    ∃ t1 t2 r : Truth ℚ, Informed t1 ∧ Informed t2 ∧ t1.k = t2.k ∧ t1.f = 1 ∧ t2.f = 1 ∧
      truthRevision (Rnd.exact ℚ) t1 t2 = some r ∧ r.f = 0 := by
  refine ⟨⟨1, 1/10^9, 1⟩, ⟨1, 1/10^9, 1⟩, ⟨0, 2/(10^9-1)/(2/(10^9-1)+1), 1⟩, ?_, ?_, rfl, rfl,
    rfl, ?_, rfl⟩
  · norm_num [Informed]
  · norm_num [Informed]
  · norm_num [truthRevision, Truth.w, Truth.wp, fdiv, Rnd.exact, wToF, wToC]

/-- C64 under every rounding: with equal horizons the order of the premises does not matter. -/
theorem C64_commutative (R : Rnd K) (t1 t2 : Truth K) (hk : t1.k = t2.k) :
    truthRevision R t1 t2 = truthRevision R t2 t1 := by
  unfold truthRevision
  cases t1.w R <;> cases t2.w R <;> cases t1.wp R <;> cases t2.wp R <;> simp only [Option.bind_eq_bind, Option.bind_none, Option.bind_some]
  rename_i a b c d
  rw [add_comm a, add_comm c, hk]

/-- C64 under every sound rounding: if the revision is a finite number at all, it is in [0,1] and made of
numbers of type `float`. -/
theorem C64_range (R : Rnd K) (h : R.Sound) (t1 t2 r : Truth K) (h1 : InRange t1)
    (h2 : InRange t2) (hk1 : 0 ≤ t1.k) (hk2 : 0 ≤ t2.k) (hf1 : IsFloat R t1) (hf2 : IsFloat R t2)
    (hr : truthRevision R t1 t2 = some r) :
    (0 ≤ r.f ∧ r.f ≤ 1) ∧ (0 ≤ r.c ∧ r.c ≤ 1) ∧ r.k = t1.k ∧ IsFloat R r := by
  have aux : ∀ (t : Truth K) (w p : K), InRange t → 0 ≤ t.k → IsFloat R t → t.w R = some w →
      t.wp R = some p → 0 ≤ p ∧ p ≤ w := by
    intro t w p ht hk hf hw hp
    have hden : 0 ≤ R.s (1 - t.c) := h.s_nonneg (sub_nonneg.2 ht.2.2.2.le)
    unfold Truth.w at hw
    unfold Truth.wp at hp
    by_cases hz : R.s (1 - t.c) = 0
    · simp [fdiv, hz] at hw
    · simp only [fdiv, hz, if_false, Option.map_some, Option.some.injEq] at hw hp
      rw [← hw, ← hp]
      have kf : R.s (t.k * t.f) ≤ t.k := by
        conv_rhs => rw [← hf.2.2]
        exact h.s_mono (mul_le_of_le_one_right hk ht.2.1)
      have kf0 : 0 ≤ R.s (t.k * t.f) := h.s_nonneg (mul_nonneg hk ht.1)
      refine ⟨h.s_nonneg (div_nonneg (h.s_nonneg (mul_nonneg kf0 ht.2.2.1)) hden), h.s_mono ?_⟩
      exact div_le_div_of_nonneg_right (h.s_mono (mul_le_mul_of_nonneg_right kf ht.2.2.1)) hden
  simp only [truthRevision, Option.bind_eq_bind, Option.bind_eq_some_iff, Option.pure_def,
    Option.some.injEq] at hr
  obtain ⟨w1, hw1, w2, hw2, p1, hp1, p2, hp2, f, hf, c, hc, rfl⟩ := hr
  obtain ⟨a1, b1⟩ := aux t1 w1 p1 h1 hk1 hf1 hw1 hp1
  obtain ⟨a2, b2⟩ := aux t2 w2 p2 h2 hk2 hf2 hw2 hp2
  have hp0 : 0 ≤ R.s (R.d (p1 + p2)) := h.s_nonneg (h.d_nonneg (add_nonneg a1 a2))
  have hpw : R.s (R.d (p1 + p2)) ≤ R.s (R.d (w1 + w2)) := h.s_mono (h.d_mono (add_le_add b1 b2))
  have hw0 : 0 ≤ R.s (R.d (w1 + w2)) := le_trans hp0 hpw
  refine ⟨?_, ?_, rfl, ?_, ?_, hf1.2.2⟩
  · unfold wToF at hf
    split at hf
    · next hgt =>
      have hne : R.s (R.d (w1 + w2)) > 0 := lt_trans (by norm_num) hgt
      simp only [fdiv, hne.ne', if_false, Option.map_some, Option.some.injEq] at hf
      rw [← hf]
      exact Unit01.s h ⟨div_nonneg hp0 hw0, (div_le_one hne).2 hpw⟩
    · simp only [Option.some.injEq] at hf; rw [← hf]; exact ⟨le_refl _, zero_le_one⟩
  · unfold wToC at hc
    by_cases hz : R.s (R.s (R.d (w1 + w2)) + R.s t1.k) = 0
    · simp [fdiv, hz] at hc
    · simp only [fdiv, hz, if_false, Option.map_some, Option.some.injEq] at hc
      rw [← hc]
      have hk : 0 ≤ R.s t1.k := by rw [hf1.2.2]; exact hk1
      have hge : R.s (R.d (w1 + w2)) ≤ R.s (R.s (R.d (w1 + w2)) + R.s t1.k) := by
        conv_lhs => rw [← h.s_s]
        exact h.s_mono (by linarith)
      have hpos : 0 < R.s (R.s (R.d (w1 + w2)) + R.s t1.k) :=
        lt_of_le_of_ne (le_trans hw0 hge) (Ne.symm hz)
      exact Unit01.s h ⟨div_nonneg hw0 hpos.le, (div_le_one hpos).2 hge⟩
  · unfold wToF at hf
    split at hf
    · next hgt =>
      have hne : R.s (R.d (w1 + w2)) > 0 := lt_trans (by norm_num) hgt
      simp only [fdiv, hne.ne', if_false, Option.map_some, Option.some.injEq] at hf
      rw [← hf, h.s_s]
    · simp only [Option.some.injEq] at hf; rw [← hf, h.s_zero]
  · unfold wToC at hc
    by_cases hz : R.s (R.s (R.d (w1 + w2)) + R.s t1.k) = 0
    · simp [fdiv, hz] at hc
    · simp only [fdiv, hz, if_false, Option.map_some, Option.some.injEq] at hc
      rw [← hc, h.s_s]

/-- C66: quality is at least the expectation and in [0,1] under every sound rounding; exactly, it
is at least 3/7, and it is the expectation itself (hence monotone in it) from 3/7 on. -/
theorem C66_quality (R : Rnd K) (h : R.Sound) (t t' : Truth K) (hf : 0 ≤ t.f ∧ t.f ≤ 1)
    (hc : 0 ≤ t.c ∧ t.c ≤ 1) :
    t.e R ≤ qualityFromTruth R t ∧ 0 ≤ qualityFromTruth R t ∧ qualityFromTruth R t ≤ 1 ∧
    3 / 7 ≤ qualityFromTruth (Rnd.exact K) t ∧
    (3 / 7 ≤ t.e (Rnd.exact K) → qualityFromTruth (Rnd.exact K) t = t.e (Rnd.exact K)) ∧
    (3 / 7 ≤ t.e (Rnd.exact K) → t.e (Rnd.exact K) ≤ t'.e (Rnd.exact K) →
      qualityFromTruth (Rnd.exact K) t ≤ qualityFromTruth (Rnd.exact K) t') := by
  have he := (C63_expectation R h t hf hc).1
  have hq : Unit01 (R.d (R.d (1 - t.e R) * (3 / 4))) :=
    Unit01.d h (Unit01.mul (Unit01.d h (Unit01.sub he)) ⟨by norm_num, by norm_num⟩)
  have hex : ∀ u : Truth K, qualityFromTruth (Rnd.exact K) u =
      max (u.e (Rnd.exact K)) ((1 - u.e (Rnd.exact K)) * (3 / 4)) := fun _ => rfl
  have hbig : ∀ u : Truth K, 3 / 7 ≤ u.e (Rnd.exact K) →
      qualityFromTruth (Rnd.exact K) u = u.e (Rnd.exact K) := by
    intro u hu; rw [hex, max_eq_left]; linarith
  refine ⟨le_max_left _ _, le_trans he.1 (le_max_left _ _), max_le he.2 hq.2, ?_, hbig t, ?_⟩
  · rw [hex]
    rcases le_total (3 / 7) (t.e (Rnd.exact K)) with hle | hle
    · exact le_trans hle (le_max_left _ _)
    · refine le_trans ?_ (le_max_right _ _); linarith
  · intro h1 h2; rw [hbig t h1, hbig t' (le_trans h1 h2)]; exact h2

example : qualityFromTruth (Rnd.exact ℚ) ⟨0, 9/10, 1⟩ = 57/80 ∧
    qualityFromTruth (Rnd.exact ℚ) ⟨3/7, 1, 1⟩ = 3/7 := by
  constructor <;> norm_num [qualityFromTruth, Truth.e, Rnd.exact]

/-- Times for which the differences taken by `project` fit in 64 bits. -/
def TimesFit (s c t : Int) : Prop :=
  |s - c| < 2^62 ∧ |t - c| < 2^62

/-- The value of a projection. -/
theorem project_value (R : Rnd K) (t : Truth K) (ts tc tt : Int) (decay : Nat)
    (hfit : TimesFit ts tc tt) :
    ∃ kc : Nat, project R t ts tc tt decay =
        .ok ⟨t.f, R.s (R.s (((1 + 2^64 - kc) % 2^64 : Nat) : K) * t.c), t.k⟩ ∧
      kc = if ((|ts - tc| + |tt - tc|).toNat + decay) % 2^64 > 0 then
        |ts - tt|.toNat / (((|ts - tc| + |tt - tc|).toNat + decay) % 2^64) else 0 := by
  obtain ⟨h1, h2⟩ := hfit
  have h1' := abs_lt.1 h1
  have h2' := abs_lt.1 h2
  have s1 : sub64 ts tc = .ok (ts - tc) := by rw [sub64, if_pos]; constructor <;> omega
  have s2 : sub64 tt tc = .ok (tt - tc) := by rw [sub64, if_pos]; constructor <;> omega
  have s3 : sub64 ts tt = .ok (ts - tt) := by rw [sub64, if_pos]; constructor <;> omega
  have a1 : abs64 (ts - tc) = .ok |ts - tc| := by rw [abs64, if_neg]; omega
  have a2 : abs64 (tt - tc) = .ok |tt - tc| := by rw [abs64, if_neg]; omega
  have a3 : abs64 (ts - tt) = .ok |ts - tt| := by rw [abs64, if_neg]; omega
  have ad : add64 |ts - tc| |tt - tc| = .ok (|ts - tc| + |tt - tc|) := by
    rw [add64, if_pos]
    have := abs_nonneg (ts - tc); have := abs_nonneg (tt - tc)
    constructor <;> omega
  exact ⟨_, by simp only [project, s1, s2, s3, a1, a2, a3, ad, Res.ok_bind]; rfl, rfl⟩

/-- C65: what projection does do.  Frequency and horizon are kept; the confidence is unchanged when
source and target coincide; for every decay duration in `(0, 2^63)` it is unchanged whatever the
times; for decay duration 0 it is unchanged or becomes 0, the latter exactly when the times differ
and the current time lies between them.  So it never increases.  Missing: the confidence does not
decrease with distance (`C65_no_decay_counterexample`), and decay durations close to 2^64 increase
it (`C65_wrap_counterexample`). -/
theorem C65_partial (R : Rnd K) (h : R.Sound) (t : Truth K) (hfl : IsFloat R t)
    (ts tc tt : Int) (decay : Nat) (hfit : TimesFit ts tc tt) :
    ∃ r, project R t ts tc tt decay = .ok r ∧ r.f = t.f ∧ r.k = t.k ∧
      (ts = tt → r.c = t.c) ∧
      (0 < decay → decay < 2^63 → r.c = t.c) ∧
      (decay = 0 → r.c = if ts ≠ tt ∧ min ts tt ≤ tc ∧ tc ≤ max ts tt then 0 else t.c) := by
  obtain ⟨kc, he, hk⟩ := project_value R t ts tc tt decay hfit
  obtain ⟨h1, h2⟩ := hfit
  have hc0 : kc = 0 → R.s (R.s (((1 + 2^64 - kc) % 2^64 : Nat) : K) * t.c) = t.c := by
    rintro rfl
    have : ((1 + 2^64 - 0) % 2^64 : Nat) = 1 := by norm_num
    rw [this]; simp [h.s_one, hfl.2.1]
  have hc1 : kc = 1 → R.s (R.s (((1 + 2^64 - kc) % 2^64 : Nat) : K) * t.c) = 0 := by
    rintro rfl
    have : ((1 + 2^64 - 1) % 2^64 : Nat) = 0 := by norm_num
    rw [this]; simp [h.s_zero]
  refine ⟨_, he, rfl, rfl, ?_, ?_, ?_⟩
  · intro e
    apply hc0; rw [hk, e]; simp
  · intro hd0 hd1
    apply hc0
    rw [hk]
    have n1 := abs_nonneg (ts - tc)
    have n2 := abs_nonneg (tt - tc)
    have tri : |ts - tt| ≤ |ts - tc| + |tt - tc| := by
      have := abs_sub_abs_le_abs_sub ts tt
      calc |ts - tt| = |(ts - tc) - (tt - tc)| := by ring_nf
        _ ≤ |ts - tc| + |tt - tc| := abs_sub _ _
    have hm : ((|ts - tc| + |tt - tc|).toNat + decay) % 2^64
        = (|ts - tc| + |tt - tc|).toNat + decay := by
      apply Nat.mod_eq_of_lt; omega
    rw [hm]
    split
    · apply Nat.div_eq_of_lt; omega
    · rfl
  · rintro rfl
    have n1 := abs_nonneg (ts - tc)
    have n2 := abs_nonneg (tt - tc)
    have hm : ((|ts - tc| + |tt - tc|).toNat + 0) % 2^64
        = (|ts - tc| + |tt - tc|).toNat := by
      rw [Nat.add_zero]; apply Nat.mod_eq_of_lt; omega
    rw [hm] at hk
    by_cases hb : ts ≠ tt ∧ min ts tt ≤ tc ∧ tc ≤ max ts tt
    · rw [if_pos hb]
      apply hc1
      obtain ⟨hne, hb1, hb2⟩ := hb
      have heq : |ts - tt| = |ts - tc| + |tt - tc| := by
        rcases le_total ts tt with hle | hle
        · rw [min_eq_left hle] at hb1; rw [max_eq_right hle] at hb2
          rw [abs_of_nonpos (by omega), abs_of_nonpos (by omega), abs_of_nonneg (by omega)]; ring
        · rw [min_eq_right hle] at hb1; rw [max_eq_left hle] at hb2
          rw [abs_of_nonneg (by omega), abs_of_nonneg (by omega), abs_of_nonpos (by omega)]; ring
      have hpos : 0 < |ts - tt| := abs_pos.2 (by omega)
      rw [hk, ← heq, if_pos (by omega)]
      exact Nat.div_self (by omega)
    · rw [if_neg hb]
      apply hc0
      rw [hk]
      split
      · next hgt =>
        apply Nat.div_eq_of_lt
        have : |ts - tt| < |ts - tc| + |tt - tc| := by
          by_cases hne : ts = tt
          · subst hne; simp only [sub_self, abs_zero]; omega
          · have hb' : tc < min ts tt ∨ max ts tt < tc := by
              by_contra hcon; push Not at hcon; exact hb ⟨hne, hcon.1, hcon.2⟩
            rcases hb' with hb' | hb'
            · obtain ⟨x1, x2⟩ := lt_min_iff.1 hb'
              rw [abs_of_pos (show 0 < ts - tc by omega), abs_of_pos (show 0 < tt - tc by omega)]
              exact abs_lt.2 ⟨by omega, by omega⟩
            · obtain ⟨x1, x2⟩ := max_lt_iff.1 hb'
              rw [abs_of_neg (show ts - tc < 0 by omega), abs_of_neg (show tt - tc < 0 by omega)]
              exact abs_lt.2 ⟨by omega, by omega⟩
        omega
      · rfl

example : TimesFit 0 100 200 ∧
    project (Rnd.exact ℚ) ⟨1, 9/10, 1⟩ 0 100 200 0 = .ok ⟨1, 0, 1⟩ := by
  refine ⟨by norm_num [TimesFit], ?_⟩
  norm_num [project, sub64, abs64, add64, Rnd.exact,
    show Int.toNat 200 = 200 from rfl, show Int.toNat 1000000 = 1000000 from rfl,
    show Int.toNat 10 = 10 from rfl]

/-- C65 counterexample: with the default decay duration, an event projected a million steps away
keeps its full confidence. -/
theorem C65_no_decay_counterexample :
    project (Rnd.exact ℚ) ⟨1, 9/10, 1⟩ 0 0 1000000 1000 = .ok ⟨1, 9/10, 1⟩ := by
  norm_num [project, sub64, abs64, add64, Rnd.exact,
    show Int.toNat 200 = 200 from rfl, show Int.toNat 1000000 = 1000000 from rfl,
    show Int.toNat 10 = 10 from rfl]

/-- C65 counterexample: a decay duration close to 2^64 wraps around and the confidence explodes. -/
theorem C65_wrap_counterexample :
    ∃ r : Truth ℚ, project (Rnd.exact ℚ) ⟨1, 9/10, 1⟩ 0 0 10 (2^64 - 9) = .ok r ∧ 1 < r.c := by
  refine ⟨⟨1, (2^64 - 9) * (9/10), 1⟩, ?_, ?_⟩
  · norm_num [project, sub64, abs64, add64, Rnd.exact,
    show Int.toNat 200 = 200 from rfl, show Int.toNat 1000000 = 1000000 from rfl,
    show Int.toNat 10 = 10 from rfl]
  · norm_num

end Cnars.Props
