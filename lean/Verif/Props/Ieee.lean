import Verif.Nal.Ieee
import Verif.Props.Boolean
import Verif.Props.TruthFns
import Verif.Props.Tasks

/-!
# C40, C52, C61 – C64, C66 with the rounding of IEEE 754

The theorems for every sound rounding hold for `Ieee.ieee`, rounding to nearest `double` and `float`.
Here: what else is true of it, and what is true without rounding but false of it.
-/

namespace Cnars.Props
open Cnars Cnars.Nal Cnars.Ieee Cnars.Parser

/-! ### The hypotheses of the theorems about rounding -/

example : ieee.Sound ∧ ieee.s (-1) = -1 := ⟨ieee_sound, ieee_neg_one⟩

theorem ieee_ints : IntExact ieee := fun n h1 h2 => ieee_d_int (by omega)

theorem ieee_float : FloatLike ieee (1 / 2 ^ 24) where
  mono := ieee_sound.s_mono
  ints := fun k h0 h1 => ieee_s_int (by omega)
  err := fun x h0 _ => by
    refine (ieee_err x).trans (max_le ?_ ?_)
    · rw [abs_of_nonneg h0, pow2_eq]
      norm_num
    · refine le_trans (pow2_le.mpr (show (-150 : Int) ≤ -34 by norm_num)) ?_
      rw [pow2_eq]
      norm_num
      linarith

/-- A machine with these roundings. -/
def ieeeMach : Mach := { mach with R := ieee, cfg := Config.ofRnd ieee }

theorem ieee_ok : Machine ieeeMach where
  ord := fun l => List.Perm.refl l
  ints := fun n hn => ⟨(mach_exact n hn).1, by
    have := ieee_d_int (n := n) (by omega)
    exact_mod_cast this⟩
  sound := ieee_sound
  intExact := ieee_ints
  minus := ieee_neg_one
  cfg := rfl
  range := mach_range
  float := ⟨ieee_float.mono, ieee_float.ints, fun x h0 h1 => by
    refine (ieee_float.err x h0 h1).trans (mul_le_mul_of_nonneg_right ?_ (by linarith))
    norm_num⟩
  double := fun x h0 _ => by
    refine (ieee_err_d x).trans (max_le ?_ ?_)
    · rw [abs_of_nonneg h0, pow2_eq]
      norm_num
      linarith
    · refine le_trans (pow2_le.mpr (show (-1075 : Int) ≤ -34 by norm_num)) ?_
      rw [pow2_eq]
      norm_num
      linarith

/-! ### C40 -/

/-- C40 with `float`: what is shown differs from a stored value in [0,1] by at most 0.0005 and 2⁻²². -/
theorem C40_ieee_partial (n : Num ℚ) :
    0 ≤ n.shown ieee ∧ n.shown ieee ≤ 1 ∧
    (∃ k : Int, 0 ≤ k ∧ k ≤ 1000 ∧ n.shown ieee = ieee.s ((k : ℚ) / 1000)) ∧
    ∀ x, n = .fin x → 0 ≤ x → x ≤ 1 → |n.shown ieee - x| ≤ 1 / 2000 + 1 / 2 ^ 22 := by
  obtain ⟨h1, h2, h3, h4⟩ := C40_float_partial ieee_float n
  refine ⟨h1, h2, h3, fun x hx h0 h5 => (h4 x hx h0 h5).trans (by norm_num)⟩

/-- C40 is false for `float`: 0.2625, stored as `float`, is shown as the `float` 0.263, further away than
0.0005; and neither this nor 0.1 is a multiple of 0.001. -/
theorem C40_rounding_counterexample :
    (∃ x, x = ieee.s (2625 / 10000) ∧ ieee.s x = x ∧ 0 ≤ x ∧ x ≤ 1 ∧
      1 / 2000 < |(Num.fin x).shown ieee - x| ∧ (Num.fin x).shown ieee = ieee.s (263 / 1000) ∧
      (Num.fin x).shown ieee ≠ 263 / 1000) ∧
    (Num.fin (1 / 10 : ℚ)).shown ieee ≠ 100 / 1000 :=
  ⟨⟨_, rfl, by decide +kernel⟩, by decide +kernel⟩

/-! ### C52 -/

/-- `A.%1;0.99999999%` -/
def surelyText : List Char :=
  ['A', '.', '%', '1', ';', '0', '.', '9', '9', '9', '9', '9', '9', '9', '9', '%']

/-- C52 is false: the grammar keeps confidence below 1, but `float` does not. -/
theorem C52_confidence_counterexample :
    (taskOf ieeeMach surelyText).map (fun t => t.sentence.truth) = some (some ⟨1, 1, 1⟩) := by
  decide +kernel

/-- `$.5;0.99999999$A.` -/
def lastingText : List Char :=
  ['$', '.', '5', ';', '0', '.', '9', '9', '9', '9', '9', '9', '9', '9', '$', 'A', '.']

/-- The same for durability. -/
theorem C52_durability_counterexample :
    (taskOf ieeeMach lastingText).map (fun t => t.budget.durability) = some 1 := by
  decide +kernel

/-- The hypotheses of C52's theorems are met with these roundings. -/
example : (taskOf ieeeMach valuesText).map (fun t => (t.budget.priority, t.budget.durability, t.sentence.truth)) =
    some (1 / 2, 1 / 4, some ⟨3 / 4, 15099494 / 2 ^ 24, 1⟩) := by decide +kernel

/-! ### C80 -/

/-- C80 holds of a machine with these roundings: the hypotheses are met, and a printed goal is read back. -/
example : ∃ text, Print.task ieee fixed (fun _ _ => []) 0 names5.store.dict false (shownBudget sample80.budget)
      sample80.sentence = .ok text ∧
    ∀ d < 3, ∀ fuel, 24 * text.length + 6 ≤ fuel → ∃ k' s',
      parseTask ieeeMach undefined false fuel d with5 (codes text) = (.ok (some k'), s') ∧
      k'.sentence.punct = .goal ∧ shape k'.sentence.term = shape sample41 := by
  obtain ⟨text, h1, h2⟩ := C80_task_partial ieee_ok fixed_ok (s := with5) (k := sample80) .fresh names5_reach
    (formed (.goal _ _ _ _ _)) sample41_c sample41_legible trivial sample41_clash sample41_steady sample41_plain
    sample41_order sample41_held (by decide +kernel) (by
      rintro v ⟨⟩
      refine ⟨by norm_num, by norm_num, by norm_num, by norm_num, by decide +kernel⟩) (fun _ _ => []) 0
  refine ⟨text, h1, fun d hd fuel hf => ?_⟩
  obtain ⟨k', s', e1, e2, _, e4, _⟩ := h2 d hd fuel hf false (by simp) undefined
  exact ⟨k', s', e1, e2, e4⟩

/-! ### C61 -/

/-- C61 is false after rounding: And and Or of numbers of type `double` are not associative, And of four
numbers of type `float` neither, and Or can be below its arguments. -/
theorem C61_rounding_counterexample :
    (∃ x y z, (ieee.d x = x ∧ ieee.d y = y ∧ ieee.d z = z ∧ 0 < x ∧ x < 1 ∧ 0 < y ∧ y < 1 ∧ 0 < z ∧ z < 1) ∧
      and2 ieee (and2 ieee x y) z ≠ and2 ieee x (and2 ieee y z) ∧
      or2 ieee (or2 ieee x y) z ≠ or2 ieee x (or2 ieee y z)) ∧
    (∃ x y z w, (ieee.s x = x ∧ ieee.s y = y ∧ ieee.s z = z ∧ ieee.s w = w) ∧
      and4 ieee x y z w ≠ and2 ieee (and2 ieee x y) (and2 ieee z w)) ∧
    (∃ x y, ieee.s x = x ∧ ieee.s y = y ∧ 0 < x ∧ x < 1 ∧ 0 < y ∧ y < 1 ∧ or2 ieee x y < max x y) := by
  refine ⟨⟨ieee.d (1 / 10), ieee.d (3 / 10), ieee.d (7 / 10), by decide +kernel⟩,
    ⟨ieee.s (9 / 10), ieee.s (7 / 10), ieee.s (3 / 10), ieee.s (11 / 13), by decide +kernel⟩,
    ⟨1 / 2 ^ 60, 1 / 2 ^ 60, by decide +kernel⟩⟩

/-- The distance to 1 of a `float` that is not too small is a `double`. -/
theorem ieee_flip {x : ℚ} (hx : ieee.s x = x) (h0 : 1 / 2 ^ 29 ≤ x) (h1 : x ≤ 1) : ieee.d (1 - x) = 1 - x := by
  obtain ⟨m, hm⟩ := round_mult (p := 24) (emin := -149) (k := -29) (x := x) (by rw [pow2_eq]; norm_num; linarith) hx
  rw [show (-29 - ((24 : ℕ) : ℤ) + 1 : ℤ) = -52 by norm_num] at hm
  have e : pow2 (-52) = 1 / 2 ^ 52 := by rw [pow2_eq]; norm_num
  have hm1 : (m : ℚ) ≤ ((2 ^ 52 : Int) : ℚ) := by
    rw [hm, e] at h1
    push_cast
    linarith
  have hm0 : ((0 : Int) : ℚ) ≤ m := by
    have : (0 : ℚ) ≤ x := le_trans (by norm_num) h0
    rw [hm, e] at this
    push_cast
    linarith
  have hm1 : m ≤ 2 ^ 52 := by exact_mod_cast hm1
  have hm0 : 0 ≤ m := by exact_mod_cast hm0
  refine ieee_d ⟨2 ^ 52 - m, -52, ?_, by omega, by norm_num⟩
  rw [e] at hm ⊢
  rw [hm]
  push_cast
  ring

/-- C61, order of Or: for numbers of type `float`, at least 2⁻²⁹ or 0, Or is not below its arguments. -/
theorem C61_or_partial {x y : ℚ} (hx : ieee.s x = x) (hy : 0 ≤ y ∧ y ≤ 1) (h0 : x = 0 ∨ 1 / 2 ^ 29 ≤ x) (h1 : x ≤ 1) :
    x ≤ or2 ieee x y ∧ x ≤ or2 ieee y x := by
  have key : x ≤ or2 ieee x y := by
    have hb := ieee_sound.d_unit (x := 1 - y) ⟨by linarith [hy.2], by linarith [hy.1]⟩
    rcases h0 with rfl | h0
    · refine ieee_sound.d_nonneg ?_
      have := ieee_sound.d_unit (x := ieee.d (1 - 0) * ieee.d (1 - y))
        ⟨mul_nonneg (ieee_sound.d_nonneg (by norm_num)) hb.1, by
          rw [sub_zero, ieee_sound.d_one, one_mul]; exact hb.2⟩
      linarith [this.2]
    · have ha := ieee_flip hx h0 h1
      have hP : ieee.d (ieee.d (1 - x) * ieee.d (1 - y)) ≤ 1 - x := by
        rw [ha]
        refine (ieee_sound.d_mono (mul_le_of_le_one_right (by linarith) hb.2)).trans_eq ha
      have hd : ieee.d x = x := by rw [← hx, ieee_sound.d_s]
      rw [or2]
      conv_lhs => rw [← hd]
      exact ieee_sound.d_mono (by linarith)
  exact ⟨key, by rw [← (C61_rounded ieee ieee_sound x y 0 0).2.1]; exact key⟩

example : ieee.s (ieee.s (3 / 10)) = ieee.s (3 / 10) ∧ (1 / 2 ^ 29 ≤ ieee.s (3 / 10)) ∧
    or2 ieee (ieee.s (3 / 10)) (1 / 2) = 21810381 / 2 ^ 25 := by decide +kernel

/-! ### C62 -/

/-- After rounding, Or of two numbers of type `float` is 0 or at least And. -/
theorem ieee_and_or {x y : ℚ} (hx : ieee.s x = x) (hy : ieee.s y = y) (hx0 : 0 ≤ x) (hx1 : x ≤ 1) (hy0 : 0 ≤ y)
    (hy1 : y ≤ 1) : or2 ieee x y = 0 ∨ and2 ieee x y ≤ or2 ieee x y := by
  by_cases h1 : 1 / 2 ^ 29 ≤ x
  · right
    refine le_trans ?_ (C61_or_partial hx ⟨hy0, hy1⟩ (.inr h1) hx1).1
    exact (ieee_sound.d_mono (mul_le_of_le_one_right hx0 hy1)).trans_eq (by rw [← hx, ieee_sound.d_s])
  · by_cases h2 : 1 / 2 ^ 29 ≤ y
    · right
      refine le_trans ?_ (C61_or_partial hy ⟨hx0, hx1⟩ (.inr h2) hy1).2
      exact (ieee_sound.d_mono (mul_le_of_le_one_left hy0 hx1)).trans_eq (by rw [← hy, ieee_sound.d_s])
    · push Not at h1 h2
      have ha := ieee_sound.d_unit (x := 1 - x) ⟨by linarith, by linarith⟩
      have hb := ieee_sound.d_unit (x := 1 - y) ⟨by linarith, by linarith⟩
      have hP := ieee_sound.d_unit (x := ieee.d (1 - x) * ieee.d (1 - y))
        ⟨mul_nonneg ha.1 hb.1, mul_le_one₀ ha.2 hb.1 hb.2⟩
      rcases hP.2.lt_or_eq with hlt | heq
      · right
        have h3 := IsNum.below_one (p := 53) (emin := -1074) (by norm_num) (round_isNum _) hlt
        rw [pow2_eq] at h3
        have h4 : x * y ≤ 1 / 2 ^ 29 * (1 / 2 ^ 29) := mul_le_mul h1.le h2.le hy0 (by norm_num)
        refine ieee_sound.d_mono ?_
        norm_num at h3 h4 ⊢
        have h3 : ieee.d (ieee.d (1 - x) * ieee.d (1 - y)) ≤ 9007199254740991 / 9007199254740992 := h3
        linarith
      · left
        rw [or2, heq, sub_self, ieee_sound.d_zero]

/-- `w / (w + 1)` stays below 1/2 for `w` up to the square of the largest `float` below 1. -/
theorem ieee_half {w : ℚ} (h0 : 0 ≤ w) (h1 : w ≤ (1 - 1 / 2 ^ 24) ^ 2) :
    ieee.s (ieee.d (w / ieee.d (w + 1))) < 1 / 2 := by
  have he := ieee_err_d (w + 1)
  have hw1 : w ≤ 1 := h1.trans (by norm_num)
  have hden : w + 1 - 1 / 2 ^ 52 ≤ ieee.d (w + 1) := by
    have : max (pow2 (-53) * |w + 1|) (pow2 (-1075)) ≤ 1 / 2 ^ 52 := by
      refine max_le ?_ ?_
      · rw [abs_of_nonneg (by linarith), pow2_eq]
        norm_num
        linarith
      · refine le_trans (pow2_le.mpr (show (-1075 : Int) ≤ -52 by norm_num)) ?_
        rw [pow2_eq]
        norm_num
    have := (abs_le.mp (he.trans this)).1
    linarith
  have hq : w / ieee.d (w + 1) ≤ 1 / 2 - 1 / 2 ^ 26 - 1 / 2 ^ 40 := by
    have hpos : 0 < ieee.d (w + 1) := lt_of_lt_of_le (by norm_num; linarith) hden
    rw [div_le_iff₀ hpos]
    norm_num at h1 hden ⊢
    linarith
  refine lt_of_le_of_lt (ieee_sound.s_mono (ieee_sound.d_mono hq)) ?_
  decide +kernel

theorem setW_ieee {wp w : ℚ} (h0 : 0 ≤ w) (h1 : w ≤ (1 - 1 / 2 ^ 24) ^ 2) (hd : ieee.d w = w) (hp : 0 ≤ wp)
    (h : w = 0 ∨ wp ≤ w) :
    ∃ r, (Truth.default ieee (1 : ℚ)).setW ieee wp w = some r ∧ r.k = 1 ∧ InRange r ∧ r.c < 1 / 2 := by
  have hw1 : w ≤ 1 := h1.trans (by norm_num)
  obtain ⟨r, e, hk, f0, f1, c0, c1⟩ := setW_default ieee ieee_sound wp w ⟨h0, hw1⟩ hd hp
  have hc : r.c < 1 / 2 := by
    have hpos : ieee.d (w + 1) ≠ 0 := by
      have := ieee_sound.d_mono (show (1 : ℚ) ≤ w + 1 by linarith)
      rw [ieee_sound.d_one] at this
      linarith
    have : r.c = ieee.s (ieee.d (w / ieee.d (w + 1))) := by
      unfold Truth.setW Truth.default at e
      by_cases hw : w > 0
      · simp only [hw, if_true, fdiv, hw.ne', hpos, if_false, Option.bind_eq_bind, Option.bind_some,
          Option.pure_def, Option.some.injEq] at e
        rw [← e]
      · simp only [hw, fdiv, hpos, if_false, Option.bind_eq_bind, Option.bind_some,
          Option.pure_def, Option.some.injEq] at e
        rw [← e]
    rw [this]
    exact ieee_half h0 h1
  refine ⟨r, e, hk, ⟨f0, ?_, c0, by linarith⟩, hc⟩
  rcases h with rfl | h
  · have : r.f = ieee.s (ieee.d (1 / 2)) := by
      unfold Truth.setW Truth.default at e
      rw [if_neg (_root_.lt_irrefl (0 : ℚ))] at e
      simp only [if_false, fdiv, zero_add, ieee_sound.d_one, one_ne_zero, Option.bind_eq_bind,
        Option.bind_some, Option.pure_def, Option.some.injEq] at e
      rw [← e]
    rw [this, ieee_sound.d_half, ieee_sound.s_half]
    norm_num
  · exact f1 h

theorem float_below {c : ℚ} (h : ieee.s c = c) (h1 : c < 1) : c ≤ 1 - 1 / 2 ^ 24 := by
  have := IsNum.below_one (p := 24) (emin := -149) (by norm_num) (h ▸ round_isNum c) h1
  rw [pow2_eq] at this
  norm_num at this ⊢
  exact this

/-- C62 with the rounding of IEEE 754: deduction, induction and comparison of truth values in range, made of
numbers of type `float`, give truth values in range; the confidence of a deduction is at most that of either premise, and that
of inductions and comparisons is below 1/2. -/
theorem C62_ieee (t1 t2 : Truth ℚ) (h1 : InRange t1) (h2 : InRange t2) (hf1 : IsFloat ieee t1)
    (hf2 : IsFloat ieee t2) :
    (InRange (truthDeduction ieee t1 t2) ∧ (truthDeduction ieee t1 t2).c ≤ min t1.c t2.c) ∧
    (∃ r, truthInduction ieee t1 t2 = some r ∧ InRange r ∧ r.c < 1 / 2 ∧ r.k = 1) ∧
    (∃ r, truthComparison ieee t1 t2 = some r ∧ InRange r ∧ r.c < 1 / 2 ∧ r.k = 1) := by
  have hded := C62_deduction ieee ieee_sound t1 t2 h1 h2 hf1 hf2
  obtain ⟨a1, a2, a3, a4⟩ := h1
  obtain ⟨b1, b2, b3, b4⟩ := h2
  have hd : ∀ x : ℚ, ieee.s x = x → ieee.d x = x := fun x hx => by rw [← hx, ieee_sound.d_s, hx]
  have c1 : Unit01 t1.c := ⟨a3, a4.le⟩
  have c2 : Unit01 t2.c := ⟨b3, b4.le⟩
  have p2 : Unit01 (ieee.d (t1.f * t2.f)) := Unit01.d ieee_sound (Unit01.mul ⟨a1, a2⟩ ⟨b1, b2⟩)
  have p4 := ((((p2.mul c1).d ieee_sound).mul c2).d ieee_sound)
  -- the total evidence
  have total : ∀ x, Unit01 x → 0 ≤ and3 ieee x t1.c t2.c ∧ and3 ieee x t1.c t2.c ≤ (1 - 1 / 2 ^ 24) ^ 2 := by
    intro x hx
    have q2 : Unit01 (ieee.d (x * t1.c)) := (hx.mul c1).d ieee_sound
    refine ⟨((q2.mul c2).d ieee_sound).1, ?_⟩
    have e1 : ieee.d (x * t1.c) ≤ t1.c :=
      (ieee_sound.d_mono (mul_le_of_le_one_left a3 hx.2)).trans_eq (hd _ hf1.2.1)
    have e2 : ieee.d (x * t1.c) * t2.c ≤ (1 - 1 / 2 ^ 24) ^ 2 := by
      rw [sq]
      exact mul_le_mul (e1.trans (float_below hf1.2.1 a4)) (float_below hf2.2.1 b4) b3 (by norm_num)
    refine (ieee_sound.d_mono e2).trans_eq (ieee_d ⟨(2 ^ 24 - 1) ^ 2, -48, ?_, by norm_num, by norm_num⟩)
    rw [pow2_eq]
    norm_num
  have le3 : ∀ x y, x ≤ y → and3 ieee x t1.c t2.c ≤ and3 ieee y t1.c t2.c := fun x y h =>
    ieee_sound.d_mono (mul_le_mul_of_nonneg_right (ieee_sound.d_mono (mul_le_mul_of_nonneg_right h a3)) b3)
  refine ⟨⟨hded.1, hded.2.2⟩, ?_, ?_⟩
  · obtain ⟨r, e, k, hr, hc⟩ := setW_ieee (wp := and4 ieee t1.f t2.f t1.c t2.c) (total t2.f ⟨b1, b2⟩).1
      (total t2.f ⟨b1, b2⟩).2 (ieee_sound.d_d _) p4.1 (.inr (le3 _ _
        ((ieee_sound.d_mono (mul_le_of_le_one_left b1 a2)).trans_eq (hd _ hf2.1))))
    exact ⟨r, e, hr, hc, k⟩
  · have ho : Unit01 (or2 ieee t1.f t2.f) :=
      (C61_range ieee ieee_sound t1.f t2.f 0 0 [] ⟨a1, a2⟩ ⟨b1, b2⟩ (by norm_num) (by norm_num) (by simp)).2.2.2.1
    obtain ⟨r, e, k, hr, hc⟩ := setW_ieee (wp := and4 ieee t1.f t2.f t1.c t2.c) (total _ ho).1
      (total _ ho).2 (ieee_sound.d_d _) p4.1 (by
        rcases ieee_and_or hf1.1 hf2.1 a1 a2 b1 b2 with h | h
        · left
          rw [h]
          simp [and3, ieee_sound.d_zero]
        · exact .inr (le3 _ _ h))
    exact ⟨r, e, hr, hc, k⟩

/-- The hypotheses are met by the values of `%0.9;0.9%` and by the extreme ones. -/
example : let t : Truth ℚ := ⟨ieee.s (9 / 10), ieee.s (9 / 10), 1⟩
    let u : Truth ℚ := ⟨1 / 2 ^ 149, 1 - 1 / 2 ^ 24, 1⟩
    (InRange t ∧ IsFloat ieee t) ∧ (InRange u ∧ IsFloat ieee u) ∧
    ((truthComparison ieee u u).map (·.f) = some (1 / 2)) ∧
    (truthInduction ieee ⟨1, 1 - 1 / 2 ^ 24, 1⟩ ⟨1, 1 - 1 / 2 ^ 24, 1⟩).map (·.c) = some (1 / 2 - 1 / 2 ^ 25) := by
  simp only [InRange, IsFloat]
  decide +kernel

/-! ### C63 -/

/-- C63 is false after rounding: for `%0.7;0.9%`, positive and negative evidence do not add up to the total, and
writing them back changes the frequency. -/
theorem C63_rounding_counterexample :
    let t : Truth ℚ := ⟨ieee.s (7 / 10), ieee.s (9 / 10), 1⟩
    (IsFloat ieee t ∧ 0 < t.c ∧ t.c < 1) ∧
    ∃ w p m r, t.w ieee = some w ∧ t.wp ieee = some p ∧ t.wm ieee = some m ∧ ieee.d (p + m) ≠ w ∧
      t.setW ieee p w = some r ∧ r.f ≠ t.f := by
  refine ⟨by simp only [IsFloat]; decide +kernel, 4718591 / 524288, 6606027 / 1048576, 11324619 / 4194304,
    ⟨5872025 / 8388608, 7549747 / 8388608, 1⟩, by decide +kernel, by decide +kernel, by decide +kernel,
    by decide +kernel, by decide +kernel, by decide +kernel⟩

/-! ### C64 -/

/-- C64 is false after rounding, 1: revision need not raise the confidence, the frequency can leave the
range of those of the premises, and the order of a sequence of revisions matters. -/
theorem C64_rounding_counterexample :
    (∃ t u r, (Informed t ∧ Informed u ∧ IsFloat ieee t ∧ IsFloat ieee u ∧ t.k = u.k) ∧
      truthRevision ieee t u = some r ∧ r.c = t.c) ∧
    (∃ t r, (Informed t ∧ IsFloat ieee t) ∧ truthRevision ieee t t = some r ∧ r.f < t.f) ∧
    (∃ t u v, (Informed t ∧ Informed u ∧ Informed v ∧ IsFloat ieee t ∧ IsFloat ieee u ∧ IsFloat ieee v ∧
        t.k = u.k ∧ u.k = v.k) ∧
      reviseAll ieee t [u, v] ≠ reviseAll ieee v [u, t]) := by
  simp only [Informed, IsFloat]
  refine ⟨⟨⟨1, ieee.s (99999 / 100000), 1⟩, ⟨1, ieee.s (9 / 10), 1⟩, ⟨1, ieee.s (99999 / 100000), 1⟩, ?_⟩,
    ⟨⟨ieee.s (7 / 10), ieee.s (9 / 10), 1⟩, ⟨5872025 / 8388608, 3973551 / 4194304, 1⟩, ?_⟩,
    ⟨⟨1, ieee.s (9 / 10), 1⟩, ⟨0, ieee.s (8 / 10), 1⟩, ⟨1, ieee.s (7 / 10), 1⟩, ?_⟩⟩
  all_goals decide +kernel

/-- C64 is false after rounding, 2: revising a confidence just below 1 by one of 1/2 gives 1, and the next
revision divides by zero. -/
theorem C64_certainty_counterexample :
    let t : Truth ℚ := ⟨1, 1 - 1 / 2 ^ 24, 1⟩
    let u : Truth ℚ := ⟨1, 1 / 2, 1⟩
    (Informed t ∧ Informed u ∧ IsFloat ieee t ∧ IsFloat ieee u) ∧
    truthRevision ieee t u = some ⟨1, 1, 1⟩ ∧ truthRevision ieee ⟨1, 1, 1⟩ u = none := by
  simp only [Informed, IsFloat]
  decide +kernel

/-! ### C66 -/

/-- C66 with the rounding of IEEE 754: quality is at least the `double` nearest to 3/7, and is the
expectation from there on. -/
theorem C66_ieee (t : Truth ℚ) :
    ieee.d (3 / 7) ≤ qualityFromTruth ieee t ∧
    (ieee.d (3 / 7) ≤ t.e ieee → qualityFromTruth ieee t = t.e ieee) := by
  have fix : ieee.d (ieee.d (1 - ieee.d (3 / 7)) * (3 / 4)) = ieee.d (3 / 7) := by decide +kernel
  have anti : ∀ x y, x ≤ y → ieee.d (ieee.d (1 - y) * (3 / 4)) ≤ ieee.d (ieee.d (1 - x) * (3 / 4)) := fun x y h =>
    ieee_sound.d_mono (mul_le_mul_of_nonneg_right (ieee_sound.d_mono (by linarith)) (by norm_num))
  constructor
  · rcases le_total (ieee.d (3 / 7)) (t.e ieee) with h | h
    · exact h.trans (le_max_left _ _)
    · exact (fix.symm.le.trans (anti _ _ h)).trans (le_max_right _ _)
  · intro h
    exact max_eq_left ((anti _ _ h).trans (fix.le.trans h))

example : qualityFromTruth ieee ⟨1, ieee.s (9 / 10), 1⟩ = 1 / 2 + ieee.s (9 / 10) / 2 ∧
    ieee.d (3 / 7) ≤ (⟨1, ieee.s (9 / 10), 1⟩ : Truth ℚ).e ieee := by decide +kernel

end Cnars.Props
