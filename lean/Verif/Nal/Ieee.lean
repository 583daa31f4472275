import Verif.Nal.Arith
import Mathlib.Data.Rat.Floor
import Mathlib.Data.Nat.Log
import Mathlib.Algebra.Order.Floor.Ring

/-!
# Rounding to the nearest number of type `double` and `float`

The rounding mode of IEEE 754 that C++ programs start with: to nearest, ties to even, with
subnormal numbers.  Simplified: there is no largest number, so nothing overflows; infinities and NaNs
are no rationals.
-/

namespace Cnars.Ieee

/-- Powers of two, computed in the natural numbers. -/
def pow2 (k : Int) : ℚ := if 0 ≤ k then ((2 ^ k.toNat : ℕ) : ℚ) else 1 / ((2 ^ (-k).toNat : ℕ) : ℚ)

theorem pow2_eq (k : Int) : pow2 k = 2 ^ k := by
  unfold pow2
  split
  · rename_i h
    obtain ⟨n, rfl⟩ := Int.eq_ofNat_of_zero_le h
    simp
  · rename_i h
    obtain ⟨n, hn⟩ := Int.eq_ofNat_of_zero_le (show 0 ≤ -k by omega)
    obtain rfl : k = -(n : Int) := by omega
    simp

theorem pow2_pos (k : Int) : 0 < pow2 k := by rw [pow2_eq]; exact zpow_pos (by norm_num) k

/-- The exponent of the binary notation of a positive number. -/
def ilog2 (x : ℚ) : Int :=
  let k : Int := (x.num.natAbs.log2 : Int) - x.den.log2
  if pow2 k ≤ x then k else k - 1

theorem ilog2_spec {x : ℚ} (hx : 0 < x) : pow2 (ilog2 x) ≤ x ∧ x < pow2 (ilog2 x + 1) := by
  have hn : 0 < x.num := Rat.num_pos.mpr hx
  have hn' : x.num.natAbs ≠ 0 := by omega
  have hd' : x.den ≠ 0 := x.den_nz
  have hx' : x = (x.num.natAbs : ℚ) / x.den := by
    have : (x.num.natAbs : ℚ) = x.num := by
      rw [← Int.cast_natCast, Int.natAbs_of_nonneg hn.le]
    rw [this]
    exact (Rat.num_div_den x).symm
  set n := x.num.natAbs
  set d := x.den
  have a1 : ((2 ^ n.log2 : ℕ) : ℚ) ≤ n := by exact_mod_cast Nat.log2_self_le hn'
  have a2 : (n : ℚ) < ((2 ^ (n.log2 + 1) : ℕ) : ℚ) := by exact_mod_cast Nat.lt_log2_self
  have b1 : ((2 ^ d.log2 : ℕ) : ℚ) ≤ d := by exact_mod_cast Nat.log2_self_le hd'
  have b2 : (d : ℚ) < ((2 ^ (d.log2 + 1) : ℕ) : ℚ) := by exact_mod_cast Nat.lt_log2_self
  have d0 : (0 : ℚ) < d := by exact_mod_cast Nat.pos_of_ne_zero hd'
  push_cast at a1 a2 b1 b2
  have hlt : x < pow2 ((n.log2 : Int) - d.log2 + 1) := by
    rw [pow2_eq, hx', div_lt_iff₀ d0]
    calc (n : ℚ) < 2 ^ (n.log2 + 1) := a2
      _ = 2 ^ ((n.log2 : Int) - d.log2 + 1) * 2 ^ d.log2 := by
        rw [← zpow_natCast, ← zpow_natCast, ← zpow_add₀ (by norm_num)]
        congr 1; push_cast; ring
      _ ≤ _ := mul_le_mul_of_nonneg_left b1 (zpow_pos (by norm_num) _).le
  have hge : pow2 ((n.log2 : Int) - d.log2 - 1) ≤ x := by
    rw [pow2_eq, hx', le_div_iff₀ d0]
    calc (2 : ℚ) ^ ((n.log2 : Int) - d.log2 - 1) * d ≤ 2 ^ ((n.log2 : Int) - d.log2 - 1) * 2 ^ (d.log2 + 1) :=
          mul_le_mul_of_nonneg_left b2.le (zpow_pos (by norm_num) _).le
      _ = 2 ^ n.log2 := by
        rw [← zpow_natCast, ← zpow_natCast, ← zpow_add₀ (by norm_num)]
        congr 1; push_cast; ring
      _ ≤ _ := a1
  unfold ilog2
  dsimp only
  split
  · exact ⟨‹_›, hlt⟩
  · refine ⟨hge, ?_⟩
    rw [sub_add_cancel]
    exact not_le.mp ‹_›

theorem pow2_le {j k : Int} : pow2 j ≤ pow2 k ↔ j ≤ k := by
  rw [pow2_eq, pow2_eq]
  exact zpow_le_zpow_iff_right₀ (by norm_num)

theorem pow2_lt {j k : Int} : pow2 j < pow2 k ↔ j < k := by
  rw [pow2_eq, pow2_eq]
  exact zpow_lt_zpow_iff_right₀ (by norm_num)

theorem ilog2_mono {x y : ℚ} (hx : 0 < x) (h : x ≤ y) : ilog2 x ≤ ilog2 y := by
  have := (ilog2_spec hx).1.trans_lt (h.trans_lt (ilog2_spec (hx.trans_le h)).2)
  have := pow2_lt.mp this
  omega

/-- The nearest integer, the even one of two. -/
def rne (x : ℚ) : Int :=
  let f := ⌊x⌋
  if x - f < 1 / 2 then f else if 1 / 2 < x - f then f + 1 else if f % 2 = 0 then f else f + 1

theorem rne_int (n : Int) : rne n = n := by simp [rne]

theorem rne_err (x : ℚ) : |rne x - x| ≤ 1 / 2 := by
  have h1 := Int.floor_le x
  have h2 := Int.lt_floor_add_one x
  unfold rne
  dsimp only
  rw [abs_le]
  split_ifs <;> push_cast <;> constructor <;> linarith

theorem rne_mono : Monotone rne := by
  intro x y h
  have hf := Int.floor_mono h
  rcases hf.lt_or_eq with hlt | heq
  · have : rne x ≤ ⌊x⌋ + 1 := by unfold rne; dsimp only; split_ifs <;> omega
    have : ⌊y⌋ ≤ rne y := by unfold rne; dsimp only; split_ifs <;> omega
    omega
  · unfold rne
    dsimp only
    rw [← heq]
    split_ifs <;> first | omega | (exfalso; linarith)

/-- The exponent of the last place of a number: `p` digits, but not below `emin`. -/
def place (p : Nat) (emin : Int) (x : ℚ) : Int := if x = 0 then emin else max (ilog2 |x| - p + 1) emin

/-- The nearest number of at most `p` binary digits, the last of which stands for at least `2 ^ emin`. -/
def round (p : Nat) (emin : Int) (x : ℚ) : ℚ :=
  let u := pow2 (place p emin x)
  rne (x / u) * u

section
variable {p : Nat} {emin : Int} {x : ℚ}

theorem round_mul {x : ℚ} {m : Int} (h : x = m * pow2 (place p emin x)) : round p emin x = x := by
  have hu := (pow2_pos (place p emin x)).ne'
  unfold round
  dsimp only
  conv_lhs => rw [show x / pow2 (place p emin x) = (m : ℚ) by rw [div_eq_iff hu]; exact h]
  rw [rne_int]
  exact h.symm

theorem round_le {x z : ℚ} (h : x ≤ z) {m : Int} (hz : z = m * pow2 (place p emin x)) : round p emin x ≤ z := by
  have hu := pow2_pos (place p emin x)
  unfold round
  dsimp only
  rw [hz]
  refine mul_le_mul_of_nonneg_right ?_ hu.le
  have : rne (x / pow2 (place p emin x)) ≤ rne (m : ℚ) := rne_mono (by rw [div_le_iff₀ hu, ← hz]; exact h)
  rw [rne_int] at this
  exact_mod_cast this

theorem le_round {x z : ℚ} (h : z ≤ x) {m : Int} (hz : z = m * pow2 (place p emin x)) : z ≤ round p emin x := by
  have hu := pow2_pos (place p emin x)
  unfold round
  dsimp only
  rw [hz]
  refine mul_le_mul_of_nonneg_right ?_ hu.le
  have : rne (m : ℚ) ≤ rne (x / pow2 (place p emin x)) := rne_mono (by rw [le_div_iff₀ hu, ← hz]; exact h)
  rw [rne_int] at this
  exact_mod_cast this

theorem pow2_mul {j k : Int} (h : j ≤ k) : ∃ m : Int, pow2 k = m * pow2 j := by
  refine ⟨2 ^ (k - j).toNat, ?_⟩
  rw [pow2_eq, pow2_eq]
  push_cast
  rw [← zpow_natCast, ← zpow_add₀ (by norm_num)]
  congr 1
  omega

theorem place_mono {x y : ℚ} (h : |x| ≤ |y|) : place p emin x ≤ place p emin y := by
  unfold place
  by_cases hx : x = 0
  · rw [if_pos hx]
    split_ifs <;> omega
  · have hx' : 0 < |x| := abs_pos.mpr hx
    have hy : y ≠ 0 := abs_pos.mp (hx'.trans_le h)
    rw [if_neg hx, if_neg hy]
    have := ilog2_mono hx' h
    omega

/-- If the places differ, a power of two is between the absolute values. -/
theorem place_lt {x y : ℚ} (h : place p emin x < place p emin y) (hp : 0 < p) :
    ∃ k, |x| ≤ pow2 k ∧ pow2 k ≤ |y| ∧ place p emin y ≤ k := by
  unfold place at h ⊢
  by_cases hy : y = 0
  · rw [if_pos hy] at h
    split_ifs at h <;> omega
  · rw [if_neg hy] at h ⊢
    have hy' := ilog2_spec (abs_pos.mpr hy)
    have hm : emin < ilog2 |y| - p + 1 := by split_ifs at h <;> omega
    refine ⟨ilog2 |y|, ?_, hy'.1, by omega⟩
    by_cases hx : x = 0
    · rw [hx, abs_zero]; exact (pow2_pos _).le
    · rw [if_neg hx] at h
      have hx' := ilog2_spec (abs_pos.mpr hx)
      exact hx'.2.le.trans (pow2_le.mpr (by omega))

theorem round_mono (hp : 0 < p) : Monotone (round p emin) := by
  intro x y h
  -- a number between, in the last place of both
  have between : ∀ z, x ≤ z → z ≤ y → (∃ m : Int, z = m * pow2 (place p emin x)) →
      (∃ m : Int, z = m * pow2 (place p emin y)) → round p emin x ≤ round p emin y :=
    fun z h1 h2 ⟨m, hm⟩ ⟨n, hn⟩ => (round_le h1 hm).trans (le_round h2 hn)
  by_cases hx : 0 ≤ x
  · rcases (place_mono (p := p) (emin := emin) (x := x) (y := y)
      (by rw [abs_of_nonneg hx, abs_of_nonneg (hx.trans h)]; exact h)).lt_or_eq with hlt | heq
    · obtain ⟨k, h1, h2, h3⟩ := place_lt hlt hp
      rw [abs_of_nonneg hx] at h1
      rw [abs_of_nonneg (hx.trans h)] at h2
      exact between _ h1 h2 (pow2_mul (by omega)) (pow2_mul h3)
    · unfold round
      dsimp only
      rw [heq]
      have hu := pow2_pos (place p emin y)
      refine mul_le_mul_of_nonneg_right ?_ hu.le
      exact_mod_cast rne_mono (div_le_div_of_nonneg_right h hu.le)
  · push Not at hx
    by_cases hy : 0 ≤ y
    · exact between 0 hx.le hy ⟨0, by simp⟩ ⟨0, by simp⟩
    · push Not at hy
      rcases (place_mono (p := p) (emin := emin) (x := y) (y := x)
        (by rw [abs_of_neg hx, abs_of_neg hy]; linarith)).lt_or_eq with hlt | heq
      · obtain ⟨k, h1, h2, h3⟩ := place_lt hlt hp
        rw [abs_of_neg hx] at h2
        rw [abs_of_neg hy] at h1
        obtain ⟨m, hm⟩ := pow2_mul (show place p emin y ≤ k by omega)
        obtain ⟨n, hn⟩ := pow2_mul h3
        exact between (-pow2 k) (by linarith) (by linarith) ⟨-n, by rw [hn]; push_cast; ring⟩
          ⟨-m, by rw [hm]; push_cast; ring⟩
      · unfold round
        dsimp only
        rw [heq]
        have hu := pow2_pos (place p emin x)
        refine mul_le_mul_of_nonneg_right ?_ hu.le
        exact_mod_cast rne_mono (div_le_div_of_nonneg_right h hu.le)

/-- The error is at most half a unit in the last place. -/
theorem round_err (x : ℚ) : |round p emin x - x| ≤ pow2 (place p emin x) / 2 := by
  have hu := pow2_pos (place p emin x)
  have := rne_err (x / pow2 (place p emin x))
  unfold round
  dsimp only
  have e : (rne (x / pow2 (place p emin x)) : ℚ) * pow2 (place p emin x) - x =
      (rne (x / pow2 (place p emin x)) - x / pow2 (place p emin x)) * pow2 (place p emin x) := by
    field_simp
  rw [e, abs_mul, abs_of_pos hu]
  nlinarith

/-- A number is one of the format. -/
def IsNum (p : Nat) (emin : Int) (x : ℚ) : Prop :=
  ∃ (m : Int) (e : Int), x = m * pow2 e ∧ m.natAbs ≤ 2 ^ p ∧ emin ≤ e

/-- Numbers of the format are not changed. -/
theorem round_num (hp : 0 < p) {x : ℚ} (h : IsNum p emin x) : round p emin x = x := by
  obtain ⟨m, e, rfl, hm, he⟩ := h
  by_cases h0 : (m : ℚ) * pow2 e = 0
  · refine round_mul (m := 0) ?_
    rw [h0]; simp
  · have hle : (|(m : ℚ)| : ℚ) ≤ pow2 p := by
      rw [pow2_eq, zpow_natCast]
      have : ((m.natAbs : ℤ) : ℚ) ≤ ((2 ^ p : ℕ) : ℚ) := by exact_mod_cast hm
      rw [Int.natCast_natAbs] at this
      push_cast at this
      exact this
    have hup : |(m : ℚ) * pow2 e| ≤ pow2 (p + e) := by
      rw [abs_mul, abs_of_pos (pow2_pos e)]
      refine (mul_le_mul_of_nonneg_right hle (pow2_pos e).le).trans_eq ?_
      rw [pow2_eq, pow2_eq, pow2_eq, ← zpow_add₀ (by norm_num)]
    have hs := ilog2_spec (abs_pos.mpr h0)
    have hl : ilog2 |(m : ℚ) * pow2 e| ≤ p + e := pow2_le.mp (hs.1.trans hup)
    rcases hl.lt_or_eq with hl | hl
    · have : place p emin ((m : ℚ) * pow2 e) ≤ e := by
        unfold place
        rw [if_neg h0]
        omega
      obtain ⟨n, hn⟩ := pow2_mul this
      exact round_mul (m := m * n) (by push_cast; rw [mul_assoc, ← hn])
    · -- a power of two
      have he : |(m : ℚ) * pow2 e| = pow2 (p + e) := le_antisymm hup (hl ▸ hs.1)
      have hpl : place p emin ((m : ℚ) * pow2 e) ≤ p + e := by
        unfold place
        rw [if_neg h0]
        omega
      obtain ⟨n, hn⟩ := pow2_mul hpl
      rcases abs_eq (pow2_pos _).le |>.mp he with h | h
      · exact round_mul (m := n) (h.trans hn)
      · exact round_mul (m := -n) (h.trans (by rw [hn]; push_cast; ring))

/-- The result is a number of the format. -/
theorem round_isNum (x : ℚ) : IsNum p emin (round p emin x) := by
  refine ⟨rne (x / pow2 (place p emin x)), place p emin x, rfl, ?_, ?_⟩
  · have hu := pow2_pos (place p emin x)
    have hx : |x / pow2 (place p emin x)| ≤ ((2 ^ p : ℕ) : ℤ) := by
      rw [abs_div, abs_of_pos hu, div_le_iff₀ hu]
      by_cases h0 : x = 0
      · rw [h0, abs_zero]; exact mul_nonneg (by positivity) (pow2_pos _).le
      · refine (ilog2_spec (abs_pos.mpr h0)).2.le.trans ?_
        have : pow2 (p + place p emin x) = (((2 ^ p : ℕ) : ℤ) : ℚ) * pow2 (place p emin x) := by
          rw [pow2_eq, pow2_eq, zpow_add₀ (by norm_num)]
          push_cast
          rw [zpow_natCast]
        rw [← this]
        refine pow2_le.mpr ?_
        unfold place
        rw [if_neg h0]
        omega
    rw [abs_le] at hx
    have h1 := rne_mono hx.1
    have h2 := rne_mono hx.2
    rw [rne_int] at h2
    rw [← Int.cast_neg, rne_int] at h1
    omega
  · unfold place
    split_ifs <;> omega

theorem IsNum.wider {q : Nat} {f : Int} (h : IsNum p emin x) (hp : p ≤ q) (hf : f ≤ emin) :
    IsNum q f x := by
  obtain ⟨m, e, h1, h2, h3⟩ := h
  exact ⟨m, e, h1, h2.trans (Nat.pow_le_pow_right (by norm_num) hp), hf.trans h3⟩

theorem IsNum.double (h : IsNum p emin x) : IsNum p emin (x + x) := by
  obtain ⟨m, e, h1, h2, h3⟩ := h
  refine ⟨m, e + 1, ?_, h2, by omega⟩
  rw [h1, pow2_eq, pow2_eq, zpow_add₀ (by norm_num)]
  ring

theorem isNum_int (he : emin ≤ 0) {n : Int} (h : n.natAbs ≤ 2 ^ p) : IsNum p emin n :=
  ⟨n, 0, by simp [pow2], h, he⟩

theorem isNum_half (he : emin < 0) (m : Int) (h : m.natAbs ≤ 2 ^ p) : IsNum p emin (m / 2) :=
  ⟨m, -1, by rw [pow2_eq]; norm_num; ring, h, by omega⟩

/-- The relative error is at most `2 ^ (-p)`, and the absolute error near 0 at most half of the
smallest number. -/
theorem round_rel (x : ℚ) : |round p emin x - x| ≤ max (pow2 (-p) * |x|) (pow2 (emin - 1)) := by
  refine (round_err x).trans ?_
  have half : ∀ k, pow2 k / 2 = pow2 (k - 1) := fun k => by
    rw [pow2_eq, pow2_eq, zpow_sub₀ (by norm_num)]; norm_num
  rw [half]
  unfold place
  by_cases h0 : x = 0
  · rw [if_pos h0]
    exact le_max_right _ _
  · rw [if_neg h0]
    rcases le_total (ilog2 |x| - p + 1) emin with h | h
    · rw [max_eq_right h]
      exact le_max_right _ _
    · rw [max_eq_left h]
      refine le_max_of_le_left ?_
      have := (ilog2_spec (abs_pos.mpr h0)).1
      have e : pow2 (ilog2 |x| - p + 1 - 1) = pow2 (-p) * pow2 (ilog2 |x|) := by
        rw [pow2_eq, pow2_eq, pow2_eq, ← zpow_add₀ (by norm_num)]
        congr 1; ring
      rw [e]
      exact mul_le_mul_of_nonneg_left this (pow2_pos _).le

/-- Numbers below 1 are at least a last place below 1. -/
theorem IsNum.below_one (hp : 0 < p) (h : IsNum p emin x) (h1 : x < 1) : x ≤ 1 - pow2 (-p) := by
  obtain ⟨m, e, rfl, h2, h3⟩ := h
  by_cases he : -(p : Int) ≤ e
  · obtain ⟨n, hn⟩ := pow2_mul he
    have h0 := pow2_pos (-(p : Int))
    have one : (1 : ℚ) = ((2 ^ p : ℕ) : ℤ) * pow2 (-p) := by
      rw [pow2_eq, zpow_neg, zpow_natCast]
      push_cast
      field_simp
    rw [hn, ← mul_assoc] at h1 ⊢
    rw [one] at h1 ⊢
    have h4 : m * n < ((2 ^ p : ℕ) : ℤ) := by
      have := lt_of_mul_lt_mul_right h1 h0.le
      exact_mod_cast this
    have h5 : ((m * n : ℤ) : ℚ) ≤ ((2 ^ p : ℕ) : ℤ) - 1 := by exact_mod_cast Int.le_sub_one_of_lt h4
    push_cast at h5 ⊢
    nlinarith
  · have hm : (m : ℚ) ≤ pow2 p := by
      rw [pow2_eq, zpow_natCast]
      have : m ≤ ((2 ^ p : ℕ) : ℤ) := by omega
      exact_mod_cast this
    have h4 : (m : ℚ) * pow2 e ≤ pow2 (-1) := by
      calc (m : ℚ) * pow2 e ≤ pow2 p * pow2 e := mul_le_mul_of_nonneg_right hm (pow2_pos e).le
        _ = pow2 (p + e) := by rw [pow2_eq, pow2_eq, pow2_eq, zpow_add₀ (by norm_num)]
        _ ≤ pow2 (-1) := pow2_le.mpr (by omega)
    have h5 : pow2 (-(p : Int)) ≤ pow2 (-1) := pow2_le.mpr (by omega)
    have h6 : pow2 (-1) = 1 / 2 := by rw [pow2_eq]; norm_num
    rw [h6] at h4 h5
    linarith

/-- Numbers of `p` digits that are not too small are multiples of a power of two. -/
theorem round_mult {k : Int} (h : pow2 k ≤ x) (hx : round p emin x = x) : ∃ m : Int, x = m * pow2 (k - p + 1) := by
  have h0 : 0 < x := (pow2_pos k).trans_le h
  have hk : k - p + 1 ≤ place p emin x := by
    unfold place
    rw [if_neg h0.ne', abs_of_pos h0]
    have : k < ilog2 x + 1 := pow2_lt.mp (h.trans_lt (ilog2_spec h0).2)
    omega
  obtain ⟨n, hn⟩ := pow2_mul hk
  refine ⟨rne (x / pow2 (place p emin x)) * n, ?_⟩
  conv_lhs => rw [← hx]
  unfold round
  dsimp only
  rw [hn]
  push_cast
  ring

end

/-- `double` is binary64, `float` is binary32. -/
def ieee : Rnd ℚ := ⟨round 53 (-1074), round 24 (-149)⟩

theorem ieee_d {x : ℚ} (h : IsNum 53 (-1074) x) : ieee.d x = x := round_num (by norm_num) h
theorem ieee_s {x : ℚ} (h : IsNum 24 (-149) x) : ieee.s x = x := round_num (by norm_num) h

theorem ieee_sound : ieee.Sound where
  d_mono := round_mono (by norm_num)
  s_mono := round_mono (by norm_num)
  d_zero := by simpa using ieee_d (isNum_int (n := 0) (by norm_num) (by norm_num))
  d_one := by simpa using ieee_d (isNum_int (n := 1) (by norm_num) (by norm_num))
  d_half := by simpa using ieee_d (isNum_half (by norm_num) 1 (by norm_num))
  d_neg_half := by
    have := ieee_d (isNum_half (by norm_num) (-1) (by norm_num))
    rwa [show (((-1 : Int) : ℚ) / 2) = -(1 / 2) by norm_num] at this
  s_zero := by simpa using ieee_s (isNum_int (n := 0) (by norm_num) (by norm_num))
  s_one := by simpa using ieee_s (isNum_int (n := 1) (by norm_num) (by norm_num))
  s_half := by simpa using ieee_s (isNum_half (by norm_num) 1 (by norm_num))
  d_s := fun x => ieee_d ((round_isNum x).wider (by norm_num) (by norm_num))
  s_s := fun x => ieee_s (round_isNum x)
  d_d := fun x => ieee_d (round_isNum x)
  d_dbl := fun x _ _ h => ieee_d (IsNum.double (h ▸ round_isNum x))

/-- Integers of at most 53 bits are numbers of type `double`. -/
theorem ieee_d_int {n : Int} (h : n.natAbs ≤ 2 ^ 53) : ieee.d n = n :=
  ieee_d (isNum_int (by norm_num) h)

/-- Integers of at most 24 bits are numbers of type `float`. -/
theorem ieee_s_int {n : Int} (h : n.natAbs ≤ 2 ^ 24) : ieee.s n = n :=
  ieee_s (isNum_int (by norm_num) h)

theorem ieee_neg_one : ieee.s (-1) = -1 := by simpa using ieee_s_int (n := -1) (by norm_num)

theorem ieee_err (x : ℚ) : |ieee.s x - x| ≤ max (pow2 (-24) * |x|) (pow2 (-150)) := by
  simpa [ieee] using round_rel (p := 24) (emin := -149) x

theorem ieee_err_d (x : ℚ) : |ieee.d x - x| ≤ max (pow2 (-53) * |x|) (pow2 (-1075)) := by
  simpa [ieee] using round_rel (p := 53) (emin := -1074) x

/-- 0.9 as `double` and as `float`, and the largest `float` below 1. -/
example : ieee.d (9 / 10) = 8106479329266893 / 2 ^ 53 ∧ ieee.s (9 / 10) = 15099494 / 2 ^ 24 ∧
    ieee.s (99999999 / 100000000) = 1 ∧ ieee.s (1 - 1 / 2 ^ 24) = 1 - 1 / 2 ^ 24 ∧
    ieee.s (1 / 2 ^ 150) = 0 ∧ ieee.s (3 / 2 ^ 151) = 1 / 2 ^ 149 := by decide +kernel

end Cnars.Ieee
