import Verif.Nal.Ieee
import Verif.Nal.Truth
import Verif.Nal.Lemmas
import Verif.Interp.Numbers

/-!
# Truth functions with infinities and NaNs

`Nal/Truth.lean` has `none` for everything that is not a finite number.  Here the same functions on the
values of `float` and `double` that are no numbers as well.  Simplified: zeros have no sign (those that occur in the
theorems are positive), NaNs have no payload.
-/

namespace Cnars.Nal.Special
open Cnars Cnars.Ieee Cnars.Props

abbrev X := Num ℚ

/-- Rounding to the two formats; the result may be infinite. -/
structure Fmt where
  d : ℚ → X
  s : ℚ → X

/-- binary64 and binary32: what exceeds the largest number after rounding is infinite. -/
def ieeeFmt : Fmt where
  d x := let y := ieee.d x
    if (2 ^ 53 - 1) * pow2 971 < y then .posInf else if y < -((2 ^ 53 - 1) * pow2 971) then .negInf else .fin y
  s x := let y := ieee.s x
    if (2 ^ 24 - 1) * pow2 104 < y then .posInf else if y < -((2 ^ 24 - 1) * pow2 104) then .negInf else .fin y

/-- Conversion. -/
def cvt (r : ℚ → X) : X → X
  | .fin x => r x
  | x => x

def neg : X → X
  | .fin x => .fin (-x)
  | .posInf => .negInf
  | .negInf => .posInf
  | .nan => .nan

/-- `+` -/
def add (r : ℚ → X) : X → X → X
  | .nan, _ => .nan
  | _, .nan => .nan
  | .posInf, .negInf => .nan
  | .negInf, .posInf => .nan
  | .posInf, _ => .posInf
  | _, .posInf => .posInf
  | .negInf, _ => .negInf
  | _, .negInf => .negInf
  | .fin x, .fin y => r (x + y)

/-- `-` -/
def sub (r : ℚ → X) (x y : X) : X := add r x (neg y)

/-- Infinity with the sign of a number; NaN for 0. -/
def infTimes (x : ℚ) : X := if 0 < x then .posInf else if x < 0 then .negInf else .nan

/-- `*` -/
def mul (r : ℚ → X) : X → X → X
  | .nan, _ => .nan
  | _, .nan => .nan
  | .posInf, .posInf => .posInf
  | .negInf, .negInf => .posInf
  | .posInf, .negInf => .negInf
  | .negInf, .posInf => .negInf
  | .posInf, .fin y => infTimes y
  | .fin x, .posInf => infTimes x
  | .negInf, .fin y => infTimes (-y)
  | .fin x, .negInf => infTimes (-x)
  | .fin x, .fin y => r (x * y)

/-- `/` -/
def div (r : ℚ → X) : X → X → X
  | .nan, _ => .nan
  | _, .nan => .nan
  | .fin x, .fin y => if y = 0 then infTimes x else r (x / y)
  | .fin _, _ => .fin 0
  | .posInf, .fin y => if 0 ≤ y then .posInf else .negInf
  | .negInf, .fin y => if 0 ≤ y then .negInf else .posInf
  | _, _ => .nan

/-- `x > y` for a finite `y`: false for a NaN. -/
def gt (x : X) (y : ℚ) : Bool :=
  match x with
  | .fin x => decide (y < x)
  | .posInf => true
  | _ => false

/-- `x < y`: false for NaNs. -/
def lt : X → X → Bool
  | .fin x, .fin y => decide (x < y)
  | .negInf, .fin _ => true
  | .negInf, .posInf => true
  | .fin _, .posInf => true
  | _, _ => false

variable (F : Fmt)

/-- `And` of two, three and four numbers (ExtendedBooleanFunction.h:10-14). -/
def and2 (x1 x2 : X) : X := mul F.d x1 x2
def and3 (x1 x2 x3 : X) : X := mul F.d (and2 F x1 x2) x3
def and4 (x1 x2 x3 x4 : X) : X := mul F.d (and3 F x1 x2 x3) x4
/-- `Or` of two numbers (ExtendedBooleanFunction.h:16). -/
def or2 (x1 x2 : X) : X := sub F.d (.fin 1) (mul F.d (sub F.d (.fin 1) x1) (sub F.d (.fin 1) x2))

/-- `e()` (Truth.h:26-29). -/
def e (t : Truth X) : X := add F.d (mul F.d t.c (sub F.d t.f (.fin (1 / 2)))) (.fin (1 / 2))

/-- `w()` (Truth.h:31-34). -/
def w (t : Truth X) : X := div F.s (mul F.s t.k t.c) (sub F.s (.fin 1) t.c)

/-- `w_p()` (Truth.h:36-39). -/
def wp (t : Truth X) : X := div F.s (mul F.s (mul F.s t.k t.f) t.c) (sub F.s (.fin 1) t.c)

/-- `set_w(w_p, w)` (Truth.h:46-50). -/
def setW (t : Truth X) (wp w : X) : Truth X where
  f := cvt F.s (if gt w 0 then div F.d wp w else .fin (1 / 2))
  c := cvt F.s (div F.d w (add F.d w t.k))
  k := t.k

/-- `Truth(k)` (Truth.h:24). -/
def deflt (k : X) : Truth X := ⟨.fin 1, F.s (9 / 10), k⟩

/-- `w_to_f` (UncertaintyMappingFunctions.h:12); the parameters are `float`. -/
def wToF (wPlus w : X) : X :=
  if gt (cvt F.s w) (1 / 100000000) then div F.s (cvt F.s wPlus) (cvt F.s w) else .fin 0

/-- `w_to_c` (UncertaintyMappingFunctions.h:13). -/
def wToC (w k : X) : X := div F.s (cvt F.s w) (add F.s (cvt F.s w) (cvt F.s k))

/-- `truth_revision` (TruthFunctions.h:19-30): the new value of `truth1`. -/
def revision (t1 t2 : Truth X) : Truth X where
  f := wToF F (add F.d (wp F t1) (wp F t2)) (add F.d (w F t1) (w F t2))
  c := wToC F (add F.d (w F t1) (w F t2)) t1.k
  k := t1.k

/-- `truth_deduction` (TruthFunctions.h:37-47). -/
def deduction (t1 t2 : Truth X) : Truth X :=
  ⟨cvt F.s (and2 F t1.f t2.f), cvt F.s (and4 F t1.f t2.f t1.c t2.c), t1.k⟩

/-- `truth_induction` (TruthFunctions.h:49-56). -/
def induction (t1 t2 : Truth X) : Truth X :=
  setW F (deflt F (.fin 1)) (and4 F t1.f t2.f t1.c t2.c) (and3 F t2.f t1.c t2.c)

/-- `truth_comparison` (TruthFunctions.h:58-65). -/
def comparison (t1 t2 : Truth X) : Truth X :=
  setW F (deflt F (.fin 1)) (and4 F t1.f t2.f t1.c t2.c) (and3 F (or2 F t1.f t2.f) t1.c t2.c)

/-- `Budget::quality_from_truth` (Budget.h:30-34): `std::max(a, b)` is `a < b ? b : a`. -/
def quality (t : Truth X) : X :=
  let a := e F t
  let b := mul F.d (sub F.d (.fin 1) a) (.fin (3 / 4))
  if lt a b then b else a

/-- The finite truth value. -/
def lift (t : Truth ℚ) : Truth X := ⟨.fin t.f, .fin t.c, .fin t.k⟩

/-! ## Finite values -/

variable {F}

/-- Nothing overflows up to `B`. -/
structure Fits (F : Fmt) (R : Rnd ℚ) (B : ℚ) : Prop where
  d : ∀ x, |x| ≤ B → F.d x = .fin (R.d x)
  s : ∀ x, |x| ≤ B → F.s x = .fin (R.s x)
  d_le : ∀ x, |x| ≤ B → |R.d x| ≤ B
  s_le : ∀ x, |x| ≤ B → |R.s x| ≤ B

theorem ieee_fits : Fits ieeeFmt ieee (2 ^ 120) := by
  have p : ((2 ^ 120 : Int) : ℚ) = 2 ^ 120 := by norm_num
  have dB : ieee.d (2 ^ 120) = 2 ^ 120 := ieee_d ⟨1, 120, by rw [pow2_eq]; norm_num, by norm_num, by norm_num⟩
  have sB : ieee.s (2 ^ 120) = 2 ^ 120 := ieee_s ⟨1, 120, by rw [pow2_eq]; norm_num, by norm_num, by norm_num⟩
  have dB' : ieee.d (-2 ^ 120) = -2 ^ 120 := ieee_d ⟨-1, 120, by rw [pow2_eq]; norm_num, by norm_num, by norm_num⟩
  have sB' : ieee.s (-2 ^ 120) = -2 ^ 120 := ieee_s ⟨-1, 120, by rw [pow2_eq]; norm_num, by norm_num, by norm_num⟩
  have dl : ∀ x, |x| ≤ 2 ^ 120 → |ieee.d x| ≤ 2 ^ 120 := fun x h => by
    rw [abs_le] at h ⊢
    exact ⟨dB' ▸ ieee_sound.d_mono h.1, dB ▸ ieee_sound.d_mono h.2⟩
  have sl : ∀ x, |x| ≤ 2 ^ 120 → |ieee.s x| ≤ 2 ^ 120 := fun x h => by
    rw [abs_le] at h ⊢
    exact ⟨sB' ▸ ieee_sound.s_mono h.1, sB ▸ ieee_sound.s_mono h.2⟩
  have b1 : (2 : ℚ) ^ 120 ≤ (2 ^ 24 - 1) * pow2 104 := by rw [pow2_eq]; norm_num
  have b2 : (2 : ℚ) ^ 120 ≤ (2 ^ 53 - 1) * pow2 971 := by
    have : pow2 104 ≤ pow2 971 := pow2_le.mpr (by norm_num)
    have h104 : pow2 104 = 2 ^ 104 := by rw [pow2_eq]; norm_num
    rw [h104] at this
    nlinarith
  refine ⟨fun x h => ?_, fun x h => ?_, dl, sl⟩
  · have := abs_le.mp (dl x h)
    show (if _ then _ else if _ then _ else _) = _
    rw [if_neg (by linarith [this.2]), if_neg (by linarith [this.1])]
  · have := abs_le.mp (sl x h)
    show (if _ then _ else if _ then _ else _) = _
    rw [if_neg (by linarith [this.2]), if_neg (by linarith [this.1])]

theorem isNum_pow {p : Nat} {emin : Int} {n : Int} (h : emin ≤ n) : IsNum p emin (pow2 n) :=
  ⟨1, n, by simp, Nat.one_le_two_pow, h⟩

theorem s_le_pow {x : ℚ} {n : Int} (hn : -149 ≤ n) (h : x ≤ pow2 n) : ieee.s x ≤ pow2 n :=
  (ieee_sound.s_mono h).trans_eq (ieee_s (isNum_pow hn))

theorem d_le_pow {x : ℚ} {n : Int} (hn : -1074 ≤ n) (h : x ≤ pow2 n) : ieee.d x ≤ pow2 n :=
  (ieee_sound.d_mono h).trans_eq (ieee_d (isNum_pow hn))

theorem pow_le_s {x : ℚ} {n : Int} (hn : -149 ≤ n) (h : pow2 n ≤ x) : pow2 n ≤ ieee.s x :=
  (ieee_s (isNum_pow hn)).symm.le.trans (ieee_sound.s_mono h)

theorem fin_s {x : ℚ} {n : Int} (hn : n ≤ 120) (h0 : 0 ≤ x) (h : x ≤ pow2 n) : ieeeFmt.s x = .fin (ieee.s x) := by
  refine ieee_fits.s x ?_
  rw [abs_of_nonneg h0]
  refine (h.trans (pow2_le.mpr hn)).trans_eq ?_
  rw [pow2_eq]
  norm_num

theorem fin_d {x : ℚ} {n : Int} (hn : n ≤ 120) (h0 : 0 ≤ x) (h : x ≤ pow2 n) : ieeeFmt.d x = .fin (ieee.d x) := by
  refine ieee_fits.d x ?_
  rw [abs_of_nonneg h0]
  refine (h.trans (pow2_le.mpr hn)).trans_eq ?_
  rw [pow2_eq]
  norm_num

theorem sub_fin (r : ℚ → X) (x y : ℚ) : sub r (.fin x) (.fin y) = r (x - y) := by
  show r (x + -y) = _
  rw [sub_eq_add_neg]

/-- The amounts of evidence of a truth value with confidence below 1 are finite numbers. -/
theorem amounts {t : Truth ℚ} (hf : 0 ≤ t.f ∧ t.f ≤ 1) (hc : 0 ≤ t.c ∧ t.c ≤ 1 - 1 / 2 ^ 24)
    (hk : 0 ≤ t.k ∧ t.k ≤ 2 ^ 60) :
    ∃ a b, t.w ieee = some a ∧ t.wp ieee = some b ∧ w ieeeFmt (lift t) = .fin a ∧ wp ieeeFmt (lift t) = .fin b ∧
      0 ≤ a ∧ a ≤ pow2 84 ∧ 0 ≤ b ∧ b ≤ pow2 84 := by
  have p60 : (2 : ℚ) ^ 60 = pow2 60 := by rw [pow2_eq]; norm_num
  have p24 : (1 : ℚ) / 2 ^ 24 = pow2 (-24) := by rw [pow2_eq]; norm_num
  rw [p60] at hk
  have hc1 : t.c ≤ 1 := hc.2.trans (by norm_num)
  have up : ∀ x y, 0 ≤ x → x ≤ pow2 60 → 0 ≤ y → y ≤ 1 →
      mul ieeeFmt.s (.fin x) (.fin y) = .fin (ieee.s (x * y)) ∧ 0 ≤ ieee.s (x * y) ∧ ieee.s (x * y) ≤ pow2 60 := by
    intro x y h1 h2 h3 h4
    have h5 : x * y ≤ pow2 60 := (mul_le_of_le_one_right h1 h4).trans h2
    exact ⟨fin_s (n := 60) (by norm_num) (mul_nonneg h1 h3) h5, ieee_sound.s_nonneg (mul_nonneg h1 h3),
      s_le_pow (by norm_num) h5⟩
  have d1 : sub ieeeFmt.s (.fin 1) (.fin t.c) = .fin (ieee.s (1 - t.c)) := by
    rw [sub_fin]
    exact fin_s (n := 0) (by norm_num) (by linarith) (by rw [pow2_eq]; norm_num; linarith [hc.1])
  have d2 : pow2 (-24) ≤ ieee.s (1 - t.c) := pow_le_s (by norm_num) (by rw [← p24]; linarith [hc.2])
  have d0 : 0 < ieee.s (1 - t.c) := (pow2_pos _).trans_le d2
  have quot : ∀ x, 0 ≤ x → x ≤ pow2 60 →
      div ieeeFmt.s (.fin x) (.fin (ieee.s (1 - t.c))) = .fin (ieee.s (x / ieee.s (1 - t.c))) ∧
      0 ≤ ieee.s (x / ieee.s (1 - t.c)) ∧ ieee.s (x / ieee.s (1 - t.c)) ≤ pow2 84 := by
    intro x h1 h2
    have h3 : x / ieee.s (1 - t.c) ≤ pow2 84 := by
      rw [div_le_iff₀ d0]
      calc x ≤ pow2 60 := h2
        _ = pow2 84 * pow2 (-24) := by rw [pow2_eq, pow2_eq, pow2_eq, ← zpow_add₀ (by norm_num)]; norm_num
        _ ≤ _ := mul_le_mul_of_nonneg_left d2 (pow2_pos _).le
    have h4 := div_nonneg h1 d0.le
    refine ⟨?_, ieee_sound.s_nonneg h4, s_le_pow (by norm_num) h3⟩
    show (if _ then _ else _) = _
    rw [if_neg d0.ne']
    exact fin_s (n := 84) (by norm_num) h4 h3
  obtain ⟨a1, a2, a3⟩ := up t.k t.c hk.1 hk.2 hc.1 hc1
  obtain ⟨b1, b2, b3⟩ := up t.k t.f hk.1 hk.2 hf.1 hf.2
  obtain ⟨c1, c2, c3⟩ := up _ t.c b2 b3 hc.1 hc1
  obtain ⟨e1, e2, e3⟩ := quot _ a2 a3
  obtain ⟨f1, f2, f3⟩ := quot _ c2 c3
  refine ⟨_, _, ?_, ?_, ?_, ?_, e2, e3, f2, f3⟩
  · simp [Truth.w, fdiv, d0.ne']
  · simp [Truth.wp, fdiv, d0.ne']
  · simp only [w, lift]
    rw [a1, d1, e1]
  · simp only [wp, lift]
    rw [b1, c1, d1, f1]

/-- Revision of finite truth values with confidence below 1 is finite, and as in `Nal/Truth.lean`. -/
theorem revision_fin {t1 t2 : Truth ℚ} (hf1 : 0 ≤ t1.f ∧ t1.f ≤ 1) (hc1 : 0 ≤ t1.c ∧ t1.c ≤ 1 - 1 / 2 ^ 24)
    (hk1 : 1 ≤ t1.k ∧ t1.k ≤ 2 ^ 60) (hf2 : 0 ≤ t2.f ∧ t2.f ≤ 1) (hc2 : 0 ≤ t2.c ∧ t2.c ≤ 1 - 1 / 2 ^ 24)
    (hk2 : 1 ≤ t2.k ∧ t2.k ≤ 2 ^ 60) :
    ∃ r, truthRevision ieee t1 t2 = some r ∧ revision ieeeFmt (lift t1) (lift t2) = lift r := by
  obtain ⟨a1, b1, h1, h2, h3, h4, h5, h6, h7, h8⟩ := amounts hf1 hc1 ⟨by linarith [hk1.1], hk1.2⟩
  obtain ⟨a2, b2, g1, g2, g3, g4, g5, g6, g7, g8⟩ := amounts hf2 hc2 ⟨by linarith [hk2.1], hk2.2⟩
  have p85 : pow2 84 + pow2 84 = pow2 85 := by
    rw [pow2_eq, pow2_eq]
    norm_num
  have sum : ∀ x y, 0 ≤ x → x ≤ pow2 84 → 0 ≤ y → y ≤ pow2 84 →
      add ieeeFmt.d (.fin x) (.fin y) = .fin (ieee.d (x + y)) ∧
      cvt ieeeFmt.s (.fin (ieee.d (x + y))) = .fin (ieee.s (ieee.d (x + y))) ∧
      0 ≤ ieee.s (ieee.d (x + y)) ∧ ieee.s (ieee.d (x + y)) ≤ pow2 85 := by
    intro x y x0 x1 y0 y1
    have h : x + y ≤ pow2 85 := by rw [← p85]; linarith
    have hd0 := ieee_sound.d_nonneg (add_nonneg x0 y0)
    have hd1 := d_le_pow (by norm_num) h
    exact ⟨fin_d (n := 85) (by norm_num) (add_nonneg x0 y0) h, fin_s (n := 85) (by norm_num) hd0 hd1,
      ieee_sound.s_nonneg hd0, s_le_pow (by norm_num) hd1⟩
  obtain ⟨w1, w2, w3, w4⟩ := sum a1 a2 h5 h6 g5 g6
  obtain ⟨p1, p2, p3, p4⟩ := sum b1 b2 h7 h8 g7 g8
  set W := ieee.s (ieee.d (a1 + a2)) with hW
  set P := ieee.s (ieee.d (b1 + b2)) with hP
  -- the frequency
  have hF : ∃ f, Nal.wToF ieee (ieee.d (b1 + b2)) (ieee.d (a1 + a2)) = some f ∧
      wToF ieeeFmt (.fin (ieee.d (b1 + b2))) (.fin (ieee.d (a1 + a2))) = .fin f := by
    unfold Nal.wToF wToF
    rw [w2, p2, ← hW, ← hP]
    by_cases hg : 1 / 100000000 < W
    · have hW0 : 0 < W := lt_trans (by norm_num) hg
      have hq : P / W ≤ pow2 115 := by
        rw [div_le_iff₀ hW0]
        have e1 : pow2 (-30) ≤ W := by
          refine le_trans ?_ hg.le
          rw [pow2_eq]
          norm_num
        calc P ≤ pow2 85 := p4
          _ = pow2 115 * pow2 (-30) := by rw [pow2_eq, pow2_eq, pow2_eq, ← zpow_add₀ (by norm_num)]; norm_num
          _ ≤ _ := mul_le_mul_of_nonneg_left e1 (pow2_pos _).le
      refine ⟨ieee.s (P / W), ?_, ?_⟩
      · rw [if_pos hg]
        simp [fdiv, hW0.ne']
      · rw [if_pos (show gt (.fin W) (1 / 100000000) = true from decide_eq_true hg)]
        show (if _ then _ else _) = _
        rw [if_neg hW0.ne']
        exact fin_s (n := 115) (by norm_num) (div_nonneg p3 w3) hq
    · refine ⟨0, by rw [if_neg hg], ?_⟩
      rw [if_neg (show ¬ gt (.fin W) (1 / 100000000) = true from fun h => hg (of_decide_eq_true h))]
  -- the confidence
  have hC : ∃ c, Nal.wToC ieee (ieee.d (a1 + a2)) t1.k = some c ∧
      wToC ieeeFmt (.fin (ieee.d (a1 + a2))) (.fin t1.k) = .fin c := by
    have p60 : (2 : ℚ) ^ 60 = pow2 60 := by rw [pow2_eq]; norm_num
    have k2 : t1.k ≤ pow2 60 := p60 ▸ hk1.2
    have k3 : cvt ieeeFmt.s (.fin t1.k) = .fin (ieee.s t1.k) := fin_s (n := 60) (by norm_num) (by linarith [hk1.1]) k2
    have k4 : 1 ≤ ieee.s t1.k := ieee_sound.s_one ▸ ieee_sound.s_mono hk1.1
    have k5 : ieee.s t1.k ≤ pow2 60 := s_le_pow (by norm_num) k2
    have k6 : pow2 60 ≤ pow2 85 := pow2_le.mpr (by norm_num)
    have p86 : pow2 85 + pow2 85 = pow2 86 := by
      rw [pow2_eq, pow2_eq]
      norm_num
    have k7 : W + ieee.s t1.k ≤ pow2 86 := by rw [← p86]; linarith
    have k8 : add ieeeFmt.s (.fin W) (.fin (ieee.s t1.k)) = .fin (ieee.s (W + ieee.s t1.k)) :=
      fin_s (n := 86) (by norm_num) (by linarith) k7
    have k9 : 1 ≤ ieee.s (W + ieee.s t1.k) := ieee_sound.s_one ▸ ieee_sound.s_mono (by linarith)
    have k0 : 0 < ieee.s (W + ieee.s t1.k) := by linarith
    refine ⟨ieee.s (W / ieee.s (W + ieee.s t1.k)), ?_, ?_⟩
    · simp [Nal.wToC, fdiv, ← hW, k0.ne']
    · unfold wToC
      rw [w2, k3, k8]
      show (if _ then _ else _) = _
      rw [if_neg k0.ne']
      exact fin_s (n := 85) (by norm_num) (div_nonneg w3 k0.le) ((div_le_self w3 k9).trans w4)
  obtain ⟨f, f1, f2⟩ := hF
  obtain ⟨c, c1, c2⟩ := hC
  refine ⟨⟨f, c, t1.k⟩, ?_, ?_⟩
  · simp [truthRevision, h1, h2, g1, g2, f1, c1]
  · simp only [revision, h3, h4, g3, g4, w1, p1, f2]
    rw [show (lift t1).k = .fin t1.k from rfl, c2]
    rfl

/-! ### Products of numbers from 0 to 1 -/

theorem one_eq : (1 : ℚ) = pow2 0 := by rw [pow2_eq]; norm_num

theorem fin_d1 {x : ℚ} (h : Unit01 x) : ieeeFmt.d x = .fin (ieee.d x) :=
  fin_d (n := 0) (by norm_num) h.1 (h.2.trans_eq one_eq)

theorem fin_s1 {x : ℚ} (h : Unit01 x) : ieeeFmt.s x = .fin (ieee.s x) :=
  fin_s (n := 0) (by norm_num) h.1 (h.2.trans_eq one_eq)

theorem mul_unit {x y : ℚ} (hx : Unit01 x) (hy : Unit01 y) :
    mul ieeeFmt.d (.fin x) (.fin y) = .fin (ieee.d (x * y)) ∧ Unit01 (ieee.d (x * y)) :=
  ⟨fin_d1 (hx.mul hy), (hx.mul hy).d ieee_sound⟩

theorem flip_unit {x : ℚ} (hx : Unit01 x) :
    sub ieeeFmt.d (.fin 1) (.fin x) = .fin (ieee.d (1 - x)) ∧ Unit01 (ieee.d (1 - x)) :=
  ⟨by rw [sub_fin]; exact fin_d1 hx.sub, hx.sub.d ieee_sound⟩

theorem and3_fin {x y z : ℚ} (hx : Unit01 x) (hy : Unit01 y) (hz : Unit01 z) :
    and3 ieeeFmt (.fin x) (.fin y) (.fin z) = .fin (Nal.and3 ieee x y z) ∧ Unit01 (Nal.and3 ieee x y z) := by
  obtain ⟨h1, h2⟩ := mul_unit hx hy
  obtain ⟨h3, h4⟩ := mul_unit h2 hz
  refine ⟨?_, h4⟩
  rw [and3, and2, h1, h3]
  rfl

theorem and4_fin {x y z v : ℚ} (hx : Unit01 x) (hy : Unit01 y) (hz : Unit01 z) (hv : Unit01 v) :
    and4 ieeeFmt (.fin x) (.fin y) (.fin z) (.fin v) = .fin (Nal.and4 ieee x y z v) ∧
      Unit01 (Nal.and4 ieee x y z v) := by
  obtain ⟨h1, h2⟩ := and3_fin hx hy hz
  obtain ⟨h3, h4⟩ := mul_unit h2 hv
  refine ⟨?_, h4⟩
  rw [and4, h1, h3]
  rfl

theorem or2_fin {x y : ℚ} (hx : Unit01 x) (hy : Unit01 y) :
    or2 ieeeFmt (.fin x) (.fin y) = .fin (Nal.or2 ieee x y) ∧ Unit01 (Nal.or2 ieee x y) := by
  obtain ⟨h1, h2⟩ := flip_unit hx
  obtain ⟨h3, h4⟩ := flip_unit hy
  obtain ⟨h5, h6⟩ := mul_unit h2 h4
  obtain ⟨h7, h8⟩ := flip_unit h6
  refine ⟨?_, h8⟩
  rw [or2, h1, h3, h5, h7]
  rfl

/-- `set_w` on a new truth value. -/
theorem setW_fin {p v : ℚ} (hp : Unit01 p) (hv : Unit01 v) (h : v = 0 ∨ p ≤ v) :
    ∃ r, (Truth.default ieee (1 : ℚ)).setW ieee p v = some r ∧
      setW ieeeFmt (deflt ieeeFmt (.fin 1)) (.fin p) (.fin v) = lift r := by
  have one : 1 ≤ ieee.d (v + 1) := ieee_sound.d_one.symm.le.trans (ieee_sound.d_mono (by linarith [hv.1]))
  have den : add ieeeFmt.d (.fin v) (.fin 1) = .fin (ieee.d (v + 1)) :=
    fin_d (n := 1) (by norm_num) (by linarith [hv.1]) (by rw [pow2_eq]; norm_num; linarith [hv.2])
  have d0 : 0 < ieee.d (v + 1) := by linarith
  have q : Unit01 (v / ieee.d (v + 1)) :=
    ⟨div_nonneg hv.1 d0.le, (div_le_one d0).mpr (hv.2.trans one)⟩
  have hc : cvt ieeeFmt.s (div ieeeFmt.d (.fin v) (add ieeeFmt.d (.fin v) (.fin 1))) =
      .fin (ieee.s (ieee.d (v / ieee.d (v + 1)))) := by
    rw [den, show div ieeeFmt.d (.fin v) (.fin (ieee.d (v + 1))) = ieeeFmt.d (v / ieee.d (v + 1)) from
      if_neg d0.ne', fin_d1 q]
    exact fin_s1 (q.d ieee_sound)
  by_cases h0 : 0 < v
  · have hle : p ≤ v := h.resolve_left h0.ne'
    have qf : Unit01 (p / v) := ⟨div_nonneg hp.1 hv.1, (div_le_one h0).mpr hle⟩
    refine ⟨⟨ieee.s (ieee.d (p / v)), ieee.s (ieee.d (v / ieee.d (v + 1))), 1⟩, ?_, ?_⟩
    · simp [Truth.setW, Truth.default, h0, fdiv, h0.ne', d0.ne']
    · unfold setW
      rw [show (deflt ieeeFmt (.fin 1)).k = .fin 1 from rfl, hc,
        if_pos (show gt (.fin v) 0 = true from decide_eq_true h0),
        show div ieeeFmt.d (.fin p) (.fin v) = ieeeFmt.d (p / v) from if_neg h0.ne', fin_d1 qf,
        show cvt ieeeFmt.s (.fin (ieee.d (p / v))) = ieeeFmt.s (ieee.d (p / v)) from rfl, fin_s1 (qf.d ieee_sound)]
      rfl
  · have half : Unit01 (1 / 2 : ℚ) := by norm_num [Unit01]
    refine ⟨⟨ieee.s (ieee.d (1 / 2)), ieee.s (ieee.d (v / ieee.d (v + 1))), 1⟩, ?_, ?_⟩
    · simp [Truth.setW, Truth.default, h0, fdiv, d0.ne']
    · unfold setW
      rw [show (deflt ieeeFmt (.fin 1)).k = .fin 1 from rfl, hc,
        if_neg (show ¬ gt (.fin v) 0 = true from fun h => h0 (of_decide_eq_true h)),
        show cvt ieeeFmt.s (.fin (1 / 2)) = ieeeFmt.s (1 / 2) from rfl, fin_s1 half, ieee_sound.d_half]
      rfl

theorem ieee_neg_half : ieee.d (-(1 / 2)) = -(1 / 2) :=
  ieee_d ⟨-1, -1, by rw [pow2_eq]; norm_num, by norm_num, by norm_num⟩

/-- Expectation and quality. -/
theorem e_fin {t : Truth ℚ} (hf : Unit01 t.f) (hc : Unit01 t.c) : e ieeeFmt (lift t) = .fin (t.e ieee) := by
  have b1 : |t.f - 1 / 2| ≤ 1 / 2 := by
    rw [abs_le]
    constructor <;> linarith [hf.1, hf.2]
  have hb : ∀ x : ℚ, |x| ≤ 1 → |x| ≤ 2 ^ 120 := fun x h => h.trans (by norm_num)
  have b2 : |ieee.d (t.f - 1 / 2)| ≤ 1 / 2 := by
    rw [abs_le] at b1 ⊢
    exact ⟨ieee_neg_half.symm.le.trans (ieee_sound.d_mono b1.1), (ieee_sound.d_mono b1.2).trans_eq ieee_sound.d_half⟩
  have b3 : |t.c * ieee.d (t.f - 1 / 2)| ≤ 1 / 2 := by
    rw [abs_mul, abs_of_nonneg hc.1]
    calc t.c * |ieee.d (t.f - 1 / 2)| ≤ 1 * (1 / 2) := mul_le_mul hc.2 b2 (abs_nonneg _) (by norm_num)
      _ = _ := by norm_num
  have b4 : |ieee.d (t.c * ieee.d (t.f - 1 / 2))| ≤ 1 / 2 := by
    rw [abs_le] at b3 ⊢
    exact ⟨ieee_neg_half.symm.le.trans (ieee_sound.d_mono b3.1), (ieee_sound.d_mono b3.2).trans_eq ieee_sound.d_half⟩
  have b5 : |ieee.d (t.c * ieee.d (t.f - 1 / 2)) + 1 / 2| ≤ 1 := by
    rw [abs_le] at b4 ⊢
    constructor <;> linarith [b4.1, b4.2]
  unfold e
  rw [show (lift t).f = .fin t.f from rfl, show (lift t).c = .fin t.c from rfl, sub_fin,
    ieee_fits.d _ (hb _ (b1.trans (by norm_num))),
    show mul ieeeFmt.d (.fin t.c) (.fin (ieee.d (t.f - 1 / 2))) = ieeeFmt.d (t.c * ieee.d (t.f - 1 / 2)) from rfl,
    ieee_fits.d _ (hb _ (b3.trans (by norm_num))),
    show add ieeeFmt.d (.fin (ieee.d (t.c * ieee.d (t.f - 1 / 2)))) (.fin (1 / 2)) =
      ieeeFmt.d (ieee.d (t.c * ieee.d (t.f - 1 / 2)) + 1 / 2) from rfl, ieee_fits.d _ (hb _ b5)]
  rfl

theorem quality_fin {t : Truth ℚ} (hf : Unit01 t.f) (hc : Unit01 t.c) (he : Unit01 (t.e ieee)) :
    quality ieeeFmt (lift t) = .fin (qualityFromTruth ieee t) := by
  obtain ⟨h1, h2⟩ := flip_unit he
  obtain ⟨h3, h4⟩ := mul_unit h2 (show Unit01 (3 / 4 : ℚ) by norm_num [Unit01])
  unfold quality qualityFromTruth
  rw [e_fin hf hc]
  dsimp only
  rw [h1, h3]
  by_cases h : t.e ieee < ieee.d (ieee.d (1 - t.e ieee) * (3 / 4))
  · rw [if_pos (show lt (.fin _) (.fin _) = true from decide_eq_true h), max_eq_right h.le]
  · rw [if_neg (show ¬ lt (.fin _) (.fin _) = true from fun hh => h (of_decide_eq_true hh)),
      max_eq_left (not_lt.mp h)]

/-! ## NaNs -/

theorem add_nan_left (r : ℚ → X) (x : X) : add r .nan x = .nan := by cases x <;> rfl
theorem add_nan_right (r : ℚ → X) (x : X) : add r x .nan = .nan := by cases x <;> rfl
theorem mul_nan_left (r : ℚ → X) (x : X) : mul r .nan x = .nan := by cases x <;> rfl
theorem mul_nan_right (r : ℚ → X) (x : X) : mul r x .nan = .nan := by cases x <;> rfl
theorem div_nan_left (r : ℚ → X) (x : X) : div r .nan x = .nan := by cases x <;> rfl
theorem div_nan_right (r : ℚ → X) (x : X) : div r x .nan = .nan := by cases x <;> rfl

theorem w_nan (F : Fmt) {t : Truth X} (h : t.c = .nan) : w F t = .nan := by
  rw [w, h, mul_nan_right, div_nan_left]

end Cnars.Nal.Special
