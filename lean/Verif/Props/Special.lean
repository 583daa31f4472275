import Verif.Nal.Special
import Verif.Props.Ieee

/-!
# C86: infinities and NaNs

The truth functions of `Nal/Special.lean`, on `float` and `double` with infinities and NaNs.
-/

namespace Cnars.Props
open Cnars Cnars.Nal Cnars.Ieee Cnars.Nal.Special

/-- Frequency and confidence from 0 to 1, both included, horizon from 1 to 2^60. -/
def Values (t : Truth ℚ) : Prop := Unit01 t.f ∧ Unit01 t.c ∧ 1 ≤ t.k ∧ t.k ≤ 2 ^ 60

/-- C86 for deduction, induction, comparison, expectation and quality: if frequencies and confidences are `float` numbers from
0 to 1, the results are finite numbers, those of `Nal/Truth.lean`. -/
theorem C86_products (t1 t2 : Truth ℚ) (h1 : Values t1) (h2 : Values t2) (hf1 : IsFloat ieee t1)
    (hf2 : IsFloat ieee t2) :
    Special.deduction ieeeFmt (lift t1) (lift t2) = lift (truthDeduction ieee t1 t2) ∧
    (∃ r, truthInduction ieee t1 t2 = some r ∧ Special.induction ieeeFmt (lift t1) (lift t2) = lift r) ∧
    (∃ r, truthComparison ieee t1 t2 = some r ∧ Special.comparison ieeeFmt (lift t1) (lift t2) = lift r) ∧
    Special.e ieeeFmt (lift t1) = .fin (t1.e ieee) ∧
    Special.quality ieeeFmt (lift t1) = .fin (qualityFromTruth ieee t1) := by
  obtain ⟨f1, c1, -, -⟩ := h1
  obtain ⟨f2, c2, -, -⟩ := h2
  obtain ⟨a1, a2⟩ := mul_unit f1 f2
  obtain ⟨b1, b2⟩ := and4_fin f1 f2 c1 c2
  obtain ⟨o1, o2⟩ := or2_fin f1 f2
  obtain ⟨i1, i2⟩ := and3_fin f2 c1 c2
  obtain ⟨j1, j2⟩ := and3_fin o2 c1 c2
  have le3 : ∀ x y, x ≤ y → Nal.and3 ieee x t1.c t2.c ≤ Nal.and3 ieee y t1.c t2.c := fun x y h =>
    ieee_sound.d_mono (mul_le_mul_of_nonneg_right (ieee_sound.d_mono (mul_le_mul_of_nonneg_right h c1.1)) c2.1)
  have hd : ∀ x : ℚ, ieee.s x = x → ieee.d x = x := fun x hx => by rw [← hx, ieee_sound.d_s, hx]
  refine ⟨?_, ?_, ?_, e_fin f1 c1, quality_fin f1 c1 (C63_expectation ieee ieee_sound t1 f1 c1).1⟩
  · unfold Special.deduction
    simp only [lift]
    rw [b1, Special.and2, a1]
    simp only [cvt]
    rw [fin_s1 a2, fin_s1 b2]
    rfl
  · obtain ⟨r, e1, e2⟩ := setW_fin b2 i2 (.inr (le3 (ieee.d (t1.f * t2.f)) t2.f
      ((ieee_sound.d_mono (mul_le_of_le_one_left f2.1 f1.2)).trans_eq (hd _ hf2.1))))
    refine ⟨r, e1, ?_⟩
    unfold Special.induction
    simp only [lift]
    rw [b1, i1]
    exact e2
  · obtain ⟨r, e1, e2⟩ := setW_fin b2 j2 (by
      rcases ieee_and_or hf1.1 hf2.1 f1.1 f1.2 f2.1 f2.2 with h | h
      · left
        rw [h]
        simp [Nal.and3, ieee_sound.d_zero]
      · exact .inr (le3 (ieee.d (t1.f * t2.f)) _ h))
    refine ⟨r, e1, ?_⟩
    unfold Special.comparison
    simp only [lift]
    rw [b1, o1, j1]
    exact e2

/-- The hypotheses are met by confidence 1, and by frequencies whose disjunction rounds to 0. -/
example : let t : Truth ℚ := ⟨1 / 2 ^ 149, 1, 1⟩
    Values t ∧ IsFloat ieee t ∧
    Special.comparison ieeeFmt (lift t) (lift t) = lift ⟨1 / 2, 0, 1⟩ ∧
    Special.induction ieeeFmt (lift ⟨1, 1, 1⟩) (lift ⟨1, 1, 1⟩) = lift ⟨1, 1 / 2, 1⟩ := by
  simp only [Values, IsFloat, Unit01]
  decide +kernel

/-- C86 for one revision: finite, and frequency and confidence from 0 to 1, if the confidences are below 1.  For
confidence 1 see `C86_certain_counterexample`. -/
theorem C86_revision_partial (t1 t2 : Truth ℚ) (h1 : Values t1) (h2 : Values t2) (hf1 : IsFloat ieee t1)
    (hf2 : IsFloat ieee t2) (hc1 : t1.c < 1) (hc2 : t2.c < 1) :
    ∃ r, Special.revision ieeeFmt (lift t1) (lift t2) = lift r ∧ truthRevision ieee t1 t2 = some r ∧
      Values r ∧ IsFloat ieee r ∧ r.k = t1.k := by
  obtain ⟨f1, c1, k1⟩ := h1
  obtain ⟨f2, c2, k2⟩ := h2
  obtain ⟨r, e1, e2⟩ := revision_fin f1 ⟨c1.1, float_below hf1.2.1 hc1⟩ k1 f2 ⟨c2.1, float_below hf2.2.1 hc2⟩ k2
  obtain ⟨g1, g2, g3, g4⟩ := C64_range ieee ieee_sound t1 t2 r ⟨f1.1, f1.2, c1.1, hc1⟩ ⟨f2.1, f2.2, c2.1, hc2⟩
    (by linarith [k1.1]) (by linarith [k2.1]) hf1 hf2 e1
  exact ⟨r, e2, e1, ⟨g1, g2, g3.symm ▸ k1⟩, g4, g3⟩

/-- C86 for sequences of revisions: if the confidences are below 1, the results are finite numbers until
the confidence is exactly 1. -/
theorem C86_sequence_partial (us : List (Truth ℚ)) : ∀ (t : Truth ℚ), Values t → IsFloat ieee t → t.c < 1 →
    (∀ u ∈ us, Values u ∧ IsFloat ieee u ∧ u.c < 1) →
    (∃ r, us.foldl (fun x u => Special.revision ieeeFmt x (lift u)) (lift t) = lift r ∧
      Values r ∧ IsFloat ieee r ∧ r.c < 1) ∨
    ∃ vs ws r, us = vs ++ ws ∧ vs.foldl (fun x u => Special.revision ieeeFmt x (lift u)) (lift t) = lift r ∧
      Values r ∧ r.c = 1 := by
  induction us with
  | nil => exact fun t h1 h2 h3 _ => .inl ⟨t, rfl, h1, h2, h3⟩
  | cons u us ih =>
    intro t h1 h2 h3 hu
    obtain ⟨u1, u2, u3⟩ := hu u (by simp)
    obtain ⟨r, e, -, r1, r2, -⟩ := C86_revision_partial t u h1 u1 h2 u2 h3 u3
    rcases r1.2.1.2.lt_or_eq with hlt | heq
    · rcases ih r r1 r2 hlt (fun v hv => hu v (by simp [hv])) with ⟨r', h⟩ | ⟨vs, ws, r', rfl, h⟩
      · refine .inl ⟨r', ?_, h.2⟩
        rw [List.foldl_cons, e]
        exact h.1
      · refine .inr ⟨u :: vs, ws, r', rfl, ?_, h.2⟩
        rw [List.foldl_cons, e]
        exact h.1
    · refine .inr ⟨[u], us, r, rfl, ?_, r1, heq⟩
      rw [List.foldl_cons, e, List.foldl_nil]

/-- The hypotheses are met, and both cases occur. -/
example : let t : Truth ℚ := ⟨1, 1 - 1 / 2 ^ 24, 1⟩
    let u : Truth ℚ := ⟨1, 1 / 2, 1⟩
    (Values t ∧ IsFloat ieee t ∧ t.c < 1 ∧ Values u ∧ IsFloat ieee u ∧ u.c < 1) ∧
    [u].foldl (fun x u => Special.revision ieeeFmt x (lift u)) (lift u) = lift ⟨1, ieee.s (2 / 3), 1⟩ ∧
    [u].foldl (fun x u => Special.revision ieeeFmt x (lift u)) (lift t) = lift ⟨1, 1, 1⟩ := by
  simp only [Values, IsFloat, Unit01]
  decide +kernel

/-- The amounts of evidence of a truth value with confidence 1: the total is infinite, the positive one is infinite
or a NaN. -/
theorem amounts_certain {t : Truth ℚ} (h : Values t) (hf : IsFloat ieee t) (hc : t.c = 1) :
    Special.w ieeeFmt (lift t) = .posInf ∧
      (Special.wp ieeeFmt (lift t) = .posInf ∨ Special.wp ieeeFmt (lift t) = .nan) := by
  obtain ⟨f1, -, k1, k2⟩ := h
  have p60 : (2 : ℚ) ^ 60 = pow2 60 := by rw [pow2_eq]; norm_num
  rw [p60] at k2
  have k0 : 0 ≤ t.k := by linarith
  have z : sub ieeeFmt.s (.fin 1) (.fin 1) = .fin 0 := by
    rw [sub_fin, sub_self]
    exact (fin_s (n := 0) (by norm_num) le_rfl (pow2_pos _).le).trans (by rw [ieee_sound.s_zero])
  have kf : t.k * t.f ≤ pow2 60 := (mul_le_of_le_one_right k0 f1.2).trans k2
  have kf0 := mul_nonneg k0 f1.1
  constructor
  · simp only [Special.w, lift]
    rw [hc, z, show mul ieeeFmt.s (.fin t.k) (.fin 1) = ieeeFmt.s (t.k * 1) from rfl, mul_one,
      fin_s (n := 60) (by norm_num) k0 k2, hf.2.2]
    show infTimes t.k = _
    rw [infTimes, if_pos (by linarith)]
  · simp only [Special.wp, lift]
    rw [hc, z, show mul ieeeFmt.s (.fin t.k) (.fin t.f) = ieeeFmt.s (t.k * t.f) from rfl,
      fin_s (n := 60) (by norm_num) kf0 kf,
      show mul ieeeFmt.s (.fin (ieee.s (t.k * t.f))) (.fin 1) = ieeeFmt.s (ieee.s (t.k * t.f) * 1) from rfl, mul_one,
      fin_s (n := 60) (by norm_num) (ieee_sound.s_nonneg kf0) (s_le_pow (by norm_num) kf)]
    show infTimes _ = _ ∨ infTimes _ = _
    rw [infTimes]
    have := ieee_sound.s_nonneg (ieee_sound.s_nonneg kf0)
    rcases this.lt_or_eq with h | h
    · rw [if_pos h]
      exact .inl rfl
    · rw [← h]
      simp

/-- C86 is false: a revision has two NaNs as soon as one of the confidences is 1. -/
theorem C86_certain_counterexample (t1 t2 : Truth ℚ) (h1 : Values t1) (h2 : Values t2) (hf1 : IsFloat ieee t1)
    (hf2 : IsFloat ieee t2) (hc : t1.c = 1 ∨ t2.c = 1) :
    (Special.revision ieeeFmt (lift t1) (lift t2)).f = .nan ∧
      (Special.revision ieeeFmt (lift t1) (lift t2)).c = .nan := by
  have key : ∀ t : Truth ℚ, Values t → IsFloat ieee t →
      (Special.w ieeeFmt (lift t) = .posInf ∧
        (Special.wp ieeeFmt (lift t) = .posInf ∨ Special.wp ieeeFmt (lift t) = .nan)) ∨
      (t.c < 1 ∧ ∃ a b, Special.w ieeeFmt (lift t) = .fin a ∧ Special.wp ieeeFmt (lift t) = .fin b) := by
    intro t h hf
    rcases h.2.1.2.lt_or_eq with hlt | heq
    · obtain ⟨a, b, -, -, e1, e2, -⟩ := amounts h.1 ⟨h.2.1.1, float_below hf.2.1 hlt⟩ ⟨by linarith [h.2.2.1], h.2.2.2⟩
      exact .inr ⟨hlt, a, b, e1, e2⟩
    · exact .inl (amounts_certain h hf heq)
  have hw : add ieeeFmt.d (Special.w ieeeFmt (lift t1)) (Special.w ieeeFmt (lift t2)) = .posInf ∧
      (add ieeeFmt.d (Special.wp ieeeFmt (lift t1)) (Special.wp ieeeFmt (lift t2)) = .posInf ∨
       add ieeeFmt.d (Special.wp ieeeFmt (lift t1)) (Special.wp ieeeFmt (lift t2)) = .nan) := by
    rcases key t1 h1 hf1 with ⟨a1, a2⟩ | ⟨l1, x, y, a1, a2⟩
    · rcases key t2 h2 hf2 with ⟨b1, b2⟩ | ⟨l2, x, y, b1, b2⟩
      · rw [a1, b1]
        refine ⟨rfl, ?_⟩
        rcases a2 with a2 | a2 <;> rcases b2 with b2 | b2 <;> rw [a2, b2] <;> simp [add]
      · rw [a1, b1, b2]
        refine ⟨rfl, ?_⟩
        rcases a2 with a2 | a2 <;> rw [a2] <;> simp [add]
    · rcases key t2 h2 hf2 with ⟨b1, b2⟩ | ⟨l2, -⟩
      · rw [a1, b1, a2]
        refine ⟨rfl, ?_⟩
        rcases b2 with b2 | b2 <;> rw [b2] <;> simp [add]
      · rcases hc with hc | hc <;> linarith
  constructor
  · show wToF _ _ _ = _
    rw [hw.1]
    rcases hw.2 with h | h <;> rw [h] <;> rfl
  · show wToC _ _ _ = _
    rw [hw.1, Special.wToC]
    have : cvt ieeeFmt.s (lift t1).k = .fin t1.k := by
      have p60 : (2 : ℚ) ^ 60 = pow2 60 := by rw [pow2_eq]; norm_num
      exact (fin_s (n := 60) (by norm_num) (by linarith [h1.2.2.1]) (p60 ▸ h1.2.2.2)).trans (by rw [hf1.2.2])
    rw [this]
    rfl

/-- Such a truth value is read from `A.%1;0.99999999%`; revising it by that of a plain `A.` gives NaNs. -/
example : (taskOf ieeeMach surelyText).map (fun t => t.sentence.truth) = some (some ⟨1, 1, 1⟩) ∧
    Values ⟨1, 1, 1⟩ ∧ IsFloat ieee ⟨1, 1, 1⟩ ∧
    Special.revision ieeeFmt (lift ⟨1, 1, 1⟩) (lift ⟨1, ieee.s (9 / 10), 1⟩) = ⟨.nan, .nan, .fin 1⟩ := by
  refine ⟨C52_confidence_counterexample, ?_, ?_, by decide +kernel⟩
  · simp only [Values, Unit01]
    decide +kernel
  · simp only [IsFloat]
    decide +kernel

/-- A NaN stays: whatever the following premises are, numbers or not, the confidence remains a NaN; the
frequency is 0, a number like any other. -/
theorem C86_lasting_counterexample (us : List (Truth (Num ℚ))) : ∀ (t : Truth (Num ℚ)), t.c = .nan →
    (us.foldl (Special.revision ieeeFmt) t).c = .nan ∧
    (us ≠ [] → (us.foldl (Special.revision ieeeFmt) t).f = .fin 0) := by
  have step : ∀ t u : Truth (Num ℚ), t.c = .nan →
      (Special.revision ieeeFmt t u).c = .nan ∧ (Special.revision ieeeFmt t u).f = .fin 0 := by
    intro t u h
    constructor
    · show wToC _ _ _ = _
      rw [w_nan _ h, add_nan_left]
      exact div_nan_left _ _
    · show wToF _ _ _ = _
      rw [w_nan _ h, add_nan_left]
      rfl
  induction us with
  | nil => exact fun t h => ⟨h, fun h => absurd rfl h⟩
  | cons u us ih =>
    intro t h
    obtain ⟨s1, s2⟩ := step t u h
    obtain ⟨i1, i2⟩ := ih _ s1
    refine ⟨i1, fun _ => ?_⟩
    cases us with
    | nil => exact s2
    | cons v us => exact i2 (by simp)

/-- A NaN spreads: revision, deduction, induction and comparison with it on either side have a NaN as confidence, and the
quality computed from it is a NaN. -/
theorem C86_spreading_counterexample (t u : Truth (Num ℚ)) (h : t.c = .nan) :
    (Special.revision ieeeFmt u t).c = .nan ∧
    (Special.deduction ieeeFmt t u).c = .nan ∧ (Special.deduction ieeeFmt u t).c = .nan ∧
    (Special.induction ieeeFmt t u).c = .nan ∧ (Special.induction ieeeFmt u t).c = .nan ∧
    (Special.comparison ieeeFmt t u).c = .nan ∧ (Special.comparison ieeeFmt u t).c = .nan ∧
    Special.quality ieeeFmt t = .nan := by
  refine ⟨?_, ?_, ?_, ?_, ?_, ?_, ?_, ?_⟩
  · show wToC _ _ _ = _
    rw [w_nan _ h, add_nan_right]
    exact div_nan_left _ _
  · simp [Special.deduction, Special.and4, Special.and3, h, mul_nan_left, mul_nan_right, cvt]
  · simp [Special.deduction, Special.and4, h, mul_nan_right, cvt]
  · simp [Special.induction, setW, Special.and3, Special.and2, h, mul_nan_left, mul_nan_right, div_nan_left, cvt]
  · simp [Special.induction, setW, Special.and3, h, mul_nan_right, div_nan_left, cvt]
  · simp [Special.comparison, setW, Special.and3, Special.and2, h, mul_nan_left, mul_nan_right, div_nan_left, cvt]
  · simp [Special.comparison, setW, Special.and3, h, mul_nan_right, div_nan_left, cvt]
  · have : Special.e ieeeFmt t = .nan := by
      rw [Special.e, h, mul_nan_left, add_nan_left]
    rw [Special.quality, this]
    rfl

/-- Both apply to the result above. -/
example : ([lift ⟨1, ieee.s (9 / 10), 1⟩, lift ⟨1, ieee.s (9 / 10), 1⟩].foldl (Special.revision ieeeFmt)
      (lift ⟨1, 1, 1⟩) = ⟨.fin 0, .nan, .fin 1⟩) ∧
    Special.induction ieeeFmt ⟨.nan, .nan, .fin 1⟩ (lift ⟨1, ieee.s (9 / 10), 1⟩) = ⟨.fin (1 / 2), .nan, .fin 1⟩ := by
  decide +kernel

end Cnars.Props
