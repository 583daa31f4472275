import Verif.Nal.Errors
import Verif.Props.Ieee

/-!
# C63, C64: how large the rounding errors are
-/

namespace Cnars.Props
open Cnars Cnars.Nal Cnars.Ieee

/-- A `float` in the range is tame. -/
theorem tame_of_float {t : Truth ℚ} (hf : IsFloat ieee t) (h : Informed t) (hc : 1 / 2 ^ 60 ≤ t.c)
    (hf0 : t.f = 0 ∨ 1 / 2 ^ 60 ≤ t.f) (hk : 1 ≤ t.k) : Tame t := by
  have num : ∀ x, ieee.s x = x → x < 1 → x ≤ 1 - 1 / 2 ^ 24 := by
    intro x hx h1
    have h2 : IsNum 24 (-149) x := hx ▸ round_isNum x
    have h3 := h2.below_one (by norm_num) h1
    have h4 : pow2 (-((24 : ℕ) : Int)) = 1 / 2 ^ 24 := by rw [pow2_eq]; norm_num
    rwa [h4] at h3
  obtain ⟨_, h2, _, _, h5⟩ := h
  obtain ⟨g1, g2, _⟩ := hf
  refine ⟨hc, num _ g2 h2, hk, hf0, ?_⟩
  rcases h5.lt_or_eq with h5 | h5
  · exact .inr (num _ g1 h5)
  · exact .inl h5

/-! ### C63 -/

/-- C63 with the rounding of IEEE 754: the amounts of evidence are right up to a relative error of
`2^-21`, positive and negative evidence add up to the total up to `2^-20`, and writing the amounts back
restores frequency and confidence up to a relative error of `2^-21`.  Missing: confidences and frequencies below `2^-60`, horizons below
1, and horizons so large that numbers overflow (from about `2^103`). -/
theorem C63_error_partial {t : Truth ℚ} (hf : IsFloat ieee t) (h : Informed t) (hc : 1 / 2 ^ 60 ≤ t.c)
    (hf0 : t.f = 0 ∨ 1 / 2 ^ 60 ≤ t.f) (hk : 1 ≤ t.k) :
    ∃ w p m r, t.w ieee = some w ∧ t.wp ieee = some p ∧ t.wm ieee = some m ∧
      |w - evidence t| ≤ evidence t / 2 ^ 21 ∧ |p - t.f * evidence t| ≤ t.f * evidence t / 2 ^ 21 ∧
      |m - (1 - t.f) * evidence t| ≤ (1 - t.f) * evidence t / 2 ^ 21 ∧ |p + m - w| ≤ w / 2 ^ 20 ∧
      t.setW ieee p w = some r ∧ |r.f - t.f| ≤ t.f / 2 ^ 21 ∧ |r.c - t.c| ≤ t.c / 2 ^ 21 ∧ r.k = t.k := by
  have ht := tame_of_float hf h hc hf0 hk
  obtain ⟨w, hw, cw, _⟩ := ht.w_ok
  obtain ⟨p, hp, cp, _⟩ := ht.wp_ok
  obtain ⟨m, hm, cm⟩ := ht.wm_ok
  obtain ⟨w0, cf⟩ := ht.freq hp hw
  have e1 : t.k * t.f * t.c / (1 - t.c) = t.f * evidence t := by rw [evidence]; ring
  have e2 : t.k * (1 - t.f) * t.c / (1 - t.c) = (1 - t.f) * evidence t := by rw [evidence]; ring
  rw [e1] at cp
  rw [e2] at cm
  have cf' : Close 7 (ieee.s (ieee.d (p / w))) t.f := by
    have hn : t.f = 0 ∨ 1 / 2 ^ 125 ≤ t.f := hf0.imp id fun h => le_trans (by norm_num) h
    exact (cf.round_d (by norm_num) hn).round (by norm_num) hn
  have hk0 := ht.kpos
  have cc : Close 6 (ieee.s (ieee.d (w / ieee.d (w + t.k)))) t.c := by
    have hn : t.c = 0 ∨ 1 / 2 ^ 125 ≤ t.c := .inr (le_trans (by norm_num) hc)
    have g1 := cw.ratio hk0
    rw [ht.exact_c] at g1
    have g2 : Close 1 (ieee.d (w + t.k)) (w + t.k) :=
      close_d (.inr (le_trans (by norm_num) (hk.trans (by linarith))))
    have g3 := (Close.refl w0.le).div g2 (by linarith)
    rw [Nat.zero_add] at g3
    exact ((g3.trans g1).round_d (by norm_num) hn).round (by norm_num) hn
  have g2 : 0 < ieee.d (w + t.k) :=
    (close_d (.inr (le_trans (by norm_num) (hk.trans (show t.k ≤ w + t.k by linarith))))).pos (by linarith)
  refine ⟨w, p, m, ⟨_, _, t.k⟩, hw, hp, hm, (cw.mono (by norm_num)).bound7,
    (cp.mono (by norm_num)).bound7, (cm.mono (by norm_num)).bound7, ?_, ?_, cf'.bound7,
    (cc.mono (by norm_num)).bound7, rfl⟩
  · have h1 : Close 5 (p + m) (evidence t) := by
      have := (cp.mono (show 4 ≤ 5 by norm_num)).add cm
      rwa [← add_mul, add_sub_cancel, one_mul] at this
    exact ((h1.trans cw.symm).mono (by norm_num)).bound15
  · rw [Truth.setW, if_pos w0, fdiv, if_neg w0.ne', fdiv, if_neg g2.ne']
    rfl

/-- `%0.7;0.9%` meets the hypotheses. -/
example : let t : Truth ℚ := ⟨ieee.s (7 / 10), ieee.s (9 / 10), 1⟩
    IsFloat ieee t ∧ Informed t ∧ 1 / 2 ^ 60 ≤ t.c ∧ (t.f = 0 ∨ 1 / 2 ^ 60 ≤ t.f) ∧ 1 ≤ t.k := by
  simp only [IsFloat, Informed]
  decide +kernel

/-! ### C64 -/

/-- C64 with the rounding of IEEE 754: revision gives the weighted mean of the frequencies up to a relative
error of `2^-20`, and the confidence of the total evidence up to `2^-21`.  Missing: total evidence up to
2e-8, where the frequency is lost or nearly so (`C64_counterexample`); and as in `C63_error_partial`. -/
theorem C64_error_partial {t1 t2 : Truth ℚ} (hf1 : IsFloat ieee t1) (hf2 : IsFloat ieee t2)
    (h1 : Informed t1) (h2 : Informed t2) (hc1 : 1 / 2 ^ 60 ≤ t1.c) (hc2 : 1 / 2 ^ 60 ≤ t2.c)
    (hz1 : t1.f = 0 ∨ 1 / 2 ^ 60 ≤ t1.f) (hz2 : t2.f = 0 ∨ 1 / 2 ^ 60 ≤ t2.f)
    (hk1 : 1 ≤ t1.k) (hk2 : 1 ≤ t2.k) {W f : ℚ} (hW : W = evidence t1 + evidence t2)
    (hf : f = (t1.f * evidence t1 + t2.f * evidence t2) / W) (hw : 2 / 10 ^ 8 ≤ W)
    (hn : f = 0 ∨ 1 / 2 ^ 125 ≤ f) :
    ∃ r, truthRevision ieee t1 t2 = some r ∧ |r.f - f| ≤ f / 2 ^ 20 ∧
      |r.c - W / (W + t1.k)| ≤ W / (W + t1.k) / 2 ^ 21 ∧ r.k = t1.k := by
  have ht1 := tame_of_float hf1 h1 hc1 hz1 hk1
  have ht2 := tame_of_float hf2 h2 hc2 hz2 hk2
  obtain ⟨w1, e1, cw1, _⟩ := ht1.w_ok
  obtain ⟨w2, e2, cw2, _⟩ := ht2.w_ok
  obtain ⟨p1, e3, cp1, _⟩ := ht1.wp_ok
  obtain ⟨p2, e4, cp2, _⟩ := ht2.wp_ok
  have q : ∀ t : Truth ℚ, t.k * t.f * t.c / (1 - t.c) = t.f * evidence t := fun t => by
    rw [evidence]; ring
  rw [q] at cp1 cp2
  have hW0 : 0 < W := lt_of_lt_of_le (by norm_num) hw
  have hWn : W = 0 ∨ 1 / 2 ^ 125 ≤ W := .inr (le_trans (by norm_num) hw)
  have hP : t1.f * evidence t1 + t2.f * evidence t2 = f * W := by
    rw [hf, div_mul_cancel₀ _ hW0.ne']
  have low : ∀ t : Truth ℚ, Tame t → t.f * evidence t = 0 ∨ 1 / 2 ^ 120 ≤ t.f * evidence t := by
    intro t ht
    rcases ht.f0 with e | e
    · left; rw [e, zero_mul]
    · right
      rw [← q t]
      exact (ht.big e).trans (ht.quot (mul_nonneg (mul_nonneg ht.kpos.le ht.fnonneg) ht.cpos.le))
  have pos : ∀ t : Truth ℚ, Tame t → 0 ≤ t.f * evidence t := by
    intro t ht
    rcases low t ht with e | e
    · exact e.ge
    · exact le_trans (by norm_num) e
  have hPn : t1.f * evidence t1 + t2.f * evidence t2 = 0 ∨
      1 / 2 ^ 125 ≤ t1.f * evidence t1 + t2.f * evidence t2 := by
    rcases low t1 ht1 with e | e
    · rcases low t2 ht2 with e' | e'
      · left; rw [e, e', add_zero]
      · right; exact le_trans (by norm_num) (e'.trans (by linarith [pos t1 ht1]))
    · right; exact le_trans (by norm_num) (e.trans (by linarith [pos t2 ht2]))
  have cw : Close 5 (ieee.s (ieee.d (w1 + w2))) W := by
    have := cw1.add cw2
    rw [← evidence, ← evidence, ← hW] at this
    exact (this.round_d (by norm_num) hWn).round (by norm_num) hWn
  have cp : Close 6 (ieee.s (ieee.d (p1 + p2))) (f * W) := by
    have := ((cp1.add cp2).round_d (by norm_num) hPn).round (by norm_num) hPn
    rwa [hP] at this
  have hbig : ieee.s (ieee.d (w1 + w2)) > 1 / 100000000 := by
    have h5 := (cw.mono (show 5 ≤ 15 by norm_num)).low
    have h6 : (1 / 2 : ℚ) < keep ^ 15 := by norm_num [keep]
    have h7 := mul_lt_mul_of_pos_left h6 hW0
    linarith [show (2 / 10 ^ 8 : ℚ) * (1 / 2) = 1 / 100000000 by norm_num]
  have hs0 : 0 < ieee.s (ieee.d (w1 + w2)) := lt_trans (by norm_num) hbig
  have cf : Close 12 (ieee.s (ieee.s (ieee.d (p1 + p2)) / ieee.s (ieee.d (w1 + w2)))) f := by
    have := cp.div cw hW0
    rw [mul_div_assoc, div_self hW0.ne', mul_one] at this
    exact this.round (by norm_num) hn
  have hsk : ieee.s t1.k = t1.k := hf1.2.2
  have hk0 := ht1.kpos
  have hcn : W / (W + t1.k) = 0 ∨ 1 / 2 ^ 125 ≤ W / (W + t1.k) := by
    right
    have hc0 : t1.c ≤ W / (W + t1.k) := by
      conv_lhs => rw [← ht1.exact_c]
      have hle : evidence t1 ≤ W := by
        have : 0 ≤ evidence t2 := by
          rw [evidence]
          exact div_nonneg (mul_nonneg ht2.kpos.le ht2.cpos.le) ht2.dpos'.le
        linarith
      have h0 : 0 ≤ evidence t1 := by
        rw [evidence]
        exact div_nonneg (mul_nonneg ht1.kpos.le ht1.cpos.le) ht1.dpos'.le
      change evidence t1 / (evidence t1 + t1.k) ≤ _
      rw [div_le_div_iff₀ (by linarith) (by linarith)]
      have := mul_le_mul_of_nonneg_right hle hk0.le
      linarith
    exact le_trans (by norm_num) (hc1.trans hc0)
  have cd : Close 1 (ieee.s (ieee.s (ieee.d (w1 + w2)) + t1.k)) (ieee.s (ieee.d (w1 + w2)) + t1.k) :=
    close_s (.inr (le_trans (by norm_num) (hk1.trans (by linarith))))
  have hd0 : 0 < ieee.s (ieee.s (ieee.d (w1 + w2)) + t1.k) := cd.pos (by linarith)
  have cc : Close 7 (ieee.s (ieee.s (ieee.d (w1 + w2)) / ieee.s (ieee.s (ieee.d (w1 + w2)) + t1.k)))
      (W / (W + t1.k)) := by
    have g3 := (Close.refl hs0.le).div cd (by linarith)
    rw [Nat.zero_add] at g3
    exact (g3.trans (cw.ratio hk0)).round (by norm_num) hcn
  refine ⟨⟨_, _, t1.k⟩, ?_, (cf.mono (by norm_num)).bound15, cc.bound7, rfl⟩
  rw [truthRevision, e1, e2, e3, e4]
  simp only [Option.bind_eq_bind, Option.bind_some]
  rw [wToF, if_pos hbig, fdiv, if_neg hs0.ne', wToC, hsk, fdiv, if_neg hd0.ne']
  rfl

/-- `%0.7;0.9%` and `%0;0.45%` meet the hypotheses. -/
example : let t1 : Truth ℚ := ⟨ieee.s (7 / 10), ieee.s (9 / 10), 1⟩
    let t2 : Truth ℚ := ⟨0, ieee.s (45 / 100), 1⟩
    (IsFloat ieee t1 ∧ IsFloat ieee t2 ∧ Informed t1 ∧ Informed t2 ∧ 1 / 2 ^ 60 ≤ t1.c ∧
      1 / 2 ^ 60 ≤ t2.c ∧ (t1.f = 0 ∨ 1 / 2 ^ 60 ≤ t1.f) ∧ (t2.f = 0 ∨ 1 / 2 ^ 60 ≤ t2.f)) ∧
      2 / 10 ^ 8 ≤ evidence t1 + evidence t2 ∧
      1 / 2 ^ 125 ≤ (t1.f * evidence t1 + t2.f * evidence t2) / (evidence t1 + evidence t2) := by
  simp only [IsFloat, Informed, evidence]
  decide +kernel

/-! ### C64: the other way to revise -/

variable {K : Type} [Field K] [LinearOrder K] [IsStrictOrderedRing K]

/-- C64, exact arithmetic: taking the amounts of positive and negative evidence out of two truth values
(`w_from_truth`), adding them pairwise (`revision`) and making a truth value of the sums (`truth_from_w`),
as the lines commented out in TruthFunctions.h:23-24 would, gives what `truth_revision` gives.  Missing:
tiny amounts of evidence. -/
theorem C64_pairs_partial (t1 t2 : Truth K) (h1 : Informed t1) (h2 : Informed t2)
    (hbig : 1 / 100000000 < evidence t1 + evidence t2) :
    ∃ p1 m1 p2 m2 p m, wFromTruth (Rnd.exact K) t1 = some (p1, m1) ∧
      wFromTruth (Rnd.exact K) t2 = some (p2, m2) ∧ p1 + m1 = evidence t1 ∧ p2 + m2 = evidence t2 ∧
      revisionPair (Rnd.exact K) p1 p2 m1 m2 = (p, m) ∧
      truthFromW (Rnd.exact K) p (p + m) t1.k = truthRevision (Rnd.exact K) t1 t2 := by
  have key : ∀ t : Truth K, Informed t →
      wFromTruth (Rnd.exact K) t = some (t.f * evidence t, (1 - t.f) * evidence t) := by
    intro t ht
    have h1 : 1 - t.c ≠ 0 := (sub_pos.2 ht.2.1).ne'
    have e1 : t.k * t.f * t.c / (1 - t.c) = t.f * evidence t := by rw [evidence]; ring
    have e2 : t.k * (1 - t.f) * t.c / (1 - t.c) = (1 - t.f) * evidence t := by rw [evidence]; ring
    simp [wFromTruth, fcToWPlus, fcToWMinus, fdiv, Rnd.exact, h1, e1, e2]
  refine ⟨_, _, _, _, _, _, key t1 h1, key t2 h2, by ring, by ring, rfl, ?_⟩
  have e : (Rnd.exact K).d (t1.f * evidence t1 + t2.f * evidence t2) +
      (Rnd.exact K).d ((1 - t1.f) * evidence t1 + (1 - t2.f) * evidence t2) =
      evidence t1 + evidence t2 := by
    simp only [Rnd.exact, id]; ring
  have p0 : 0 < evidence t1 + evidence t2 := add_pos (evidence_pos h1) (evidence_pos h2)
  have hk := h1.2.2.1
  rw [e, revision_value t1 t2 h1 h2 hbig, truthFromW,
    if_pos (show (Rnd.exact K).s _ ≠ 0 from p0.ne'), wToF,
    if_pos (show (Rnd.exact K).s _ > _ from hbig)]
  simp [wToC, fdiv, Rnd.exact, p0.ne', (add_pos p0 hk).ne']

example : Informed (⟨1, 9/10, 1⟩ : Truth ℚ) ∧ Informed (⟨0, 1/2, 1⟩ : Truth ℚ) ∧
    1 / 100000000 < evidence (⟨1, 9/10, 1⟩ : Truth ℚ) + evidence (⟨0, 1/2, 1⟩ : Truth ℚ) ∧
    wFromTruth (Rnd.exact ℚ) ⟨1, 9/10, 1⟩ = some (9, 0) ∧
    truthFromW (Rnd.exact ℚ) 9 10 1 = some ⟨9/10, 10/11, 1⟩ := by
  refine ⟨by norm_num [Informed], by norm_num [Informed], by norm_num [evidence], ?_, ?_⟩
  · norm_num [wFromTruth, fcToWPlus, fcToWMinus, fdiv, Rnd.exact]
  · norm_num [truthFromW, fdiv, Rnd.exact, wToF, wToC]

end Cnars.Props
