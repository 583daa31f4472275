import Verif.Props.Stamps

/-!
# C54: tenses when the clock has passed 2^31 - 5
-/

namespace Cnars.Props
open Cnars Cnars.Stamp

/-- The number that `int` makes of a 64-bit one is in the range of `int` and differs from it by a multiple of 2^32. -/
theorem toInt32_spec (x : Nat) : -2^31 ≤ toInt32 x ∧ toInt32 x < 2^31 ∧ ∃ k : Int, (x : Int) = toInt32 x + 2^32 * k := by
  simp only [toInt32, BitVec.toInt, BitVec.toNat_ofNat]
  split
  · exact ⟨by omega, by omega, (x / 2^32 : Nat), by omega⟩
  · exact ⟨by omega, by omega, (x / 2^32 : Nat) + 1, by omega⟩

/-- C54, later times: what is reported is what was right the last time the clock was at a multiple of 2^32, so long after.
Missing: that it is right now, and the times whose remainder is 2^31 - 5 or more. -/
theorem C54_later_partial (s : Stamp) (time : Nat) (ht : time % 2^32 + 5 < 2^31) (t : Tense) :
    s.tense time = t ↔ SpecTense s ((time % 2^32 : Nat) : Int) t := by
  rw [← C54_partial s (time % 2^32) ht t]
  have h1 : toInt32 ((time + temporalDuration) % 2^64) = toInt32 ((time % 2^32 + temporalDuration) % 2^64) := by
    simp only [toInt32, temporalDuration, BitVec.toInt, BitVec.toNat_ofNat]
    have : (time + 5) % 2^64 % 2^32 = (time % 2^32 + 5) % 2^64 % 2^32 := by omega
    rw [this]
  have h2 : toInt32 (subU64 time temporalDuration) = toInt32 (subU64 (time % 2^32) temporalDuration) := by
    simp only [toInt32, subU64, temporalDuration, BitVec.toInt, BitVec.toNat_ofNat]
    have : (time + 2^64 - 5 % 2^64) % 2^64 % 2^32 = (time % 2^32 + 2^64 - 5 % 2^64) % 2^64 % 2^32 := by omega
    rw [this]
  unfold Stamp.tense
  rw [h1, h2]

/-- 7 after a full turn of the low half: an event that is to happen at 12 is still called future. -/
example : (2^32 + 7) % 2^32 + 5 < 2^31 ∧ (⟨none, 0, 12, -1, false⟩ : Stamp).tense (2^32 + 7) = .future := by decide

/-- C54, the bound of `C54_partial` is exact: at every time from 2^31 - 5 on there is an occurrence time in the range of `int`
that is reported as future and is not. -/
theorem C54_every_time_counterexample (time : Nat) (h : 2^31 ≤ time + 5) (base : Option (List Nat)) (c p : Int) :
    ∃ occ : Int, -2^31 ≤ occ ∧ occ < 2^31 ∧ (⟨base, c, occ, p, false⟩ : Stamp).tense time = .future ∧
      ¬ SpecTense ⟨base, c, occ, p, false⟩ time .future := by
  obtain ⟨h1, h2, _⟩ := toInt32_spec ((time + temporalDuration) % 2^64)
  refine ⟨_, h1, h2, ?_, ?_⟩
  · simp [Stamp.tense]
  · rintro ⟨_, h3⟩
    simp only at h3
    omega

/-! ### C55: the marks at later times -/

/-- C55, exactly how long the marks are right: a sentence entered with `:/:` is reported as future only at time 0, one entered with
`:|:` as present at the times before 5 only, one entered with `:\:` always as past.  Missing: the other times, at which the first
two are reported as something else, and clocks from 2^31 - 5 on. -/
theorem C55_exact_partial (g : Globals) (h : g.time + 5 < 2^31) :
    ((sentenceStamp g (some tenseFuture)).1.tense g.time = .future ↔ g.time = 0) ∧
    ((sentenceStamp g (some tensePresent)).1.tense g.time = .present ↔ g.time < 5) ∧
    (sentenceStamp g (some tensePast)).1.tense g.time = .past := by
  have k : ∀ t : Int, (sentenceStamp g (some t)).1.isEternal = false ∧
      (sentenceStamp g (some t)).1.tOccurrence = t := fun t => ⟨rfl, rfl⟩
  have hf : tenseFuture = 5 := by decide
  have hp : tensePast = -5 := by decide
  rw [C54_partial _ _ h, C54_partial _ _ h, C54_partial _ _ h]
  simp only [SpecTense, (k _).1, (k _).2, hf, hp, tensePresent]
  refine ⟨?_, ?_, ?_⟩ <;> simp <;> omega

/-- The clock of a program that has counted to 3. -/
example : (⟨3, 0⟩ : Globals).time + 5 < 2^31 := by decide

/-- C55 is false also beyond that: at every time whose low 32 bits are between 1 and 2^31 - 6, the mark `:/:` is not reported as
future. -/
theorem C55_every_time_counterexample (g : Globals) (h : g.time % 2^32 + 5 < 2^31) (h0 : g.time % 2^32 ≠ 0) :
    (sentenceStamp g (some tenseFuture)).1.tense g.time ≠ .future := by
  intro hc
  rw [C54_later_partial _ _ h] at hc
  have hf : tenseFuture = 5 := by decide
  have : (sentenceStamp g (some tenseFuture)).1.tOccurrence = tenseFuture := rfl
  obtain ⟨_, h1⟩ := hc
  rw [this, hf] at h1
  omega

end Cnars.Props
