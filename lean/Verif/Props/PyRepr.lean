import Verif.Nal.PyRepr
import Verif.Props.PyValues
import Verif.Nal.Ieee
import Verif.Props.Tasks

/-!
# C103: how Python shows truth values and budgets
-/

namespace Cnars.Props
open Cnars.Parser Cnars.PyRepr Ieee

/-- **C103 (proved).**  Truth values that are shown alike differ by at most a hundredth in frequency and confidence, and have
the same `k`. -/
theorem C103_truth {fix : Nat → ℚ → List Char} (hf : SignedFixed fix) {short : ℚ → List Char} {t u : Truth ℚ}
    (hs : short t.k = short u.k → t.k = u.k) (h : PyRepr.truth fix short t = PyRepr.truth fix short u) :
    |t.f - u.f| ≤ 1 / 100 ∧ |t.c - u.c| ≤ 1 / 100 ∧ t.k = u.k := by
  unfold PyRepr.truth at h
  have h1 := List.append_cancel_left h
  simp only [List.cons_append] at h1
  obtain ⟨e1, h2⟩ := split_at (hf.free 2 t.f).1 (hf.free 2 u.f).1 h1
  simp only [List.cons.injEq, true_and, List.nil_append] at h2
  obtain ⟨e2, h3⟩ := split_at (hf.free 2 t.c).2.1 (hf.free 2 u.c).2.1 h2
  have h4 : short t.k = short u.k := by
    simp only [List.cons.injEq, true_and] at h3
    exact List.append_cancel_right h3
  have n1 := hf.near e1
  have n2 := hf.near e2
  norm_num at n1 n2
  exact ⟨by norm_num; exact n1, by norm_num; exact n2, hs h4⟩

/-- **C103 (proved).**  Budgets that are shown alike differ by at most a hundredth in each of their numbers. -/
theorem C103_budget {fix : Nat → ℚ → List Char} (hf : SignedFixed fix) {p d q p' d' q' : ℚ}
    (h : PyRepr.budget fix p d q = PyRepr.budget fix p' d' q') :
    |p - p'| ≤ 1 / 100 ∧ |d - d'| ≤ 1 / 100 ∧ |q - q'| ≤ 1 / 100 := by
  unfold PyRepr.budget at h
  have h1 := List.append_cancel_left h
  simp only [List.cons_append] at h1
  obtain ⟨e1, h2⟩ := split_at (hf.free 2 p).2.2.1 (hf.free 2 p').2.2.1 h1
  try simp only [List.nil_append] at h2
  obtain ⟨e2, h3⟩ := split_at (hf.free 2 d).2.2.1 (hf.free 2 d').2.2.1 h2
  try simp only [List.nil_append] at h3
  obtain ⟨e3, -⟩ := split_at (hf.free 2 q).2.2.2 (hf.free 2 q').2.2.2 h3
  have n1 := hf.near e1
  have n2 := hf.near e2
  have n3 := hf.near e3
  norm_num at n1 n2 n3
  exact ⟨by norm_num; exact n1, by norm_num; exact n2, by norm_num; exact n3⟩

/-- **C103 (proved).**  No truth value is shown as a budget. -/
theorem C103_kind (fix : Nat → ℚ → List Char) (short : ℚ → List Char) (t : Truth ℚ) (p d q : ℚ) :
    PyRepr.truth fix short t ≠ PyRepr.budget fix p d q := by
  intro h
  have := congrArg (fun l => l[1]?) h
  simp [PyRepr.truth, PyRepr.budget] at this

theorem SignedFixed.fixed {fix : Nat → ℚ → List Char} (h : SignedFixed fix) : Fixed fix := by
  intro n x h0
  obtain ⟨k, h1, h2⟩ := h n x
  rw [abs_of_nonneg h0] at h1
  rw [if_neg (not_lt.mpr h0)] at h2
  exact ⟨k, h2, h1⟩

theorem hundredth_err (k : Nat) (hk : k ≤ 100) :
    (0 ≤ ieee.d (k / 100) ∧ |ieee.d (k / 100) - k / 10 ^ 2| < 1 / (2 * 10 ^ 2)) ∧
    0 ≤ ieee.s (ieee.d (k / 100)) ∧ |ieee.s (ieee.d (k / 100)) - k / 10 ^ 2| < 1 / (2 * 10 ^ 2) := by
  have k0 : (0 : ℚ) ≤ k / 100 := by positivity
  have k1 : (k : ℚ) / 100 ≤ 1 := by
    rw [div_le_one (by norm_num)]; exact_mod_cast hk
  have hd := ieee_err_d (k / 100)
  have d0 : 0 ≤ ieee.d (k / 100) := by have := ieee_sound.d_mono k0; rwa [ieee_sound.d_zero] at this
  have d1 : ieee.d (k / 100) ≤ 1 := by have := ieee_sound.d_mono k1; rwa [ieee_sound.d_one] at this
  have hs := ieee_err (ieee.d (k / 100))
  have s0 : 0 ≤ ieee.s (ieee.d (k / 100)) := by have := ieee_sound.s_mono d0; rwa [ieee_sound.s_zero] at this
  have b1 : max (pow2 (-53) * |(k : ℚ) / 100|) (pow2 (-1075)) ≤ 1 / 1000 := by
    rw [abs_of_nonneg k0]
    refine max_le ?_ (by decide +kernel)
    calc pow2 (-53) * ((k : ℚ) / 100) ≤ pow2 (-53) * 1 := by
          exact mul_le_mul_of_nonneg_left k1 (by decide +kernel)
      _ ≤ _ := by decide +kernel
  have b2 : max (pow2 (-24) * |ieee.d (k / 100)|) (pow2 (-150)) ≤ 1 / 1000 := by
    rw [abs_of_nonneg d0]
    refine max_le ?_ (by decide +kernel)
    calc pow2 (-24) * ieee.d (k / 100) ≤ pow2 (-24) * 1 := by
          exact mul_le_mul_of_nonneg_left d1 (by decide +kernel)
      _ ≤ _ := by decide +kernel
  have hd' := hd.trans b1
  have hs' := hs.trans b2
  rw [abs_le] at hd' hs'
  refine ⟨⟨d0, ?_⟩, s0, ?_⟩ <;> rw [abs_lt] <;> norm_num <;> constructor <;> linarith [hd'.1, hd'.2, hs'.1, hs'.2]

/-- **C103 (proved).**  Numbers with at most two decimals between 0 and 1 are shown as they were written: `Truth(0.9, 0.05, k)`
with 0.90 and 0.05, `Budget(…)` likewise, and so after an assignment, though none of them is the number that is stored. -/
theorem C103_given {fix : Nat → ℚ → List Char} (hf : SignedFixed fix) (short : ℚ → List Char) {i j l : Nat} (hi : i ≤ 100)
    (hj : j ≤ 100) (hl : l ≤ 100) (s : PyValues.State ℚ) (v : Nat) (k : ℚ) :
    (∃ s' t, PyValues.step ieee s (.truth v (ieee.d (i / 100)) (ieee.d (j / 100)) k) = .ok s' ∧
      (∀ a, s'.vars v = some a → s'.heap[a]? = some (.truth t)) ∧
      PyRepr.truth fix short t = ['<', 'T', 'r', 'u', 't', 'h', ':', ' ', '%'] ++ (point 2 i ++ ([',', ' '] ++ (point 2 j ++
        (['%', ' ', '(', 'k', '='] ++ (short (ieee.s k) ++ [')', '>'])))))) ∧
    (∃ s' p d q, PyValues.step ieee s (.budget v (ieee.d (i / 100)) (ieee.d (j / 100)) (ieee.d (l / 100))) = .ok s' ∧
      (∀ a, s'.vars v = some a → s'.heap[a]? = some (.budget p d q)) ∧
      PyRepr.budget fix p d q = ['<', 'B', 'u', 'd', 'g', 'e', 't', ':', ' ', '$'] ++ (point 2 i ++ ([';'] ++ (point 2 j ++ ([';'] ++
        (point 2 l ++ ['$', '>'])))))) ∧
    ∀ (s' : PyValues.State ℚ) (m : PyValues.Slot), PyValues.step ieee s (.set v m (ieee.d (i / 100))) = .ok s' →
      ∃ y, s'.read v m = some y ∧ fix 2 y = point 2 i := by
  have hi' := hundredth_err i hi
  have hj' := hundredth_err j hj
  have hl' := hundredth_err l hl
  have sh := fun {x : ℚ} {n : Nat} (h : 0 ≤ x ∧ |x - n / 10 ^ 2| < 1 / (2 * 10 ^ 2)) =>
    (SignedFixed.fixed hf).eq_point h.1 h.2
  refine ⟨⟨_, ⟨ieee.s (ieee.d (i / 100)), ieee.s (ieee.d (j / 100)), ieee.s k⟩, rfl, ?_, ?_⟩,
    ⟨_, ieee.s (ieee.d (i / 100)), ieee.s (ieee.d (j / 100)), ieee.s (ieee.d (l / 100)), rfl, ?_, ?_⟩, ?_⟩
  · intro a ha
    simp only [PyValues.State.new, PyValues.State.bind, if_true, Option.some.injEq] at ha
    subst ha
    simp only [PyValues.State.new, PyValues.State.bind, List.getElem?_concat_length]
  · rw [PyRepr.truth, sh hi'.2, sh hj'.2]
  · intro a ha
    simp only [PyValues.State.new, PyValues.State.bind, if_true, Option.some.injEq] at ha
    subst ha
    simp only [PyValues.State.new, PyValues.State.bind, List.getElem?_concat_length]
  · rw [PyRepr.budget, sh hi'.2, sh hj'.2, sh hl'.2]
  · intro s' m h
    have hr := (C101_alias h v m).2
    rw [if_pos ⟨rfl, rfl⟩] at hr
    refine ⟨_, hr, ?_⟩
    split
    · exact sh hi'.1
    · exact sh hi'.2

/-- Rounding half up, with a sign. -/
def signedFixed (n : Nat) (x : ℚ) : List Char := if x < 0 then '-' :: fixed n (-x) else fixed n x

theorem signedFixed_ok : SignedFixed signedFixed := by
  intro n x
  by_cases hx : x < 0
  · obtain ⟨k, h1, h2⟩ := fixed_ok n (-x) (by linarith)
    exact ⟨k, by rw [abs_of_neg hx]; exact h2, by simp [signedFixed, hx, h1]⟩
  · obtain ⟨k, h1, h2⟩ := fixed_ok n x (not_lt.mp hx)
    exact ⟨k, by rw [abs_of_nonneg (not_lt.mp hx)]; exact h2, by simp [signedFixed, hx, h1]⟩

/-- A truth value as it is shown. -/
example : String.ofList (PyRepr.truth signedFixed (fun _ => ['1']) ⟨9 / 10, -(1 / 20), 1⟩) = "<Truth: %0.90, -0.05% (k=1)>" ∧
    String.ofList (PyRepr.budget signedFixed (9 / 10) (1 / 2) 12) = "<Budget: $0.90;0.50;12.00$>" := by
  decide +kernel

/-- The text is not the value: different truth values are shown alike, one of them certain and one not. -/
example : PyRepr.truth signedFixed (fun _ => ['1']) ⟨999 / 1000, 999 / 1000, 1⟩ =
    PyRepr.truth signedFixed (fun _ => ['1']) ⟨1, 1, 1⟩ := by decide +kernel

end Cnars.Props
