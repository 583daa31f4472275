import Verif.Nal.Truth
import Verif.Parser.Printed

/-!
# How Python shows truth values and budgets

`Truth::__repr__` (Truth.h:62-65, Truth.cpp:14), `Budget.__repr__` (Budget.cpp:17-18).
-/

namespace Cnars.PyRepr
open Cnars.Parser

/-- `Truth::__repr__` (Truth.h:62-65).  `fix n x` is what `fmt` makes of `x` with `{:.nf}`, `short x` what it makes of `x` with
`{}`. -/
def truth (fix : Nat → ℚ → List Char) (short : ℚ → List Char) (t : Truth ℚ) : List Char :=
  ['<', 'T', 'r', 'u', 't', 'h', ':', ' ', '%'] ++ (fix 2 t.f ++ ([',', ' '] ++ (fix 2 t.c ++
    (['%', ' ', '(', 'k', '='] ++ (short t.k ++ [')', '>'])))))

/-- `Budget.__repr__` (Budget.cpp:17-18). -/
def budget (fix : Nat → ℚ → List Char) (p d q : ℚ) : List Char :=
  ['<', 'B', 'u', 'd', 'g', 'e', 't', ':', ' ', '$'] ++ (fix 2 p ++ ([';'] ++ (fix 2 d ++ ([';'] ++ (fix 2 q ++ ['$', '>'])))))

/-- What is assumed about `{:.nf}`: the number with `n` decimals next to `x`, either of them if there are two; with a minus if
`x` is negative.  Simplified: -0.0 is not a value of `ℚ`. -/
def SignedFixed (fix : Nat → ℚ → List Char) : Prop :=
  ∀ (n : Nat) (x : ℚ), ∃ k : Nat, |(|x|) - k / 10 ^ n| ≤ 1 / (2 * 10 ^ n) ∧
    fix n x = if x < 0 then '-' :: point n k else point n k

theorem point_inj {n j k : Nat} (h : point n j = point n k) : j = k := by
  have h1 := (point_value n j).reads
  rw [h, (point_value n k).reads, Option.some.injEq] at h1
  have hp : (10 : ℚ) ^ n ≠ 0 := by positivity
  field_simp at h1
  exact_mod_cast h1.symm

theorem point_chars (n k : Nat) : ∀ c ∈ point n k, c.isDigit = true ∨ c = '.' := by
  intro c hc
  simp only [point, List.mem_append, List.mem_cons] at hc
  rcases hc with h | h | h
  · exact .inl (toDigits_digits _ c h)
  · exact .inr h
  · exact .inl (padded_digits n k c h)

theorem SignedFixed.chars {fix : Nat → ℚ → List Char} (h : SignedFixed fix) (n : Nat) (x : ℚ) :
    ∀ c ∈ fix n x, c.isDigit = true ∨ c = '.' ∨ c = '-' := by
  obtain ⟨k, -, e⟩ := h n x
  rw [e]
  intro c hc
  split at hc
  · simp only [List.mem_cons] at hc
    rcases hc with h | h
    · exact .inr (.inr h)
    · exact (point_chars n k c h).imp id .inl
  · exact (point_chars n k c hc).imp id .inl

/-- Numbers shown alike are near each other. -/
theorem SignedFixed.near {fix : Nat → ℚ → List Char} (h : SignedFixed fix) {n : Nat} {x y : ℚ} (e : fix n x = fix n y) :
    |x - y| ≤ 1 / 10 ^ n := by
  obtain ⟨j, hj, ej⟩ := h n x
  obtain ⟨k, hk, ek⟩ := h n y
  rw [ej, ek] at e
  have hd : ∀ m : Nat, (point n m).head? ≠ some '-' := by
    intro m hm
    have := point_chars n m '-' (List.mem_of_head? hm)
    revert this; decide
  have e2 : 1 / (2 * (10 : ℚ) ^ n) + 1 / (2 * 10 ^ n) = 1 / 10 ^ n := by field_simp; norm_num
  have fin : |(|x|) - (|y|)| ≤ 1 / 10 ^ n → j = k → ((x < 0) ↔ (y < 0)) → |x - y| ≤ 1 / 10 ^ n := by
    intro h1 _ h2
    rcases lt_or_ge x 0 with hx | hx
    · have hy := h2.1 hx
      rw [abs_of_neg hx, abs_of_neg hy] at h1
      rw [← abs_neg]
      calc |-(x - y)| = |-x - -y| := by ring_nf
        _ ≤ _ := h1
    · have hy : 0 ≤ y := not_lt.mp fun hy => absurd (h2.2 hy) (not_lt.mpr hx)
      rwa [abs_of_nonneg hx, abs_of_nonneg hy] at h1
  have tri : j = k → |(|x|) - (|y|)| ≤ 1 / 10 ^ n := by
    rintro rfl
    rw [← e2]
    calc |(|x|) - (|y|)| = |((|x|) - j / 10 ^ n) - ((|y|) - j / 10 ^ n)| := by ring_nf
      _ ≤ |(|x|) - j / 10 ^ n| + |(|y|) - j / 10 ^ n| := abs_sub _ _
      _ ≤ _ := add_le_add hj hk
  by_cases hx : x < 0 <;> by_cases hy : y < 0
  · simp only [hx, hy, if_true, List.cons.injEq, true_and] at e
    exact fin (tri (point_inj e)) (point_inj e) (by simp [hx, hy])
  · simp only [hx, hy, if_true, if_false] at e
    exact absurd (by rw [← e]; rfl) (hd k)
  · simp only [hx, hy, if_true, if_false] at e
    exact absurd (by rw [e]; rfl) (hd j)
  · simp only [hx, hy, if_false] at e
    exact fin (tri (point_inj e)) (point_inj e) (by simp [hx, hy])

/-- Two texts up to a character that occurs in neither. -/
theorem split_at {a b r s : List Char} {c : Char} (ha : c ∉ a) (hb : c ∉ b) (h : a ++ c :: r = b ++ c :: s) :
    a = b ∧ r = s := by
  induction a generalizing b with
  | nil =>
    cases b with
    | nil => simpa using h
    | cons y b => simp only [List.nil_append, List.cons_append, List.cons.injEq] at h; exact absurd h.1 (by simp at hb; exact hb.1)
  | cons x a ih =>
    cases b with
    | nil => simp only [List.nil_append, List.cons_append, List.cons.injEq] at h; exact absurd h.1.symm (by simp at ha; exact ha.1)
    | cons y b =>
      simp only [List.cons_append, List.cons.injEq] at h
      simp only [List.mem_cons, not_or] at ha hb
      obtain ⟨h1, h2⟩ := ih ha.2 hb.2 h.2
      exact ⟨by rw [h.1, h1], h2⟩

theorem SignedFixed.free {fix : Nat → ℚ → List Char} (h : SignedFixed fix) (n : Nat) (x : ℚ) :
    ',' ∉ fix n x ∧ '%' ∉ fix n x ∧ ';' ∉ fix n x ∧ '$' ∉ fix n x := by
  refine ⟨fun hc => ?_, fun hc => ?_, fun hc => ?_, fun hc => ?_⟩ <;>
    (have := h.chars n x _ hc; revert this; decide)

end Cnars.PyRepr
