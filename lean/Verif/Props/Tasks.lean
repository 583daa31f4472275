import Verif.Parser.TaskText
import Verif.Props.RoundTrip

/-!
# C80: reading the task that was printed
-/

namespace Cnars.Props
open Cnars Cnars.Parser Term Print

/-! ### C80 -/

/-- What is assumed about `fmt::format("{:.nf}", x)` for numbers that are not negative: the text is a
number with `n` decimals, and none is nearer to `x`. -/
def Fixed (fix : Nat → ℚ → Str) : Prop :=
  ∀ n x, 0 ≤ x → ∃ k : Nat, fix n x = point n k ∧ |x - k / 10 ^ n| ≤ 1 / (2 * 10 ^ n)

/-- What is assumed about the machine: hash tables enumerate their entries in some order; integers are
exact, the relative error of `float` and `double` is at most 10⁻⁶ except near 0; multiples of 0.001 up to 1 can be
read. -/
structure Machine (M : Mach) : Prop where
  ord : ∀ l, (M.ord l).Perm l
  ints : ExactInts M
  sound : M.R.Sound
  intExact : IntExact M.R
  minus : M.R.s (-1) = -1
  cfg : M.cfg = Config.ofRnd M.R
  range : ∀ k : Nat, k ≤ 1000 → M.erange (k / 1000) = false
  float : FloatLike M.R (1 / 1000000)
  double : ∀ x, 0 ≤ x → x ≤ 1 → |M.R.d x - x| ≤ 1 / 1000000 * (x + 1 / 1000)

/-- The budget as the printing functions see it. -/
def shownBudget (b : Parser.Budget) : Print.Budget ℚ := ⟨.fin b.priority, .fin b.durability, .fin b.quality⟩

theorem Machine.stored {M : Mach} (h : Machine M) {x : ℚ} (h0 : 0 ≤ x) (h1 : x ≤ 1) :
    0 ≤ stored M x ∧ stored M x ≤ 1 ∧ |stored M x - x| ≤ 3 / 1000000 := by
  have d1 := h.double x h0 h1
  have d0 : 0 ≤ M.R.d x := h.sound.d_zero ▸ h.sound.d_mono h0
  have d2 : M.R.d x ≤ 1 := h.sound.d_one ▸ h.sound.d_mono h1
  have e := h.float.err (M.R.d x) d0 (by linarith)
  rw [abs_le] at d1 e
  refine ⟨h.sound.s_zero ▸ h.sound.s_mono d0, h.sound.s_one ▸ h.sound.s_mono d2, ?_⟩
  unfold Props.stored
  rw [abs_le]
  constructor <;> linarith [d1.1, d1.2, e.1, e.2]

/-- The nearest number with `n` decimals is unique. -/
theorem Fixed.eq_point {fix : Nat → ℚ → Str} (h : Fixed fix) {n k : Nat} {x : ℚ} (h0 : 0 ≤ x)
    (hx : |x - k / 10 ^ n| < 1 / (2 * 10 ^ n)) : fix n x = point n k := by
  obtain ⟨j, h1, h2⟩ := h n x h0
  rw [h1]
  have hp : (0 : ℚ) < 10 ^ n := by positivity
  have e : |((j : ℚ) - k) / 10 ^ n| < 1 / 10 ^ n := by
    have e1 : ((j : ℚ) - k) / 10 ^ n = (x - k / 10 ^ n) - (x - j / 10 ^ n) := by ring
    have e2 : 1 / (2 * (10 : ℚ) ^ n) + 1 / (2 * 10 ^ n) = 1 / 10 ^ n := by field_simp; norm_num
    rw [e1, ← e2]
    exact lt_of_le_of_lt (abs_sub _ _) (by linarith)
  rw [abs_div, abs_of_pos hp, div_lt_div_iff_of_pos_right hp] at e
  have e3 : |((j : Int) - k : Int)| < 1 := by
    have : ((|((j : Int) - k : Int)| : Int) : ℚ) < 1 := by push_cast; exact e
    exact_mod_cast this
  rw [Int.abs_lt_one_iff] at e3
  have : j = k := by omega
  rw [this]

/-- A number from 0 to 1 is printed as one. -/
theorem Fixed.unit {fix : Nat → ℚ → Str} (h : Fixed fix) (n : Nat) {x : ℚ} (h0 : 0 ≤ x) (h1 : x ≤ 1) :
    ∃ k : Nat, k ≤ 10 ^ n ∧ fix n x = point n k ∧ |x - k / 10 ^ n| ≤ 1 / (2 * 10 ^ n) := by
  obtain ⟨k, h2, h3⟩ := h n x h0
  refine ⟨k, ?_, h2, h3⟩
  have hp : (0 : ℚ) < 10 ^ n := by positivity
  rw [abs_le] at h3
  by_contra hk
  have hk : 10 ^ n + 1 ≤ k := by omega
  have hk : (10 : ℚ) ^ n + 1 ≤ k := by exact_mod_cast hk
  have e : ((10 : ℚ) ^ n + 1) / 10 ^ n ≤ k / 10 ^ n := by gcongr
  have e2 : ((10 : ℚ) ^ n + 1) / 10 ^ n = 1 + 1 / 10 ^ n := by field_simp
  have e3 : 1 / (2 * (10 : ℚ) ^ n) < 1 / 10 ^ n := by
    apply one_div_lt_one_div_of_lt hp; linarith
  linarith [h3.1]

theorem Machine.readable {M : Mach} (h : Machine M) {k : Nat} (hk : k ≤ 100) : M.erange (k / 10 ^ 2) = false := by
  have := h.range (10 * k) (by omega)
  have e : ((10 * k : Nat) : ℚ) / 1000 = k / 10 ^ 2 := by push_cast; ring
  rwa [e] at this

/-- What is shown of a multiple of 0.01. -/
theorem Machine.shown {M : Mach} (h : Machine M) {k : Nat} (hk : k ≤ 100) :
    (Num.fin (Props.stored M (k / 10 ^ 2))).shown M.R = M.R.s (k / 10 ^ 2) := by
  have k0 : (0 : ℚ) ≤ k := Nat.cast_nonneg k
  have k1 : (k : ℚ) ≤ 100 := by exact_mod_cast hk
  obtain ⟨h0, h1, h2⟩ := h.stored (x := (k : ℚ) / 10 ^ 2) (by positivity) (by norm_num; linarith)
  generalize hy : Props.stored M (k / 10 ^ 2) = y at h0 h1 h2
  have hs : M.R.s y = y := by rw [← hy]; exact h.sound.s_s _
  have hc : ((Num.fin y).toFloat M.R).clamp = y := by simp [Num.toFloat, Num.clamp, hs, h0, h1]
  have e := h.float.err (y * 1000) (by linarith) (by linarith)
  have m0 : 0 ≤ M.R.s (y * 1000) := h.sound.s_zero ▸ h.sound.s_mono (by linarith)
  have hr : Num.cround (M.R.s (y * 1000)) = (10 * k : Nat) := by
    rw [Num.cround, if_pos m0, Int.floor_eq_iff]
    rw [abs_le] at e h2
    push_cast
    constructor <;> linarith [e.1, e.2, h2.1, h2.2]
  unfold Num.shown
  rw [hc, hr, h.float.ints _ (by omega) (by push_cast; omega)]
  congr 1
  push_cast
  ring

/-- A printed priority, durability or quality, read and printed again. -/
theorem Machine.budget {M : Mach} (hM : Machine M) {fix : Nat → ℚ → Str} (hf : Fixed fix) {k : Nat}
    (hk : k ≤ 100) : fix 2 ((Num.fin (Props.stored M (k / 10 ^ 2))).shown M.R) = point 2 k := by
  have k0 : (0 : ℚ) ≤ k := Nat.cast_nonneg k
  have k1 : (k : ℚ) ≤ 100 := by exact_mod_cast hk
  have h0 : (0 : ℚ) ≤ k / 10 ^ 2 := by positivity
  rw [hM.shown hk]
  refine hf.eq_point (hM.sound.s_zero ▸ hM.sound.s_mono h0) ?_
  have h1 : (k : ℚ) / 10 ^ 2 ≤ 1 := by norm_num; linarith
  refine lt_of_le_of_lt (hM.float.err _ h0 (by linarith)) ?_
  norm_num at h1 ⊢
  linarith

/-- A printed frequency or confidence, read and printed again. -/
theorem Machine.truth {M : Mach} (hM : Machine M) {fix : Nat → ℚ → Str} (hf : Fixed fix) {k : Nat}
    (hk : k ≤ 1000) : fix 3 (Props.stored M (k / 10 ^ 3)) = point 3 k := by
  have k0 : (0 : ℚ) ≤ k := Nat.cast_nonneg k
  have k1 : (k : ℚ) ≤ 1000 := by exact_mod_cast hk
  obtain ⟨h0, h1, h2⟩ := hM.stored (x := (k : ℚ) / 10 ^ 3) (by positivity) (by norm_num; linarith)
  exact hf.eq_point h0 (lt_of_le_of_lt h2 (by norm_num))

theorem Machine.near {M : Mach} (hM : Machine M) {x : ℚ} (h0 : 0 ≤ x) (h1 : x ≤ 1) {k : Nat} (hk : k ≤ 100)
    (hd : |(Num.fin x).shown M.R - k / 10 ^ 2| ≤ 1 / (2 * 10 ^ 2)) :
    |Props.stored M (k / 10 ^ 2) - x| ≤ 56 / 10000 := by
  have k0 : (0 : ℚ) ≤ k := Nat.cast_nonneg k
  have k1 : (k : ℚ) ≤ 100 := by exact_mod_cast hk
  obtain ⟨_, _, h2⟩ := hM.stored (x := (k : ℚ) / 10 ^ 2) (by positivity) (by norm_num; linarith)
  have h3 := (C40_float_partial hM.float (.fin x)).2.2.2 x rfl h0 h1
  rw [abs_le] at *
  norm_num at *
  constructor <;> linarith [h2.1, h2.2, h3.1, h3.2, hd.1, hd.2]

/-- The time a printed tense is read as. -/
def tenseRead (s : Stamp.Stamp) (time : Nat) : Int :=
  match s.tense time with
  | .past => -5
  | .future => 5
  | _ => 0

/-- Priority, durability and quality in a printed task. -/
theorem printed_budget {M : Mach} (hM : Machine M) {fix : Nat → ℚ → Str} (hf : Fixed fix) (b : Parser.Budget)
    (hd : fix 2 ((shownBudget b).durability.shown M.R) ≠ ['0', '.', '0', '0'] ∧
      fix 2 ((shownBudget b).durability.shown M.R) ≠ ['1', '.', '0', '0']) :
    ∃ k1 k2 k3 : Nat, k1 ≤ 100 ∧ 0 < k2 ∧ k2 < 100 ∧ k3 ≤ 100 ∧
      fix 2 ((shownBudget b).priority.shown M.R) = point 2 k1 ∧
      fix 2 ((shownBudget b).durability.shown M.R) = point 2 k2 ∧
      fix 2 ((shownBudget b).quality.shown M.R) = point 2 k3 ∧
      (0 ≤ b.priority → b.priority ≤ 1 → |stored M (k1 / 10 ^ 2) - b.priority| ≤ 56 / 10000) ∧
      (0 ≤ b.durability → b.durability ≤ 1 → |stored M (k2 / 10 ^ 2) - b.durability| ≤ 56 / 10000) ∧
      (0 ≤ b.quality → b.quality ≤ 1 → |stored M (k3 / 10 ^ 2) - b.quality| ≤ 56 / 10000) := by
  have all : ∀ x : ℚ, ∃ k : Nat, k ≤ 100 ∧ fix 2 ((Num.fin x).shown M.R) = point 2 k ∧
      (0 ≤ x → x ≤ 1 → |stored M (k / 10 ^ 2) - x| ≤ 56 / 10000) := by
    intro x
    obtain ⟨h0, h1, _⟩ := C40_float_partial hM.float (.fin x)
    obtain ⟨k, hk, h2, h3⟩ := hf.unit 2 h0 h1
    exact ⟨k, hk, h2, fun a b => hM.near a b hk h3⟩
  obtain ⟨k1, a1, b1, c1⟩ := all b.priority
  obtain ⟨k2, a2, b2, c2⟩ := all b.durability
  obtain ⟨k3, a3, b3, c3⟩ := all b.quality
  simp only [shownBudget] at hd ⊢
  rw [b2] at hd
  refine ⟨k1, k2, k3, a1, ?_, ?_, a3, b1, b2, b3, c1, c2, c3⟩
  · rcases Nat.eq_zero_or_pos k2 with rfl | h
    · exact absurd rfl hd.1
    · exact h
  · rcases Nat.lt_or_eq_of_le a2 with h | rfl
    · exact h
    · exact absurd rfl hd.2

/-- Frequency and confidence in a printed task. -/
theorem printed_truth {M : Mach} (hM : Machine M) {fix : Nat → ℚ → Str} (hf : Fixed fix) {v : Truth ℚ}
    (h0 : 0 ≤ v.f) (h1 : v.f ≤ 1) (h2 : 0 ≤ v.c) (h3 : v.c ≤ 1)
    (hc : fix 3 v.c ≠ ['0', '.', '0', '0', '0'] ∧ fix 3 v.c ≠ ['1', '.', '0', '0', '0']) :
    ∃ j1 j2 : Nat, j1 ≤ 1000 ∧ 0 < j2 ∧ j2 < 1000 ∧ fix 3 v.f = point 3 j1 ∧ fix 3 v.c = point 3 j2 ∧
      |stored M (j1 / 10 ^ 3) - v.f| ≤ 51 / 100000 ∧ |stored M (j2 / 10 ^ 3) - v.c| ≤ 51 / 100000 := by
  have all : ∀ x : ℚ, 0 ≤ x → x ≤ 1 → ∃ k : Nat, k ≤ 1000 ∧ fix 3 x = point 3 k ∧
      |stored M (k / 10 ^ 3) - x| ≤ 51 / 100000 := by
    intro x h0 h1
    obtain ⟨k, hk, h2, h3⟩ := hf.unit 3 h0 h1
    refine ⟨k, hk, h2, ?_⟩
    have k0 : (0 : ℚ) ≤ k := Nat.cast_nonneg k
    have k1 : (k : ℚ) ≤ 1000 := by exact_mod_cast (show k ≤ 1000 from hk)
    obtain ⟨_, _, h4⟩ := hM.stored (x := (k : ℚ) / 10 ^ 3) (by positivity) (by norm_num; linarith)
    rw [abs_le] at *
    norm_num at *
    constructor <;> linarith [h4.1, h4.2, h3.1, h3.2]
  obtain ⟨k1, a1, b1, c1⟩ := all v.f h0 h1
  obtain ⟨k2, a2, b2, c2⟩ := all v.c h2 h3
  rw [b2] at hc
  refine ⟨k1, k2, a1, ?_, ?_, b1, b2, c1, c2⟩
  · rcases Nat.eq_zero_or_pos k2 with rfl | h
    · exact absurd rfl hc.1
    · exact h
  · rcases Nat.lt_or_eq_of_le a2 with h | rfl
    · exact h
    · exact absurd rfl hc.2

theorem printed_marks {M : Mach} (hM : Machine M) {fix : Nat → ℚ → Str} (hf : Fixed fix) {s : Sentence ℚ}
    (hs : Formed s) (hu : ∀ v, s.truth = some v → 0 ≤ v.f ∧ v.f ≤ 1 ∧ 0 ≤ v.c ∧ v.c ≤ 1 ∧
      fix 3 v.c ≠ ['0', '.', '0', '0', '0'] ∧ fix 3 v.c ≠ ['1', '.', '0', '0', '0']) :
    ∃ w : Option (Nat × Nat), printedTruth fix s = w.map (fun w => (point 3 w.1, point 3 w.2)) ∧
      (∀ x, w = some x → x.1 ≤ 1000 ∧ 0 < x.2 ∧ x.2 < 1000) ∧
      (s.punct = .judgement ∨ s.punct = .goal → ∃ x v, w = some x ∧ s.truth = some v ∧
        |stored M (x.1 / 10 ^ 3) - v.f| ≤ 51 / 100000 ∧ |stored M (x.2 / 10 ^ 3) - v.c| ≤ 51 / 100000) ∧
      (s.punct = .question ∨ s.punct = .quest → w = none ∧ s.truth = none) := by
  have yes : ∀ p, p = .judgement ∨ p = .goal → s.punct = p →
      ∃ w : Option (Nat × Nat), printedTruth fix s = w.map (fun w => (point 3 w.1, point 3 w.2)) ∧
      (∀ x, w = some x → x.1 ≤ 1000 ∧ 0 < x.2 ∧ x.2 < 1000) ∧
      (p = .judgement ∨ p = .goal → ∃ x v, w = some x ∧ s.truth = some v ∧
        |stored M (x.1 / 10 ^ 3) - v.f| ≤ 51 / 100000 ∧ |stored M (x.2 / 10 ^ 3) - v.c| ≤ 51 / 100000) ∧
      (p = .question ∨ p = .quest → w = none ∧ s.truth = none) := by
    intro p hp hsp
    obtain ⟨v, e⟩ := hs.some (hsp ▸ hp)
    obtain ⟨a0, a1, a2, a3, a4⟩ := hu v e
    obtain ⟨j1, j2, b1, b2, b3, b4, b5, b6, b7⟩ := printed_truth hM hf a0 a1 a2 a3 a4
    refine ⟨some (j1, j2), ?_, ?_, fun _ => ⟨_, v, rfl, e, b6, b7⟩, ?_⟩
    · rcases hp with rfl | rfl <;> simp [printedTruth, hsp, e, b4, b5]
    · rintro x ⟨⟩
      exact ⟨b1, b2, b3⟩
    · rcases hp with rfl | rfl <;> simp
  cases hp : s.punct with
  | judgement => exact yes _ (.inl rfl) hp
  | goal => exact yes _ (.inr rfl) hp
  | question => exact ⟨none, by simp [printedTruth, hp], by simp, by simp, fun _ => ⟨rfl, hs.none (.inl hp)⟩⟩
  | quest => exact ⟨none, by simp [printedTruth, hp], by simp, by simp, fun _ => ⟨rfl, hs.none (.inr hp)⟩⟩

/-- The task that is read: its numbers are given in units of the last decimal. -/
theorem read_numbers {M : Mach} (hM : Machine M) {s : Session} (hs : Reached s.buf) {asg : Bool}
    (hw : Reach asg s.env.world) {t : Term} (ht : Constructed t) (hl : Legible s.env.world.store.dict t)
    (hv : Sayable t) (st : Steady t) (hp : PlainLeaves t) (ho : InOrder t) (hh : AtomsHeld s.env.world t)
    (p : Punct) (n : Stamp.Tense) {k1 k2 k3 : Nat} (hk1 : k1 ≤ 100) (hk2 : 0 < k2) (hk2' : k2 < 100)
    (hk3 : k3 ≤ 100) {w : Option (Nat × Nat)} (hw2 : ∀ x, w = some x → x.1 ≤ 1000 ∧ 0 < x.2 ∧ x.2 < 1000)
    (hw4 : p = .question ∨ p = .quest → w = none) {text : List Char}
    (htext : text = lineText (point 2 k1, point 2 k2, point 2 k3) (Print.treeOf s.env.world.store.dict t).text p n
      (w.map fun w => (point 3 w.1, point 3 w.2)))
    {d : Nat} (hd : d < 3) {fuel : Nat} (hfuel : 24 * text.length + 6 ≤ fuel) {strict : Bool}
    (hstr : strict = true → LineFits text t) (bad : Act Val) :
    ∃ k' s', parseTask M bad strict fuel d s (codes text) = (.ok (some k'), s') ∧
      k'.sentence.punct = p ∧ k'.sentence.cls = classOf p ∧
      k'.sentence.term.relabel blank = t.relabel blank ∧ s'.env.world.store = s.env.world.store ∧
      k'.sentence.stamp = stampSpec s.env.globals (tenseTime n) ∧
      k'.sentence.truth = (if p = .judgement ∨ p = .goal then
        some ⟨(w.map fun w => stored M (w.1 / 10 ^ 3)).getD 1,
          (w.map fun w => stored M (w.2 / 10 ^ 3)).getD (M.R.s (9 / 10)), 1⟩ else none) ∧
      k'.budget = ⟨stored M (k1 / 10 ^ 2), stored M (k2 / 10 ^ 2), stored M (k3 / 10 ^ 2)⟩ := by
  subst htext
  have hwr : Writable p (point 2 k1, point 2 k2, point 2 k3)
      (w.map fun w => (point 3 w.1, point 3 w.2)) := by
    refine ⟨point_unit (by decide) hk1, point_openUnit hk2 hk2', point_unit (by decide) hk3, ?_, ?_, fun h => ?_⟩
    · intro x hx'
      obtain ⟨y, hy, rfl⟩ := Option.map_eq_some_iff.mp hx'
      exact point_unit (by decide) (hw2 y hy).1
    · intro x hx'
      obtain ⟨y, hy, rfl⟩ := Option.map_eq_some_iff.mp hx'
      exact point_openUnit (hw2 y hy).2.1 (hw2 y hy).2.2
    · rw [hw4 h]; rfl
  have hys : List.Forall₂ Decimal [point 2 k1, point 2 k2, point 2 k3]
      [(k1 : ℚ) / 10 ^ 2, (k2 : ℚ) / 10 ^ 2, (k3 : ℚ) / 10 ^ 2] :=
    .cons (point_value _ _) (.cons (point_value _ _) (.cons (point_value _ _) .nil))
  have hxs : List.Forall₂ Decimal ((w.map fun w => (point 3 w.1, point 3 w.2)).elim [] fun v => [v.1, v.2])
      (w.elim [] fun w => [(w.1 : ℚ) / 10 ^ 3, (w.2 : ℚ) / 10 ^ 3]) := by
    cases w with
    | none => exact .nil
    | some w => exact .cons (point_value _ _) (.cons (point_value _ _) .nil)
  have ha : ∀ x, (w.map fun w => (point 3 w.1, point 3 w.2)) = some x → Ascii x.1 ∧ Ascii x.2 := by
    intro x hx'
    obtain ⟨y, hy, rfl⟩ := Option.map_eq_some_iff.mp hx'
    exact ⟨point_ascii _ _, point_ascii _ _⟩
  have hal := ascii_line hl (b := (point 2 k1, point 2 k2, point 2 k3)) (point_ascii _ _) (point_ascii _ _)
    (point_ascii _ _) p n ha
  have hey : ∀ y ∈ [(k1 : ℚ) / 10 ^ 2, (k2 : ℚ) / 10 ^ 2, (k3 : ℚ) / 10 ^ 2], M.erange y = false := by
    simp only [List.mem_cons, List.not_mem_nil, or_false, forall_eq_or_imp, forall_eq]
    exact ⟨hM.readable hk1, hM.readable (by omega), hM.readable hk3⟩
  have hex : ∀ x ∈ (w.elim [] fun w => [(w.1 : ℚ) / 10 ^ 3, (w.2 : ℚ) / 10 ^ 3]), M.erange x = false := by
    cases w with
    | none => simp
    | some w =>
      obtain ⟨a1, a2, a3⟩ := hw2 w rfl
      simp only [Option.elim_some, List.mem_cons, List.not_mem_nil, or_false, forall_eq_or_imp, forall_eq]
      have e : (10 : ℚ) ^ 3 = 1000 := by norm_num
      rw [e]
      exact ⟨hM.range _ a1, hM.range _ (by omega)⟩
  have hv1 : ((w.elim [] fun w => [(w.1 : ℚ) / 10 ^ 3, (w.2 : ℚ) / 10 ^ 3])[0]?.map (stored M)) =
      w.map fun w => stored M (w.1 / 10 ^ 3) := by cases w <;> rfl
  have hv2 : ((w.elim [] fun w => [(w.1 : ℚ) / 10 ^ 3, (w.2 : ℚ) / 10 ^ 3])[1]?.map (stored M)) =
      w.map fun w => stored M (w.2 / 10 ^ 3) := by cases w <;> rfl
  have hv3 : ((w.elim [] fun w => [(w.1 : ℚ) / 10 ^ 3, (w.2 : ℚ) / 10 ^ 3])[2]?.map (stored M)) =
      none := by cases w <;> rfl
  generalize (w.elim [] fun w => [(w.1 : ℚ) / 10 ^ 3, (w.2 : ℚ) / 10 ^ 3]) = xs at hxs hex hv1 hv2 hv3
  generalize (w.map fun w => (point 3 w.1, point 3 w.2)) = v at hwr hxs hal hfuel hstr ⊢
  generalize point 2 k1 = b1, point 2 k2 = b2, point 2 k3 = b3 at hwr hys hal hfuel hstr ⊢
  obtain ⟨scan, hacc⟩ := line_accepted hs hd hal hfuel (fun h => (hstr h).ast _ _ _ _ _) (isNarsese_task hl hv hwr n) (meant_task hl _ _ _ _)
  obtain ⟨k', s', e1, e2, e3, e4⟩ := reread_line hM.ord hM.ints hw.tidy.1 hl hv ht.good st ho
    (fun N hN => ⟨hh, hp.1, hN, hp.2⟩) hwr n hys hxs hey hex hacc bad
  have hsays := line_says hs hd hacc rfl hM.sound hM.intExact hM.minus hM.cfg e2
    (tenseIs_printed n) hys hxs (by rw [part_line_task hl]; rfl)
  obtain ⟨q1, q2, q3, _, _, q6, _, q8⟩ := hsays
  obtain ⟨_, _, e5⟩ := e4
  refine ⟨k', s', e1, q1, q2, e3, by rw [e5], q3, ?_, q8 _ rfl⟩
  rw [q6, hv1, hv2, hv3]
  rfl

/-- C80: a task is printed and the line is read.  Let the term be as in C41, the durability not be
printed as 0.00 or 1.00, and the confidence not as 0.000 or 1.000.  Then the line is accepted (by the
driver as it is, if it has at most 121 characters, or no more than 120 characters without a delimiter and
a term nested at most 18 deep: `LineFits`), and the task that is read

* has the same type and class, the same term up to stored names of variables, and all dictionaries stay
  as they were;
* is eternal if and only if the printed one is; otherwise it occurs at −5, 0 or 5, as the tense printed
  for it says;
* has a budget whose three numbers, if in [0,1], differ by less than 0.0056;
* has a truth value if and only if the printed one has; frequency and confidence differ by less than
  0.00051;
* is printed as the same text again, if it is eternal or the time is 0.

Missing from the full statement: other durabilities and confidences, evidence constants, times of
occurrence other than these; see the counterexamples. -/
theorem C80_task_partial {M : Mach} (hM : Machine M) {fix : Nat → ℚ → Str} (hf : Fixed fix) {s : Session}
    (hs : Reached s.buf) {asg : Bool} (hw : Reach asg s.env.world) {k : Task} (hkf : Formed k.sentence)
    (ht : Constructed k.sentence.term) (hl : Legible s.env.world.store.dict k.sentence.term)
    (hv : Sayable k.sentence.term) (hc : NoClash s.env.world.store.dict k.sentence.term)
    (st : Steady k.sentence.term) (hp : PlainLeaves k.sentence.term) (ho : InOrder k.sentence.term)
    (hh : AtomsHeld s.env.world k.sentence.term)
    (hd : fix 2 ((shownBudget k.budget).durability.shown M.R) ≠ ['0', '.', '0', '0'] ∧
      fix 2 ((shownBudget k.budget).durability.shown M.R) ≠ ['1', '.', '0', '0'])
    (hu : ∀ v, k.sentence.truth = some v → 0 ≤ v.f ∧ v.f ≤ 1 ∧ 0 ≤ v.c ∧ v.c ≤ 1 ∧
      fix 3 v.c ≠ ['0', '.', '0', '0', '0'] ∧ fix 3 v.c ≠ ['1', '.', '0', '0', '0'])
    (bg : Fin 3 → ℚ → Str) (time : Nat) :
    ∃ text, Print.task M.R fix bg time s.env.world.store.dict false (shownBudget k.budget) k.sentence = .ok text ∧
      ∀ d < 3, ∀ fuel, 24 * text.length + 6 ≤ fuel → ∀ strict, (strict = true → LineFits text k.sentence.term) → ∀ bad,
        ∃ k' s', parseTask M bad strict fuel d s (codes text) = (.ok (some k'), s') ∧
          k'.sentence.punct = k.sentence.punct ∧ k'.sentence.cls = k.sentence.cls ∧
          shape k'.sentence.term = shape k.sentence.term ∧ k'.sentence.term.info = k.sentence.term.info ∧
          k'.sentence.term.relabel (fun _ _ => "") = k.sentence.term.relabel (fun _ _ => "") ∧
          s'.env.world.store = s.env.world.store ∧
          k'.sentence.stamp.isEternal = k.sentence.stamp.isEternal ∧
          (k.sentence.stamp.isEternal = false →
            k'.sentence.stamp.tOccurrence = tenseRead k.sentence.stamp time) ∧
          (0 ≤ k.budget.priority → k.budget.priority ≤ 1 →
            |k'.budget.priority - k.budget.priority| ≤ 56 / 10000) ∧
          (0 ≤ k.budget.durability → k.budget.durability ≤ 1 →
            |k'.budget.durability - k.budget.durability| ≤ 56 / 10000) ∧
          (0 ≤ k.budget.quality → k.budget.quality ≤ 1 →
            |k'.budget.quality - k.budget.quality| ≤ 56 / 10000) ∧
          (k.sentence.truth = none → k'.sentence.truth = none) ∧
          (∀ v, k.sentence.truth = some v → ∃ v', k'.sentence.truth = some v' ∧
            |v'.f - v.f| ≤ 51 / 100000 ∧ |v'.c - v.c| ≤ 51 / 100000 ∧ v'.k = 1) ∧
          (k.sentence.stamp.isEternal = true ∨ time = 0 →
            Print.task M.R fix bg time s'.env.world.store.dict false (shownBudget k'.budget) k'.sentence =
              .ok text) := by
  have hx := hl.plain.text ht.good hc
  have htext := task_text hkf M.R fix bg time s.env.world.store.dict hx (shownBudget k.budget)
  obtain ⟨k1, k2, k3, hk1, hk2, hk2', hk3, p1, p2, p3, n1, n2, n3⟩ := printed_budget hM hf k.budget hd
  obtain ⟨w, hw1, hw2, hw3, hw4⟩ := printed_marks hM hf hkf hu
  rw [p1, p2, p3, hw1] at htext
  refine ⟨_, htext, fun d hd3 fuel hfuel strict hstr bad => ?_⟩
  obtain ⟨k', s', e1, e2, e3, e4, e5, e6, e7, e8⟩ := read_numbers hM hs hw ht hl hv st hp ho hh k.sentence.punct
    (k.sentence.stamp.tense time) hk1 hk2 hk2' hk3 hw2 (fun h => (hw4 h).1) rfl hd3 hfuel hstr bad
  have hst : k'.sentence.stamp.isEternal = k.sentence.stamp.isEternal := by
    rw [e6]
    unfold Stamp.Stamp.tense
    cases k.sentence.stamp.isEternal
    · simp only [Bool.false_eq_true, if_false]
      split
      · rfl
      · split <;> rfl
    · rfl
  have hcls : k'.sentence.cls = k.sentence.cls := by rw [e3, hkf.cls]
  have hno : k.sentence.truth = none → k'.sentence.truth = none := by
    intro h
    rw [e7, if_neg]
    intro hj
    obtain ⟨v, hv'⟩ := hkf.some hj
    rw [h] at hv'
    cases hv'
  have hyes : ∀ v, k.sentence.truth = some v → ∃ x, w = some x ∧
      k'.sentence.truth = some ⟨stored M (x.1 / 10 ^ 3), stored M (x.2 / 10 ^ 3), 1⟩ ∧
      |stored M (x.1 / 10 ^ 3) - v.f| ≤ 51 / 100000 ∧ |stored M (x.2 / 10 ^ 3) - v.c| ≤ 51 / 100000 := by
    intro v hv'
    have hj : k.sentence.punct = .judgement ∨ k.sentence.punct = .goal := by
      by_contra hj
      have := hkf.none (by cases h : k.sentence.punct <;> simp [h] at hj ⊢)
      rw [hv'] at this
      cases this
    obtain ⟨x, v2, hx1, hx2, hx3, hx4⟩ := hw3 hj
    rw [hv'] at hx2
    cases hx2
    refine ⟨x, hx1, ?_, hx3, hx4⟩
    rw [e7, if_pos hj, hx1]
    rfl
  refine ⟨k', s', e1, e2, hcls, ?_, ?_, e4, e5, hst, ?_, ?_, ?_, ?_, hno, ?_, ?_⟩
  · rw [← shape_relabel blank, e4, shape_relabel]
  · rw [← info_relabel blank, e4, info_relabel]
  · intro hne
    rw [e6]
    unfold tenseRead
    have : k.sentence.stamp.tense time ≠ .eternal := by
      unfold Stamp.Stamp.tense
      rw [hne]
      simp only [Bool.false_eq_true, if_false]
      split
      · simp
      · split <;> simp
    cases h : k.sentence.stamp.tense time with
    | eternal => exact absurd h this
    | past => rfl
    | present => rfl
    | future => rfl
  · intro h0 h1; rw [e8]; exact n1 h0 h1
  · intro h0 h1; rw [e8]; exact n2 h0 h1
  · intro h0 h1; rw [e8]; exact n3 h0 h1
  · intro v hv'
    obtain ⟨x, _, h2, h3, h4⟩ := hyes v hv'
    exact ⟨_, h2, h3, h4, rfl⟩
  · intro hte
    have hx' : Print.term s'.env.world.store.dict false k'.sentence.term =
        .ok (Print.treeOf s.env.world.store.dict k.sentence.term).text := by
      rw [e5, ← print_relabel blank, e4, print_relabel, hx]
    have hkf' : Formed k'.sentence := by
      refine ⟨fun h => ?_, fun h => ?_, by rw [hcls, hkf.cls, e2]⟩
      · obtain ⟨v, hv'⟩ := hkf.some (e2 ▸ h)
        obtain ⟨x, _, h2, _⟩ := hyes v hv'
        exact ⟨_, h2⟩
      · exact hno (hkf.none (e2 ▸ h))
    rw [task_text hkf' M.R fix bg time s'.env.world.store.dict hx' (shownBudget k'.budget), e8]
    have ht' : k'.sentence.stamp.tense time = k.sentence.stamp.tense time := by
      rw [e6]
      cases hE : k.sentence.stamp.isEternal with
      | true =>
        have : k.sentence.stamp.tense time = .eternal := by simp [Stamp.Stamp.tense, hE]
        rw [this]; rfl
      | false =>
        obtain rfl : time = 0 := by rcases hte with h | h
                                    · rw [hE] at h; cases h
                                    · exact h
        cases k.sentence.stamp.tense 0 <;> rfl
    have hp' : printedTruth fix k'.sentence = w.map fun w => (point 3 w.1, point 3 w.2) := by
      unfold printedTruth
      rw [e2]
      have yes : k.sentence.punct = .judgement ∨ k.sentence.punct = .goal →
          (k'.sentence.truth.map fun v => (fix 3 v.f, fix 3 v.c)) =
            w.map fun w => (point 3 w.1, point 3 w.2) := by
        intro hj
        obtain ⟨v, hv'⟩ := hkf.some hj
        obtain ⟨x, h1, h2, _⟩ := hyes v hv'
        obtain ⟨a1, a2, a3⟩ := hw2 x h1
        rw [h1, h2, Option.map_some, Option.map_some, hM.truth hf a1, hM.truth hf (by omega)]
      cases h : k.sentence.punct with
      | judgement => exact yes (.inl h)
      | goal => exact yes (.inr h)
      | question => rw [(hw4 (.inl h)).1]; rfl
      | quest => rw [(hw4 (.inr h)).1]; rfl
    rw [ht', hp', e2]
    simp only [shownBudget]
    rw [hM.budget hf hk1, hM.budget hf (show k2 ≤ 100 by omega), hM.budget hf hk3]

/-! #### Samples -/

/-- Rounding half up. -/
def fixed (n : Nat) (x : ℚ) : Str := point n (Num.cround (x * 10 ^ n)).toNat

theorem fixed_ok : Fixed fixed := by
  intro n x h0
  refine ⟨_, rfl, ?_⟩
  have hp : (0 : ℚ) < 10 ^ n := by positivity
  have hx : 0 ≤ x * 10 ^ n := by positivity
  have e : Num.cround (x * 10 ^ n) = ⌊x * 10 ^ n + 1 / 2⌋ := by simp [Num.cround, hx]
  have a := Int.floor_le (x * 10 ^ n + 1 / 2)
  have b := Int.lt_floor_add_one (x * 10 ^ n + 1 / 2)
  have k0 : 0 ≤ ⌊x * 10 ^ n + 1 / 2⌋ := Int.floor_nonneg.2 (by linarith)
  have ek : ((Num.cround (x * 10 ^ n)).toNat : ℚ) = ⌊x * 10 ^ n + 1 / 2⌋ := by
    rw [e]
    exact_mod_cast congrArg (Int.cast (R := ℚ)) (Int.toNat_of_nonneg k0)
  rw [ek]
  generalize (⌊x * 10 ^ n + 1 / 2⌋ : ℚ) = r at a b
  have e1 : x - r / 10 ^ n = (x * 10 ^ n - r) / 10 ^ n := by field_simp
  have e2 : 1 / (2 * (10 : ℚ) ^ n) = 1 / 2 / 10 ^ n := by field_simp
  rw [e1, e2, abs_div, abs_of_pos hp, div_le_div_iff_of_pos_right hp, abs_le]
  constructor <;> linarith

theorem mach_range (k : Nat) (hk : k ≤ 1000) : mach.erange (k / 1000) = false := by
  have h0 : (0 : ℚ) ≤ k := Nat.cast_nonneg k
  have h1 : (k : ℚ) ≤ 1000 := by exact_mod_cast hk
  have p1 : (2 : ℚ) ≤ 2 ^ 1024 := by
    calc (2 : ℚ) = 2 ^ 1 := by norm_num
      _ ≤ 2 ^ 1024 := pow_le_pow_right₀ (by norm_num) (by norm_num)
  have p2 : (1000 : ℚ) < 2 ^ 1022 := by
    calc (1000 : ℚ) < 2 ^ 10 := by norm_num
      _ ≤ 2 ^ 1022 := pow_le_pow_right₀ (by norm_num) (by norm_num)
  simp only [mach, decide_eq_false_iff_not]
  generalize (2 : ℚ) ^ 1024 = a at p1
  generalize (2 : ℚ) ^ 1022 = b at p2
  rintro (h | h | ⟨h, h', _⟩)
  · linarith
  · linarith
  · have : 1 ≤ k := Nat.one_le_iff_ne_zero.mpr (by rintro rfl; simp at h)
    have : (1 : ℚ) ≤ k := by exact_mod_cast this
    have h2 : (1 : ℚ) / b < 1 / 1000 := one_div_lt_one_div_of_lt (by norm_num) p2
    linarith

theorem mach_ok : Machine mach where
  ord := fun l => List.Perm.refl l
  ints := mach_exact
  sound := Rnd.exact_sound
  intExact := fun _ _ _ => rfl
  minus := rfl
  cfg := rfl
  range := mach_range
  float := ⟨monotone_id, fun _ _ _ => rfl, fun x h _ => by
    simp only [mach, Rnd.exact, id, sub_self, abs_zero]
    positivity⟩
  double := fun x h _ => by
    simp only [mach, Rnd.exact, id, sub_self, abs_zero]
    positivity

/-- `$0.12;0.50;1.00$ <(^go, $0, +3) ==> <{B, A} --> C>>! :/: %0.333;0.667%` -/
def sample80 : Task :=
  ⟨⟨123 / 1000, 1 / 2, 1⟩, .goal ⟨0, 0⟩ ⟨1, 9 / 10, 1⟩ sample41 (some ⟨1 / 3, 2 / 3, 1⟩)
    (some ⟨none, 0, 7, -1, false⟩)⟩

/-- The hypotheses are met. -/
example : ∃ text, Print.task mach.R fixed (fun _ _ => []) 0 names5.store.dict false (shownBudget sample80.budget)
      sample80.sentence = .ok text ∧
    ∀ d < 3, ∀ fuel, 24 * text.length + 6 ≤ fuel → ∃ k' s',
      parseTask mach undefined true fuel d with5 (codes text) = (.ok (some k'), s') ∧
      k'.sentence.punct = .goal ∧ shape k'.sentence.term = shape sample41 ∧
      k'.sentence.stamp.tOccurrence = 5 := by
  obtain ⟨text, h1, h2⟩ := C80_task_partial mach_ok fixed_ok (s := with5) (k := sample80) .fresh names5_reach
    (formed (.goal _ _ _ _ _)) sample41_c sample41_legible trivial sample41_clash sample41_steady sample41_plain
    sample41_order sample41_held (by decide +kernel) (by
      rintro v ⟨⟩
      refine ⟨by norm_num, by norm_num, by norm_num, by norm_num, by decide +kernel⟩) (fun _ _ => []) 0
  refine ⟨text, h1, fun d hd fuel hf => ?_⟩
  have h3 : text.length ≤ 121 := by
    have : (match Print.task mach.R fixed (fun _ _ => []) 0 names5.store.dict false (shownBudget sample80.budget)
      sample80.sentence with | .ok t => decide (t.length ≤ 121) | _ => false) = true := by decide +kernel
    rw [show names5 = with5.env.world from rfl, h1] at this
    simpa using this
  obtain ⟨k', s', e1, e2, _, e4, _, _, _, _, e9, _⟩ := h2 d hd fuel hf true (fun _ => .inl h3) undefined
  exact ⟨k', s', e1, e2, e4, by rw [e9 (by decide +kernel)]; decide +kernel⟩

/-- A line is read, its task printed. -/
def reprinted (text : List Char) : Option Str :=
  match parseTask mach undefined true 1000 0 new (bytes text) with
  | (.ok (some k), s) =>
    match Print.task mach.R fixed (fun _ _ => []) 0 s.env.world.store.dict false (shownBudget k.budget)
        k.sentence with
    | .ok t => some t
    | _ => none
  | _ => none

/-- C80 is false for durabilities near 1: the task of `$0.5;0.999$ A.` is printed with durability 1.00,
which the grammar does not allow, and the line is rejected. -/
theorem C80_durability_counterexample :
    ∃ text, reprinted
        (['$', '0', '.', '5', ';', '0', '.', '9', '9', '9', '$', ' ', 'A', '.'] : List Char) = some text ∧
      text =
        (['$', '0', '.', '5', '0', ';', '1', '.', '0', '0', ';', '0', '.', '9', '5', '$', ' ', 'A', '.', ' ', '%', '1', '.', '0', '0', '0', ';', '0', '.', '9', '0', '0', '%'] : List Char) ∧
      rejected? (parseText true 1000 freshBuf (bytes text) 0) = true := by
  exact ⟨_, by decide +kernel, rfl, by decide +kernel⟩

/-- And for confidences near 1: the task of `A. %1;0.9999%` is printed as `… A. %1.000;1.000%`, which is
rejected. -/
theorem C80_confidence_counterexample :
    ∃ text, reprinted (['A', '.', ' ', '%', '1', ';', '0', '.', '9', '9', '9', '9', '%'] : List Char) = some text ∧
      text =
        (['$', '0', '.', '8', '0', ';', '0', '.', '8', '0', ';', '0', '.', '5', '0', '$', ' ', 'A', '.', ' ', '%', '1', '.', '0', '0', '0', ';', '1', '.', '0', '0', '0', '%'] : List Char) ∧
      rejected? (parseText true 1000 freshBuf (bytes text) 0) = true := by
  exact ⟨_, by decide +kernel, rfl, by decide +kernel⟩

/-- The evidence constant is not printed, and read back as 1: `A. %1;0.5;2%`. -/
theorem C80_evidence_counterexample :
    (taskOf mach ['A', '.', ' ', '%', '1', ';', '0', '.', '5', ';', '2', '%']).bind (fun k => k.sentence.truth.map (·.k)) = some 2 ∧
    ∃ text, reprinted (['A', '.', ' ', '%', '1', ';', '0', '.', '5', ';', '2', '%'] : List Char) = some text ∧
      (taskOf mach text).bind (fun k => k.sentence.truth.map (·.k)) = some 1 := by
  refine ⟨by decide +kernel, ['$', '0', '.', '8', '0', ';', '0', '.', '8', '0', ';', '0', '.', '5', '0', '$', ' ', 'A', '.', ' ', '%', '1', '.', '0', '0', '0', ';', '0', '.', '5', '0', '0', '%'], by decide +kernel, by decide +kernel⟩

/-- Of the time of occurrence only the tense is printed: 100 becomes 5 in `A. :!100:`. -/
theorem C80_time_counterexample :
    (taskOf mach ['A', '.', ' ', ':', '!', '1', '0', '0', ':']).map (fun k => k.sentence.stamp.tOccurrence) = some 100 ∧
    ∃ text, reprinted (['A', '.', ' ', ':', '!', '1', '0', '0', ':'] : List Char) = some text ∧
      (taskOf mach text).map (fun k => k.sentence.stamp.tOccurrence) = some 5 := by
  refine ⟨by decide +kernel, ['$', '0', '.', '8', '0', ';', '0', '.', '8', '0', ';', '0', '.', '5', '0', '$', ' ', 'A', '.', ' ', ':', '/', ':', ' ', '%', '1', '.', '0', '0', '0', ';', '0', '.', '9', '0', '0', '%'], by decide +kernel, by decide +kernel⟩

end Cnars.Props
