import Verif.Parser.Ranges
import Verif.Props.Actions
import Verif.Props.TruthFns

/-!
# C52: truth values and budgets of parsed tasks
-/

namespace Cnars.Props
open Cnars Cnars.Parser

/-! ### C52 -/

/-- C52, where the values come from.  `written M a x` is the number written in the text for `x`, read
as `double` and rounded to `float`; no number is written twice.  Judgements and goals have the
frequency, confidence and horizon that are written, and otherwise 1, 0.9 and 1.  A task with a budget
has the priority, durability and quality that are written, and otherwise the durability for the type
of the sentence and the quality computed from the truth value (1 for questions and quests); a task
without budget has 0.8, 0.8 and 0.5 whatever it is. -/
theorem C52_values {b : Buf} (hb : Reached b) {d : Nat} (hd : d < 3) {strict : Bool} {fuel : Nat}
    {text : List WChar} {r : Parsed} (h : parseText strict fuel b text d = .ok r) {a : List Ast}
    (ha : r.ast = some a) {M : Mach} (hR : M.R.Sound) (hm : M.R.s (-1) = -1)
    (hcfg : M.cfg = Config.ofRnd M.R) {bad : Act Val} {env env' : Env} {t : Task}
    (he : evalTask M bad a env = (.ok t, env')) :
    (∀ x ∈ [Emit.priority, .durability, .quality, .frequency, .confidence, .k_evidence],
      (Ast.tokensAll x a).length ≤ 1) ∧
    (t.sentence.punct = .judgement ∨ t.sentence.punct = .goal →
      t.sentence.truth = some ⟨(written M a .frequency).getD 1,
        (written M a .confidence).getD (M.R.s (9 / 10)), (written M a .k_evidence).getD 1⟩) ∧
    (t.sentence.punct = .question ∨ t.sentence.punct = .quest → t.sentence.truth = none) ∧
    (Ast.tokensAll .priority a = [] →
      t.budget = ⟨M.R.s (8 / 10), M.R.s (8 / 10), M.R.s (5 / 10)⟩) ∧
    (Ast.tokensAll .priority a ≠ [] →
      written M a .priority = some t.budget.priority ∧
      t.budget.durability = (written M a .durability).getD
        (if t.sentence.punct = .judgement then M.R.s (5 / 10) else M.R.s (9 / 10)) ∧
      t.budget.quality = (written M a .quality).getD
        (t.sentence.truth.elim 1 fun u => M.R.s (Nal.qualityFromTruth M.R u))) := by
  have hn := C43_tree hb hd h ha
  obtain ⟨h1, h2⟩ := evalTask_values hn hR hm hcfg he
  refine ⟨fun x hx => hn.numerals.1 x ?_, fun hp => ?_, fun hp => ?_, fun hp => ?_, fun hp => ?_⟩
  · simp only [List.mem_cons, List.not_mem_nil, or_false] at hx
    rcases hx with rfl | rfl | rfl | rfl | rfl | rfl <;> rfl
  · rw [h1, if_pos hp, truthSpec, hR.s_one]
  · rw [h1, if_neg]
    rcases hp with hp | hp <;> simp [hp]
  · rw [h2, budgetSpec, if_pos hp]
  · rw [h2, budgetSpec, if_neg hp]
    refine ⟨?_, ?_, ?_⟩
    · cases hw : written M a .priority with
      | some y => rfl
      | none =>
        exfalso
        cases ht : Ast.tokensAll .priority a with
        | nil => exact hp ht
        | cons s ss =>
          obtain ⟨u, rfl, hu⟩ := hn.numerals.2.1 .priority (.inl rfl) s (by simp [ht])
          obtain ⟨z, hz, _⟩ := unit_decimal hu
          simp [written, ht, hz] at hw
    · show _ = _
      cases t.sentence.punct <;> simp [durabilityOf]
    · show _ = _
      cases t.sentence.truth <;> rfl

/-- C52: under every rounding to nearest, up, down or to zero, priority, durability, quality,
frequency and confidence are from 0 to 1, and the horizon is at least 1.  Missing: confidence and
durability different from 0 and 1, which is false for `float`: `C52_confidence_counterexample` in `Verif/Props/Ieee.lean`. -/
theorem C52_closed_partial {b : Buf} (hb : Reached b) {d : Nat} (hd : d < 3) {strict : Bool}
    {fuel : Nat} {text : List WChar} {r : Parsed} (h : parseText strict fuel b text d = .ok r)
    {a : List Ast} (ha : r.ast = some a) {M : Mach} (hR : M.R.Sound) (hm : M.R.s (-1) = -1)
    (hcfg : M.cfg = Config.ofRnd M.R) {bad : Act Val} {env env' : Env} {t : Task}
    (he : evalTask M bad a env = (.ok t, env')) :
    (0 ≤ t.budget.priority ∧ t.budget.priority ≤ 1) ∧
    (0 ≤ t.budget.durability ∧ t.budget.durability ≤ 1) ∧
    (0 ≤ t.budget.quality ∧ t.budget.quality ≤ 1) ∧
    ∀ u, t.sentence.truth = some u → (0 ≤ u.f ∧ u.f ≤ 1) ∧ (0 ≤ u.c ∧ u.c ≤ 1) ∧ 1 ≤ u.k := by
  have hn := C43_tree hb hd h ha
  obtain ⟨h1, h2⟩ := evalTask_values hn hR hm hcfg he
  have su : ∀ x : ℚ, 0 ≤ x → x ≤ 1 → 0 ≤ M.R.s x ∧ M.R.s x ≤ 1 := fun x h0 h1 => hR.s_unit ⟨h0, h1⟩
  have ho : ∀ x : Emit, x = .durability ∨ x = .confidence → ∀ y, written M a x = some y →
      0 ≤ y ∧ y ≤ 1 := by
    intro x hx y hy
    obtain ⟨z, z0, z1, rfl⟩ := written_open hn hx hy
    exact hR.s_unit (hR.d_unit ⟨z0.le, z1.le⟩)
  have ht : ∀ u, t.sentence.truth = some u →
      (0 ≤ u.f ∧ u.f ≤ 1) ∧ (0 ≤ u.c ∧ u.c ≤ 1) ∧ 1 ≤ u.k := by
    intro u hu
    rw [h1] at hu
    split at hu
    · simp only [Option.some.injEq] at hu
      subst hu
      refine ⟨getD_all (P := fun y => 0 ≤ y ∧ y ≤ 1) (fun y => written_unit hn hR (by simp))
          (su 1 (by norm_num) le_rfl),
        getD_all (P := fun y => 0 ≤ y ∧ y ≤ 1) (ho .confidence (by simp))
          (su _ (by norm_num) (by norm_num)),
        getD_all (P := fun y => 1 ≤ y) (fun y => written_pos hn hR) (le_of_eq hR.s_one.symm)⟩
    · cases hu
  have hq : 0 ≤ qualityOf M t.sentence.truth ∧ qualityOf M t.sentence.truth ≤ 1 := by
    cases hu : t.sentence.truth with
    | none => norm_num [qualityOf]
    | some u =>
      obtain ⟨u1, u2, _⟩ := ht u hu
      have := C66_quality M.R hR u u u1 u2
      exact su _ this.2.1 this.2.2.1
  have hdur : ∀ p, 0 ≤ durabilityOf M p ∧ durabilityOf M p ≤ 1 := by
    intro p
    cases p <;> exact su _ (by norm_num) (by norm_num)
  refine ⟨?_, ?_, ?_, ht⟩ <;> rw [h2, budgetSpec] <;> split
  · exact su _ (by norm_num) (by norm_num)
  · exact getD_all (P := fun y => 0 ≤ y ∧ y ≤ 1) (fun y => written_unit hn hR (by simp))
      (by norm_num)
  · exact su _ (by norm_num) (by norm_num)
  · exact getD_all (P := fun y => 0 ≤ y ∧ y ≤ 1) (ho .durability (by simp)) (hdur _)
  · exact su _ (by norm_num) (by norm_num)
  · exact getD_all (P := fun y => 0 ≤ y ∧ y ≤ 1) (fun y => written_unit hn hR (by simp)) hq

/-- C52: without rounding, confidence and durability are strictly between 0 and 1.  Missing: the same
for the rounding to `float`, which is false: `C52_confidence_counterexample` in
`Verif/Props/Ieee.lean`. -/
theorem C52_open_partial {b : Buf} (hb : Reached b) {d : Nat} (hd : d < 3) {strict : Bool}
    {fuel : Nat} {text : List WChar} {r : Parsed} (h : parseText strict fuel b text d = .ok r)
    {a : List Ast} (ha : r.ast = some a) {M : Mach} (hR : M.R = Rnd.exact ℚ)
    (hcfg : M.cfg = Config.ofRnd M.R) {bad : Act Val} {env env' : Env} {t : Task}
    (he : evalTask M bad a env = (.ok t, env')) :
    (0 < t.budget.durability ∧ t.budget.durability < 1) ∧
    ∀ u, t.sentence.truth = some u → 0 < u.c ∧ u.c < 1 := by
  have hn := C43_tree hb hd h ha
  obtain ⟨h1, h2⟩ := evalTask_values hn (hR ▸ Rnd.exact_sound) (by rw [hR]; rfl) hcfg he
  have hs : ∀ x, M.R.s x = x := fun x => by rw [hR]; rfl
  have ho : ∀ x : Emit, x = .durability ∨ x = .confidence → ∀ y, written M a x = some y →
      0 < y ∧ y < 1 := by
    intro x hx y hy
    obtain ⟨z, z0, z1, rfl⟩ := written_open hn hx hy
    rw [hR]
    exact ⟨z0, z1⟩
  constructor
  · rw [h2, budgetSpec]
    split
    · norm_num [hs]
    · refine getD_all (P := fun y => 0 < y ∧ y < 1) (ho .durability (by simp)) ?_
      cases t.sentence.punct <;> norm_num [durabilityOf, hs]
  · intro u hu
    rw [h1] at hu
    split at hu
    · simp only [Option.some.injEq] at hu
      subst hu
      refine getD_all (P := fun y => 0 < y ∧ y < 1) (ho .confidence (by simp)) ?_
      norm_num [hs]
    · cases hu

/-- The task of a text. -/
def taskOf (M : Mach) (text : List Char) : Option Task :=
  match parseTask M undefined true 1000 0 new (bytes text) with
  | (.ok t, _) => t
  | _ => none

/-- `$.5;.25$<A-->B>. :|: %0.75%` -/
def valuesText : List Char :=
  ['$', '.', '5', ';', '.', '2', '5', '$', '<', 'A', '-', '-', '>', 'B', '>', '.', ' ', ':', '|',
   ':', ' ', '%', '0', '.', '7', '5', '%']

/-- The hypotheses are met, by a text with some values and without others. -/
example : (taskOf mach valuesText).map (fun t => (t.budget, t.sentence.truth)) =
    some (⟨1 / 2, 1 / 4, 29 / 40⟩, some ⟨3 / 4, 9 / 10, 1⟩) ∧
    Ast.tokensAll .durability (treeOf valuesText) = [['.', '2', '5']] ∧
    Ast.tokensAll .quality (treeOf valuesText) = [] := by decide +kernel

example : mach.R.Sound ∧ mach.R.s (-1) = -1 ∧ mach.cfg = Config.ofRnd mach.R :=
  ⟨Rnd.exact_sound, rfl, rfl⟩

/-- C52 is false: the defaults of a task without budget are not those for its type.  `A?` has
priority 0.8 and durability 0.8 (the values for questions are 0.9), and `A.` has durability 0.8 (the
value for judgements is 0.5) and quality 0.5 (the quality of its truth value is 0.95). -/
theorem C52_defaults_counterexample :
    ((taskOf mach ['A', '?']).map fun t => (t.budget, t.sentence.punct)) =
      some (⟨8 / 10, 8 / 10, 5 / 10⟩, .question) ∧
    mach.cfg.p_question = 9 / 10 ∧ mach.cfg.d_question = 9 / 10 ∧
    ((taskOf mach ['A', '.']).map fun t => (t.budget, t.sentence.punct, t.sentence.truth)) =
      some (⟨8 / 10, 8 / 10, 5 / 10⟩, .judgement, some ⟨1, 9 / 10, 1⟩) ∧
    mach.cfg.d_judgement = 5 / 10 ∧ Nal.qualityFromTruth mach.R ⟨1, 9 / 10, 1⟩ = 95 / 100 := by
  decide +kernel

end Cnars.Props
