import Verif.Parser.Stamps
import Verif.Props.Ranges

/-!
# C77: what a line says is what its task has
-/

namespace Cnars.Props
open Cnars Cnars.Parser Stamp

/-! ### C77 -/

/-- A number that was read, as stored in a task: text to `double` to `float`. -/
def stored (M : Mach) (x : ℚ) : ℚ := M.R.s (M.R.d x)

/-- The same for a line whose parts are given. -/
theorem line_says {b : Buf} (hb : Reached b) {d : Nat} (hd : d < 3) {strict : Bool} {fuel : Nat}
    {text : List WChar} {r : Parsed} (h : parseText strict fuel b text d = .ok r) {a : List Ast}
    (ha : r.ast = some a) {M : Mach} (hR : M.R.Sound) (hi : IntExact M.R) (hm : M.R.s (-1) = -1)
    (hcfg : M.cfg = Config.ofRnd M.R) {bad : Act Val} {env env' : Env} {t : Task}
    (he : evalTask M bad a env = (.ok t, env')) {bs vs : List (List Char)} {ys xs : List ℚ} {p : Punct}
    {x : Syn} {tm : List Mark} {n : Option Int} (ht : TenseIs tm n) (hy : List.Forall₂ Decimal bs ys)
    (hx : List.Forall₂ Decimal vs xs)
    (hp : partAll a = some [.task (if bs = [] then none else some bs) p x (tm ++ truthMarks vs)]) :
    t.sentence.punct = p ∧ t.sentence.cls = classOf p ∧ t.sentence.stamp = stampSpec env.globals n ∧
      (∀ k, n = some k → -2 ^ 31 ≤ k ∧ k < 2 ^ 31) ∧
      env'.globals = ⟨env.globals.time, (env.globals.inputId + 1) % 2 ^ 64⟩ ∧
      t.sentence.truth = (if p = .judgement ∨ p = .goal then
        some ⟨(xs[0]?.map (stored M)).getD 1, (xs[1]?.map (stored M)).getD (M.R.s (9 / 10)),
          (xs[2]?.map (stored M)).getD 1⟩ else none) ∧
      (ys = [] → t.budget = ⟨M.R.s (8 / 10), M.R.s (8 / 10), M.R.s (5 / 10)⟩) ∧
      (∀ y, ys[0]? = some y → t.budget = ⟨stored M y,
        (ys[1]?.map (stored M)).getD
          (if p = .judgement then M.R.s (5 / 10) else M.R.s (9 / 10)),
        (ys[2]?.map (stored M)).getD
          (t.sentence.truth.elim 1 fun u => M.R.s (Nal.qualityFromTruth M.R u))⟩) := by
  have hn := C43_tree hb hd h ha
  obtain ⟨_, v2, v3, v4, v5⟩ := C52_values hb hd h ha hR hm hcfg he
  obtain ⟨⟨w1, w2, w3⟩, ⟨w4, w5, w6⟩, w7⟩ := written_line hn M ht hy hx hp
  obtain ⟨e1, e2, e3, e4, e5⟩ := evalTask_full hn hR hi he hp ht
  have hb0 : ys = [] ↔ bs = [] := by
    cases hy <;> simp
  refine ⟨e1, e2, e3, fun k hk => ?_, e4, ?_, fun h0 => ?_, fun y h0 => ?_⟩
  · have := e5 k hk
    omega
  · split
    · rename_i hj
      rw [v2 (e1 ▸ hj), w4, w5, w6]; rfl
    · rename_i hj
      exact v3 (by rw [e1]; cases p <;> simp at hj ⊢)
  · exact v4 (w7.mpr (hb0.mp h0))
  · obtain ⟨k1, k2, k3⟩ := v5 (fun h1 => by
      rw [hb0.mpr (w7.mp h1)] at h0
      cases h0)
    rw [w1, h0] at k1
    rw [w2, e1] at k2
    rw [w3] at k3
    simp only [Option.map_some, Option.some.injEq] at k1
    cases hbud : t.budget with
    | mk bp bd bq =>
      rw [hbud] at k1 k2 k3
      simp only at k1 k2 k3
      rw [← k1, k2, k3]
      rfl

/-- C77: an accepted line consists of a budget or none, the content, a punctuation mark, a tense mark
or none, a truth value or none (none after `?` and `@`), with blanks between; type, stamp, truth value
and budget of its task are what these say, and one input id is used up. -/
theorem C77_line {b : Buf} (hb : Reached b) {d : Nat} (hd : d < 3) {strict : Bool} {fuel : Nat}
    {text : List WChar} {r : Parsed} (h : parseText strict fuel b text d = .ok r) {a : List Ast}
    (ha : r.ast = some a) {M : Mach} (hR : M.R.Sound) (hi : IntExact M.R) (hm : M.R.s (-1) = -1)
    (hcfg : M.cfg = Config.ofRnd M.R) {bad : Act Val} {env env' : Env} {t : Task}
    (he : evalTask M bad a env = (.ok t, env')) :
    ∃ bs ys p n vs xs, LineText (firstLine text) bs ys p n vs xs ∧
      t.sentence.punct = p ∧
      t.sentence.cls = (match p with
        | .judgement => .judgement | .question => .question | .goal => .goal | .quest => .quest) ∧
      t.sentence.stamp = (match n with
        | none => ⟨some [env.globals.inputId], (env.globals.time : Int).bmod (2 ^ 32),
            (env.globals.time : Int).bmod (2 ^ 32), -1, true⟩
        | some k => ⟨none, (env.globals.time : Int).bmod (2 ^ 32), k, -1, false⟩) ∧
      (∀ k, n = some k → -2 ^ 31 ≤ k ∧ k < 2 ^ 31) ∧
      env'.globals = ⟨env.globals.time, (env.globals.inputId + 1) % 2 ^ 64⟩ ∧
      t.sentence.truth = (if p = .judgement ∨ p = .goal then
        some ⟨(xs[0]?.map (stored M)).getD 1, (xs[1]?.map (stored M)).getD (M.R.s (9 / 10)),
          (xs[2]?.map (stored M)).getD 1⟩ else none) ∧
      (ys = [] → t.budget = ⟨M.R.s (8 / 10), M.R.s (8 / 10), M.R.s (5 / 10)⟩) ∧
      (∀ y, ys[0]? = some y → t.budget = ⟨stored M y,
        (ys[1]?.map (stored M)).getD
          (if p = .judgement then M.R.s (5 / 10) else M.R.s (9 / 10)),
        (ys[2]?.map (stored M)).getD
          (t.sentence.truth.elim 1 fun u => M.R.s (Nal.qualityFromTruth M.R u))⟩) := by
  have hn := C43_tree hb hd h ha
  obtain ⟨bs, ys, p, n, vs, xs, t', tm, hl, ht, hp⟩ := line_split hn
  obtain ⟨w, ub, us, _, _, _, hs⟩ := hl.text
  obtain ⟨e1, e2, e3, e4, e5⟩ := line_says hb hd h ha hR hi hm hcfg he ht hl.values hs.values hp
  refine ⟨bs, ys, p, n, vs, xs, hl, e1, ?_, ?_, e4, e5⟩
  · rw [e2]; cases p <;> rfl
  · rw [e3]; cases n <;> simp only [stampSpec, toInt32_bmod]

/-- `$.5;.25;1$ <A-->B>! :!-12: %.75;.5;2%` -/
def wholeText : List Char :=
  ['$', '.', '5', ';', '.', '2', '5', ';', '1', '$', ' ', '<', 'A', '-', '-', '>', 'B', '>', '!', ' ',
   ':', '!', '-', '1', '2', ':', ' ', '%', '.', '7', '5', ';', '.', '5', ';', '2', '%']

/-- The hypotheses are met, with all parts present. -/
example : (taskOf mach wholeText).map (fun t => (t.sentence.punct, t.sentence.cls, t.sentence.stamp,
      t.sentence.truth)) =
    some (.goal, .goal, ⟨none, 0, -12, -1, false⟩, some ⟨3 / 4, 1 / 2, 2⟩) ∧
    (taskOf mach wholeText).map (fun t => t.budget) = some ⟨1 / 2, 1 / 4, 1⟩ := by decide +kernel

/-- And with none. -/
example : (taskOf mach ['A', '@']).map (fun t => (t.sentence.punct, t.sentence.cls,
      t.sentence.stamp, t.sentence.truth)) =
    some (.quest, .quest, ⟨some [0], 0, 0, -1, true⟩, none) := by decide +kernel

example : IntExact mach.R := fun _ _ _ => rfl

/-- `A. :!2147483648:` -/
def lateText : List Char :=
  ['A', '.', ' ', ':', '!', '2', '1', '4', '7', '4', '8', '3', '6', '4', '8', ':']

/-- Undefined behaviour? -/
def isUb {α : Type} : Res α → Bool
  | .ub => true
  | _ => false

/-- C77 is false for times that are no `int`: such a line is accepted, but has no task; the conversion
(NarseseParser.cpp:769) is undefined. -/
theorem C77_overflow_counterexample :
    accepted? (parseText true 1000 freshBuf (bytes lateText) 0) = true ∧
    isUb (parseTask mach undefined true 1000 0 new (bytes lateText)).1 = true := by
  decide +kernel

end Cnars.Props
