import Verif.Parser.Retry
import Verif.Props.Parsing
import Verif.Props.Actions

/-!
# C84: numerals out of range, the other way round
-/

namespace Cnars.Props
open Cnars Cnars.Parser

/-- C84, the converse of `C84_throw`: in every state, if there is a task for an accepted line, then each numeral of the line, be it
in the budget, in an interval, in the time or in the truth value, denotes a number in the range of `double`.  So a line with a
numeral out of range is never a task. -/
theorem C84_in_range {b : Buf} (hb : Reached b) {d : Nat} (hd : d < 3) {strict : Bool} {fuel : Nat} {text : List WChar}
    {r : Parsed} (h : parseText strict fuel b text d = .ok r) {a : List Ast} (ha : r.ast = some a) {M : Mach} {bad : Act Val}
    {env env' : Env} {k : Task} (he : evalTask M bad a env = (.ok k, env')) :
    ∃ bs p t ms, partAll a = some [.task bs p t ms] ∧ ∀ s ∈ bs.getD [] ++ (t.nums ++ ms.flatMap Mark.nums),
      Written (firstLine text) s ∧ ∃ x, Denotes s x ∧ M.erange x = false := by
  have hn := C43_tree hb hd h ha
  obtain ⟨bs, p, t, ms, hp, _⟩ := evalTask_part hn
  refine ⟨bs, p, t, ms, hp, fun s hs => ?_⟩
  obtain ⟨h1, x, h2, h3⟩ := hn.nums hp s hs
  refine ⟨h1, x, h2, ?_⟩
  cases hx : M.erange x with
  | false => rfl
  | true =>
    refine absurd ⟨s, hs, "stod", ?_⟩ (evalTask_read hn he hp)
    unfold Action.stod
    rw [h3]
    simp [hx]

/-- `A. %1%`, with a numeral, is accepted and gives a task. -/
example : accepted? (parseText true 1000 freshBuf (bytes ['A', '.', ' ', '%', '1', '%']) 0) = true ∧
    (match (evalTask mach undefined (treeOf ['A', '.', ' ', '%', '1', '%']) env0).1 with
      | .ok _ => true
      | _ => false) = true := by
  constructor <;> decide +kernel

end Cnars.Props
