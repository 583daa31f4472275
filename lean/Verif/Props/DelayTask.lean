import Verif.Props.Delay
import Verif.Props.Actions
import Verif.Parser.Retry

/-!
# C71: what the actions get if `error_delay` is uninitialised
-/

namespace Cnars.Props
open Cnars Cnars.Parser

/-- C71, for the semantic actions: whatever is in `error_delay`, and whatever was parsed before with whatever values, the tree
of a line that is accepted is one the actions are made for.  Every name in it has an action, no action reads an argument that is
missing or of another type, if the actions return there is one task, and if they throw it is `std::stod` that throws, about a
numeral written in what is left of the line without one piece.  Missing: the tree need not be the one for value 0. -/
theorem C71_types_partial {b : Buf} (hb : ReachedAny b) {text : List WChar} {strict : Bool} {fuel d : Nat} {r : Parsed}
    {a : List Ast} (h : parseText strict fuel b text d = .ok r) (ha : r.ast = some a) {M : Mach}
    (hord : ∀ l, (M.ord l).Perm l) :
    (∀ e ∈ emitsAll a, e ∈ registered) ∧
    (∀ (bad bad' : Act Val) (env : Env), evalAll M bad a env = evalAll M bad' a env) ∧
    (∀ (bad : Act Val) (env env' : Env) (vs : List Val), evalAll M bad a env = (.ok vs, env') → ∃ t, vs = [.task t]) ∧
    (∀ (bad : Act Val) (env env' : Env) (m : String), evalTask M bad a env = (.throw m, env') → m = "stod" ∧
      ∃ before piece after s x, firstLine text = before ++ piece ++ after ∧ Written (before ++ after) s ∧ Denotes s x ∧
        M.erange x = true) := by
  obtain ⟨u, v, w, hu, hn⟩ := C71_piece_partial hb h ha
  obtain ⟨x, hx0, hx, ht⟩ := narsese_typed hn
  refine ⟨?_, ?_, ?_, ?_⟩
  · subst hx0
    intro e he
    simp only [emitsAll, List.append_nil] at he
    exact typed_registered hx e he
  · subst hx0
    intro bad bad' env
    exact congrFun (evalAll_typed (bad := bad) (bad' := bad') fun y hy => by
      rw [List.mem_singleton] at hy
      exact hy ▸ evalNode_typed M bad bad' hx).1 env
  · subst hx0
    intro bad env env' vs hv
    have := (evalAll_typed (M := M) (bad := bad) (bad' := bad) (as := [x]) fun y hy => by
      rw [List.mem_singleton] at hy
      exact hy ▸ evalNode_typed M bad bad hx).2 env vs env' hv
    simp only [List.map_cons, List.map_nil, ht, Have.cons_iff, Have.nil_iff, ty_task] at this
    obtain ⟨v, us, rfl, ⟨t, rfl⟩, rfl⟩ := this
    exact ⟨t, rfl⟩
  · intro bad env env' m he
    obtain ⟨bs, p, t, ms, hp, _⟩ := evalTask_part hn
    have := evalTask_ends hn hp (M := M) (bad := bad) (P := Unread M (taskNums bs t ms))
      (Q := fun _ => True) (F := True)
      ((Syn.eval_throws hord t env).imp (·.mono (by simp +contextual [taskNums])) (fun _ h => h) id)
      id (fun _ _ => trivial)
    rw [he] at this
    obtain ⟨s, y, h1, h2, h3⟩ := unread_range hn hp this.2
    exact ⟨this.1, u, v, w, s, y, hu, h1, h2, h3⟩

/-- `)A. %1%` is accepted with 3, and its tree is evaluated to a task. -/
example : (match parseText true 200 freshBuf (bytes [')', 'A', '.', ' ', '%', '1', '%']) 3 with
    | .ok r => match r.ast with
      | some a => match (evalAll mach undefined a env0).1 with
        | .ok [.task _] => true
        | _ => false
      | none => false
    | _ => false) = true := by decide +kernel

end Cnars.Props
