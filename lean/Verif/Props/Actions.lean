import Verif.Parser.Session
import Verif.Props.Parsing

/-!
# C44, C49: what semantic actions get, and what remains of a call
-/

namespace Cnars.Props
open Cnars Cnars.Parser

/-! ### Samples -/

/-- Exact arithmetic, the range of `double`, atoms at 0x1000, 0x1020, … -/
def mach : Mach where
  R := Rnd.exact ℚ
  erange x := decide (2 ^ 1024 ≤ x ∨ x ≤ -2 ^ 1024 ∨ (x ≠ 0 ∧ x < 1 / 2 ^ 1022 ∧ -x < 1 / 2 ^ 1022))
  addr w := BitVec.ofNat 64 (0x1000 + 0x20 * w.atoms.length)
  ord := id
  cfg := Config.ofRnd (Rnd.exact ℚ)

/-- Nothing named yet. -/
def env0 : Env := ⟨World.init, fun _ => [], ⟨0, 0⟩⟩

/-- The parser object after construction. -/
def new : Session := ⟨freshBuf, .uninit, env0⟩

/-- The syntax tree of an accepted text. -/
def treeOf (text : List Char) : List Ast :=
  match parseText true 1000 freshBuf (bytes text) 0 with
  | .ok r => r.ast.getD []
  | _ => []

/-! ### C44 -/

/-- C44: every name in the syntax tree of an accepted line is registered; whatever the state, no
action reads an argument that is missing or of another type (the outcome does not depend on what
would happen then); and if the actions return, they have made one task. -/
theorem C44_types {b : Buf} (hb : Reached b) {d : Nat} (hd : d < 3) {strict : Bool} {fuel : Nat}
    {text : List WChar} {r : Parsed} (h : parseText strict fuel b text d = .ok r) {a : List Ast}
    (ha : r.ast = some a) (M : Mach) :
    (∀ e ∈ emitsAll a, e ∈ registered) ∧
    (∀ (bad bad' : Act Val) (env : Env), evalAll M bad a env = evalAll M bad' a env) ∧
    (∀ (bad : Act Val) (env env' : Env) (vs : List Val), evalAll M bad a env = (.ok vs, env') →
      ∃ t, vs = [.task t]) := by
  obtain ⟨x, rfl, hx, ht⟩ := narsese_typed (C43_tree hb hd h ha)
  refine ⟨?_, ?_, ?_⟩
  · intro e he
    simp only [emitsAll, List.append_nil] at he
    exact typed_registered hx e he
  · intro bad bad' env
    exact congrFun (evalAll_typed (bad := bad) (bad' := bad') fun y hy => by
      rw [List.mem_singleton] at hy
      exact hy ▸ evalNode_typed M bad bad' hx).1 env
  · intro bad env env' vs hv
    have := (evalAll_typed (M := M) (bad := bad) (bad' := bad) (as := [x]) fun y hy => by
      rw [List.mem_singleton] at hy
      exact hy ▸ evalNode_typed M bad bad hx).2 env vs env' hv
    simp only [List.map_cons, List.map_nil, ht, Have.cons_iff, Have.nil_iff, ty_task] at this
    obtain ⟨v, us, rfl, ⟨t, rfl⟩, rfl⟩ := this
    exact ⟨t, rfl⟩

/-- The actions of the sample return a task. -/
example : (match evalAll mach undefined (treeOf ['<', '{', 'A', '}', '-', '-', '>', '$', 'x', '>', '.',
    ':', '|', ':', '%', '1', '%']) env0 with
    | (.ok [.task _], _) => true
    | _ => false) = true := by decide +kernel

/-- A wrong tree (a copula where a term belongs) is noticed. -/
example : ∃ bad bad' : Act Val, evalAll mach bad [.node .judgement [.node .inheritance []]] env0 ≠
    evalAll mach bad' [.node .judgement [.node .inheritance []]] env0 :=
  ⟨undefined, Act.lift (.throw "x"), by intro h; exact absurd (congrArg Prod.fst h) (by nofun)⟩

/-! ### C49 -/

/-- `A&.`, rejected without undefined behaviour. -/
def badText : List WChar := bytes ['A', '&', '.']

/-- `A.` -/
def goodText : List WChar := bytes ['A', '.']

/-- `+1000…0.`, an interval of 10^350, for which `std::stod` throws. -/
def throwText : List WChar := bytes (['+', '1'] ++ List.replicate 350 '0' ++ ['.'])

/-- C49 is false, 1: the first line is rejected, and the member `ast`, never initialised, is read.
After an accepted line, the same line gives the null pointer. -/
theorem C49_uninitialised_counterexample :
    rejected? (parseText true 1000 freshBuf badText 0) = true ∧
    (match (parseTask mach undefined true 1000 0 new badText).1 with
      | .ub => true
      | _ => false) = true ∧
    (match (parseTask mach undefined true 1000 0
        (parseTask mach undefined true 1000 0 new goodText).2 badText).1 with
      | .ok none => true
      | _ => false) = true := by
  decide +kernel

/-- C49 is false, 2: after a line whose semantic actions threw, the rejected line throws as well,
because the old syntax tree is evaluated again. -/
theorem C49_throw_counterexample :
    (match (parseTask mach undefined true 6000 0 new throwText).1 with
      | .throw _ => true
      | _ => false) = true ∧
    (match (parseTask mach undefined true 6000 0
        (parseTask mach undefined true 6000 0 new throwText).2 badText).1 with
      | .throw _ => true
      | _ => false) = true := by
  decide +kernel

/-- C49, for accepted lines: from any two states of the parser, with the same terms, dictionaries and
time, the outcome is the same and leaves the same state for the actions, the same variable names, and
the same member `ast`.  Missing: rejected lines after an exception or before the first accepted line,
for which the claim fails, and the case that one of the runs of the driver leaves its memory. -/
theorem C49_accepted_partial {M : Mach} {strict : Bool} {s s' : Session} (hs : Between M strict s)
    (hs' : Between M strict s') (hw : s.env.world = s'.env.world) (hg : s.env.globals = s'.env.globals)
    {text : List WChar} {d d' fuel fuel' : Nat} (hd : d < 3) (hd' : d' < 3) {r r' : Parsed}
    (h : parseText strict fuel s.buf text d = .ok r)
    (h' : parseText strict fuel' s'.buf text d' = .ok r') (ha : r.ast ≠ none) (bad : Act Val) :
    (parseTask M bad strict fuel d s text).1 = (parseTask M bad strict fuel' d' s' text).1 ∧
    (parseTask M bad strict fuel d s text).2.env = (parseTask M bad strict fuel' d' s' text).2.env ∧
    (parseTask M bad strict fuel d s text).2.ast = (parseTask M bad strict fuel' d' s' text).2.ast := by
  have e := parseText_indep hs.reached.empty hs'.reached.empty hd hd' h h'
  have en : s.env.clearNames = s'.env.clearNames := by
    unfold Env.clearNames
    rw [hw, hg]
  unfold parseTask
  rw [h, h']
  simp only
  rw [← e, en]
  cases hr : r.ast with
  | none => exact absurd hr ha
  | some a =>
    simp only [Member.after]
    split <;> exact ⟨rfl, rfl, rfl⟩

/-- A new parser, and one that has thrown, meet the hypotheses. -/
example : accepted? (parseText true 6000 new.buf goodText 0) = true ∧
    (match parseTask mach undefined true 6000 0 new throwText with
      | (.throw _, s) => accepted? (parseText true 6000 s.buf goodText 0)
      | _ => false) = true := by decide +kernel

/-- C49, for rejected lines, if the call before returned: the null pointer is returned, and nothing
has changed but that the variable names are forgotten. -/
theorem C49_rejected_partial {M : Mach} {bad : Act Val} {strict : Bool} {s0 s : Session}
    {text0 text : List WChar} {t0 : Option Task} {d0 d fuel0 fuel : Nat}
    (h0 : parseTask M bad strict fuel0 d0 s0 text0 = (.ok t0, s)) {r : Parsed}
    (h : parseText strict fuel s.buf text d = .ok r) (ha : r.ast = none) (env : Env) :
    parseTask M bad strict fuel d { s with env := env } text =
      (.ok none, ⟨r.scan.buf, .null, env.clearNames⟩) := by
  have hn := (parseTask_ok h0).1
  unfold parseTask
  simp only [h, ha, Member.after, hn]

example : (match parseTask mach undefined true 1000 0 new goodText with
    | (.ok _, s) => rejected? (parseText true 1000 s.buf badText 0)
    | _ => false) = true := by decide +kernel

/-- The variable numbers do not survive: whatever names were seen before, the call starts afresh. -/
theorem C49_names_partial {M : Mach} {bad : Act Val} {strict : Bool} {fuel d : Nat} {s : Session}
    {text : List WChar} (names : VarKind → List String) :
    parseTask M bad strict fuel d { s with env := { s.env with names := names } } text =
      parseTask M bad strict fuel d s text := rfl

end Cnars.Props
