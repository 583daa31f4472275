import Verif.Parser.Progress
import Verif.Parser.Session

/-!
# Trees that threw, evaluated again

`parse_task` (NarseseParser.h:16-23) evaluates the member `ast` whenever it is not null; a line that is rejected leaves it as it
is (Parser.cpp:28-47).  So the tree of a line whose actions threw is evaluated again by every rejected line.
-/

namespace Cnars.Parser
open Cnars

/-- What was converted was no numeral that `std::stod` does not take. -/
theorem stod_read {M : Mach} {s : List Char} {x : ℚ} {e e' : Env}
    (h : Act.lift (Action.stod M s) e = (.ok x, e')) (m : String) : Action.stod M s ≠ .throw m := by
  rw [(Act.lift_ok h).1]
  exact nofun

theorem Unread.append {M : Mach} {ss ss' : List (List Char)} (h : Unread M (ss ++ ss')) : Unread M ss ∨ Unread M ss' := by
  obtain ⟨s, hs, m, h⟩ := h
  rcases List.mem_append.mp hs with hs | hs
  · exact .inl ⟨s, hs, m, h⟩
  · exact .inr ⟨s, hs, m, h⟩

mutual
/-- A term is evaluated only if all its numerals are taken. -/
theorem Syn.eval_read (M : Mach) : ∀ (t : Syn) {e e' : Env} {r : Term}, t.eval M e = (.ok r, e') → ¬ Unread M t.nums
  | .name s, _, _, _, _ => by rintro ⟨_, h, _⟩; simp [Syn.nums] at h
  | .op s, _, _, _, _ => by rintro ⟨_, h, _⟩; simp [Syn.nums] at h
  | .var k s, _, _, _, _ => by rintro ⟨_, h, _⟩; simp [Syn.nums] at h
  | .interval s, _, _, _, h => by
    rw [Syn.eval] at h
    obtain ⟨x, e1, h1, _⟩ := Act.bind_ok h
    rintro ⟨s', hs, m, h2⟩
    simp only [Syn.nums, List.mem_singleton] at hs
    subst hs
    exact stod_read h1 m h2
  | .stmt s c p, _, _, _, h => by
    rw [Syn.eval] at h
    obtain ⟨x, e1, h1, h⟩ := Act.bind_ok h
    obtain ⟨y, e2, h2, _⟩ := Act.bind_ok h
    intro hu
    rw [Syn.nums] at hu
    exact hu.append.elim (Syn.eval_read M s h1) (Syn.eval_read M p h2)
  | .comp c ts, _, _, _, h => by
    rw [Syn.eval] at h
    obtain ⟨x, e1, h1, _⟩ := Act.bind_ok h
    rw [Syn.nums]
    exact Syn.evalAll_read M ts h1
  | .call f ts, _, _, _, h => by
    rw [Syn.eval] at h
    obtain ⟨x, e1, h1, h⟩ := Act.bind_ok h
    obtain ⟨y, e2, h2, _⟩ := Act.bind_ok h
    intro hu
    rw [Syn.nums] at hu
    exact hu.append.elim (Syn.eval_read M f h1) (Syn.evalAll_read M ts h2)
  | .callName s ts, _, _, _, h => by
    rw [Syn.eval] at h
    obtain ⟨x, e1, h1, _⟩ := Act.bind_ok h
    rw [Syn.nums]
    exact Syn.evalAll_read M ts h1
/-- The same for lists. -/
theorem Syn.evalAll_read (M : Mach) : ∀ (ts : List Syn) {e e' : Env} {rs : List Term},
    Syn.evalAll M ts e = (.ok rs, e') → ¬ Unread M (Syn.numsAll ts)
  | [], _, _, _, _ => by rintro ⟨_, h, _⟩; simp [Syn.numsAll] at h
  | t :: ts, _, _, _, h => by
    rw [Syn.evalAll] at h
    obtain ⟨x, e1, h1, h⟩ := Act.bind_ok h
    obtain ⟨y, e2, h2, _⟩ := Act.bind_ok h
    intro hu
    rw [Syn.numsAll] at hu
    exact hu.append.elim (Syn.eval_read M t h1) (Syn.evalAll_read M ts h2)
end

theorem read_of_map {M : Mach} {ss : List (List Char)} {xs : List ℚ} (h : ss.map (Action.stod M) = xs.map .ok) :
    ¬ Unread M ss := by
  rintro ⟨s, hs, m, h1⟩
  have : Action.stod M s ∈ xs.map Res.ok := h ▸ List.mem_map.mpr ⟨s, hs, rfl⟩
  obtain ⟨x, _, hx⟩ := List.mem_map.mp this
  rw [h1] at hx
  cases hx

theorem Mark.eval_read (M : Mach) {k : Mark} {e e' : Env} {v : Val} (h : k.eval M e = (.ok v, e')) : ¬ Unread M k.nums := by
  cases k with
  | tense n => rintro ⟨_, h, _⟩; simp [Mark.nums] at h
  | time s =>
    rw [Mark.eval] at h
    obtain ⟨x, e1, h1, _⟩ := Act.bind_ok h
    rintro ⟨s', hs, m, h2⟩
    simp only [Mark.nums, List.mem_singleton] at hs
    subst hs
    exact stod_read h1 m h2
  | truth ss =>
    rw [Mark.eval] at h
    obtain ⟨x, e1, h1, _⟩ := Act.bind_ok h
    exact read_of_map (numbers_env M h1).2

theorem evalMarks_read (M : Mach) : ∀ {ms : List Mark} {e e' : Env} {vs : List Val},
    evalMarks M ms e = (.ok vs, e') → ¬ Unread M (ms.flatMap Mark.nums)
  | [], _, _, _, _ => by rintro ⟨_, h, _⟩; simp at h
  | k :: ms, _, _, _, h => by
    rw [evalMarks] at h
    obtain ⟨x, e1, h1, h⟩ := Act.bind_ok h
    obtain ⟨y, e2, h2, _⟩ := Act.bind_ok h
    intro hu
    rw [List.flatMap_cons] at hu
    exact hu.append.elim (Mark.eval_read M h1) (evalMarks_read M h2)

/-- A task comes about only if all numerals of the line are taken. -/
theorem evalTask_read {line : List WChar} {as : List Ast} (hn : IsNarsese line as) {M : Mach} {bad : Act Val} {e e' : Env}
    {k : Task} (h : evalTask M bad as e = (.ok k, e')) {b : Option (List (List Char))} {p : Punct} {t : Syn} {ms : List Mark}
    (hp : partAll as = some [.task b p t ms]) : ¬ Unread M (taskNums b t ms) := by
  obtain ⟨b', p', t', ms', r, e1, vs, xs, h1, h2, h3, _, _, _, h4, _⟩ := evalTask_ok hn h
  rw [hp] at h1
  simp only [Option.some.injEq, List.cons.injEq, Part.task.injEq, and_true] at h1
  obtain ⟨rfl, rfl, rfl, rfl⟩ := h1
  intro hu
  rcases hu.append with hu | hu
  · cases b with
    | none => obtain ⟨_, h, _⟩ := hu; simp at h
    | some ss =>
      cases xs with
      | none => cases h4
      | some xs => exact read_of_map (Option.some.inj h4) hu
  · exact hu.append.elim (Syn.eval_read M t h2) (evalMarks_read M h3)

/-- A tree that throws is never evaluated to the end, in whatever state, and throws nothing but the exception of
`std::stod`. -/
theorem evalTask_retry {line : List WChar} {as : List Ast} (hn : IsNarsese line as) {M : Mach}
    (hord : ∀ l, (M.ord l).Perm l) {bad : Act Val} {e e' : Env} {m : String} (h : evalTask M bad as e = (.throw m, e'))
    (bad' : Act Val) (e1 : Env) : (∀ k e2, evalTask M bad' as e1 ≠ (.ok k, e2)) ∧
      ∀ m' e2, evalTask M bad' as e1 = (.throw m', e2) → m' = "stod" := by
  obtain ⟨b, p, t, ms, hp, _⟩ := evalTask_part hn
  have key : ∀ (bad : Act Val) (e : Env), Ends (Unread M (taskNums b t ms)) (fun _ => True) True (evalTask M bad as e) :=
    fun bad e => evalTask_ends hn hp
      ((Syn.eval_throws hord t e).imp (·.mono (by simp +contextual [taskNums])) (fun _ h => h) id) id (fun _ _ => trivial)
  have h1 := key bad e
  rw [h] at h1
  refine ⟨fun k e2 h2 => evalTask_read hn h2 hp h1.2, fun m' e2 h2 => ?_⟩
  have h3 := key bad' e1
  rw [h2] at h3
  exact h3.1

end Cnars.Parser
