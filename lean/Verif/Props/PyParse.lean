import Verif.Parser.Python
import Verif.Props.Actions
import Verif.Props.Complete

/-!
# C91: `parse` in Python
-/

namespace Cnars.Props
open Cnars Cnars.Parser Term

/-- C91: called after a call that returned, `parse` returns a task exactly for a line of Narsese whose
semantic actions make that task, and raises an exception only for a line that is not Narsese or whose
actions throw; there is no other outcome but undefined behaviour.  (ASCII; at most 121 characters, or
short tokens and few opening characters.)
Missing: the exception is not the one set, `C91_class_counterexample`; the first call and calls after
one that raised an exception, `C91_state_counterexample`; tabs, as in C74; undefined behaviour when lines
are rejected (C46) or actions get stuck (C84). -/
theorem C91_outcome_partial {M : Mach} {s : Session} (hs : Between M true s) (hn : s.ast = .null)
    {d : Nat} (hd : d < 3) {text : List WChar} (h9 : (9 : WChar) ∉ firstLine text)
    (hc : ∀ c ∈ text, c ≤ 127) (hl : Modest (firstLine text)) {fuel : Nat}
    (hf : 24 * (firstLine text).length + 6 ≤ fuel) :
    (∀ t, (pyParse M true fuel d s text).1 = .ok (.value t) ↔
      ∃ a env, (IsNarsese (firstLine text) a ∧ Ast.meantAll a = true) ∧
        evalTask M undefined a s.env.clearNames = (.ok t, env)) ∧
    (∀ c, (pyParse M true fuel d s text).1 = .ok (.raised c) →
      (∀ a, ¬ IsNarsese (firstLine text) a) ∨
      ∃ a e env, (IsNarsese (firstLine text) a ∧ Ast.meantAll a = true) ∧
        evalTask M undefined a s.env.clearNames = (.throw e, env)) := by
  have hb := hs.reached
  have h74 := C74_modest_partial hb hd h9 hc hl hf
  have hcase : (∃ r, parseText true fuel s.buf text d = .ok r) ∨ parseText true fuel s.buf text d = .ub := by
    rcases C46_modest_partial hb hd hc hl fuel with h | h
    · rw [h]
      obtain ⟨_, _, h | h⟩ := parseText_spec hb.empty text hd hf
      · obtain ⟨_, _, _, _, _, h⟩ := h; exact .inl ⟨_, h⟩
      · exact .inl ⟨_, h.2⟩
    · exact .inr h.1
  cases hp : parseText true fuel s.buf text d with
  | ok r =>
    obtain ⟨ast, errs, scan⟩ := r
    cases ast with
    | none =>
      have e : parseTask M undefined true fuel d s text = (.ok none, ⟨scan.buf, .null, s.env.clearNames⟩) := by
        unfold parseTask
        rw [hp]
        simp only [Member.after, hn]
      have hno : ∀ a, ¬ IsNarsese (firstLine text) a := by
        intro a ha
        have h1 := C74_accepts_partial hb hd h9 hf ha
        obtain ⟨r, h1, h2⟩ := h1
        exact h2 (parseText_indep hb.empty hb.empty hd hd h1 hp)
      constructor
      · intro t
        unfold pyParse
        rw [e]
        constructor
        · intro h; simp at h
        · rintro ⟨a, _, ⟨ha, _⟩, _⟩; exact absurd ha (hno a)
      · intro c _
        exact .inl hno
    | some a =>
      have hN := C43_tree hb hd hp rfl
      have hm : IsNarsese (firstLine text) a ∧ Ast.meantAll a = true := by
        obtain ⟨a', scan', h1⟩ := parseText_accepts hb.empty hd hf h9 hN
        have h2 := parseText_indep hb.empty hb.empty hd hd h1 hp
        simp only [Option.some.injEq] at h2
        subst h2
        exact (C74_exact_partial hb hd h9 hf a').1 ⟨scan', h1⟩
      have uniq : ∀ a', IsNarsese (firstLine text) a' ∧ Ast.meantAll a' = true → a' = a := by
        intro a' h'
        obtain ⟨sc, h'⟩ := (h74 a').2 h'
        rw [hp] at h'
        simp only [Res.ok.injEq, Parsed.mk.injEq, Option.some.injEq] at h'
        exact h'.1.symm
      have e : parseTask M undefined true fuel d s text =
          (match evalTask M undefined a s.env.clearNames with
            | (.ok t, env') => (.ok (some t), ⟨scan.buf, .null, env'⟩)
            | (.throw e, env') => (.throw e, ⟨scan.buf, .tree a, env'⟩)
            | (.ub, env') => (.ub, ⟨scan.buf, .tree a, env'⟩)
            | (.outOfFuel, env') => (.outOfFuel, ⟨scan.buf, .tree a, env'⟩)) := by
        unfold parseTask
        rw [hp]
        rfl
      unfold pyParse
      rw [e]
      obtain ⟨x, env', he⟩ : ∃ x env', evalTask M undefined a s.env.clearNames = (x, env') := ⟨_, _, rfl⟩
      rw [he]
      constructor
      · intro t
        constructor
        · intro h
          cases x <;> simp at h
          subst h
          exact ⟨a, env', hm, he⟩
        · rintro ⟨a', env'', ha', h'⟩
          obtain rfl := uniq a' ha'
          rw [he] at h'
          simp only [Prod.mk.injEq] at h'
          rw [h'.1]
      · intro c h
        cases x <;> simp at h
        exact .inr ⟨a, _, env', hm, he⟩
  | throw m => rw [hp] at hcase; simp at hcase
  | ub =>
    constructor
    · intro t
      unfold pyParse parseTask
      rw [hp]
      constructor
      · intro h; simp at h
      · rintro ⟨a, _, ha, _⟩
        obtain ⟨_, h⟩ := (h74 a).2 ha
        rw [hp] at h
        cases h
    · intro c h
      unfold pyParse parseTask at h
      rw [hp] at h
      simp at h
  | outOfFuel => rw [hp] at hcase; simp at hcase

/-- After `A.`, the lines `A.` and `A&.` meet the hypotheses; the one gives a task, the other an
exception. -/
example : let s := (parseTask mach undefined true 1000 0 new goodText).2
    (match s.ast with | .null => true | _ => false) = true ∧
    (9 : WChar) ∉ firstLine goodText ∧ (∀ c ∈ goodText, c ≤ 127) ∧ (firstLine goodText).length ≤ 121 ∧
    (9 : WChar) ∉ firstLine badText ∧ (∀ c ∈ badText, c ≤ 127) ∧ (firstLine badText).length ≤ 121 ∧
    (match (pyParse mach true 1000 0 s goodText).1 with | .ok (.value _) => true | _ => false) = true ∧
    (match (pyParse mach true 1000 0 s badText).1 with | .ok (.raised _) => true | _ => false) = true := by
  decide +kernel

/-- Lines of 133 and 142 characters meet them as well. -/
example : let s := (parseTask mach undefined true 1000 0 new goodText).2
    (9 : WChar) ∉ firstLine (parenText 14 14) ∧ (∀ c ∈ parenText 14 14, c ≤ 127) ∧
    (9 : WChar) ∉ firstLine (parenText 14 2 ++ badText) ∧ (∀ c ∈ (parenText 14 2 ++ badText), c ≤ 127) ∧
    (match (pyParse mach true 4000 0 s (parenText 14 14)).1 with | .ok (.value _) => true | _ => false) =
      true ∧
    (match (pyParse mach true 4000 0 s (parenText 14 2 ++ badText)).1 with | .ok (.raised _) => true | _ => false) =
      true := by
  decide +kernel

example : Modest (firstLine (parenText 14 14)) ∧ Modest (firstLine (parenText 14 2 ++ badText)) :=
  ⟨.inr ⟨shortTokens_of_runsOk (by decide +kernel) (by decide +kernel), by decide +kernel⟩,
    .inr ⟨shortTokens_of_runsOk (by decide +kernel) (by decide +kernel), by decide +kernel⟩⟩

/-- `Between` holds after `A.` -/
example : Between mach true (parseTask mach undefined true 1000 0 new goodText).2 := by
  have h : (match (parseTask mach undefined true 1000 0 new goodText).1 with
      | .ok _ => true | _ => false) = true := by decide +kernel
  generalize hx : parseTask mach undefined true 1000 0 new goodText = x at h
  obtain ⟨r, s'⟩ := x
  cases r with
  | ok t => exact .returned (d := 0) (s := new) (.fresh _) (by norm_num) hx
  | _ => simp at h

/-- C91 is false: the exception is never the `RuntimeError` that is set; `A&.` after `A.` shows that
there is one. -/
theorem C91_class_counterexample :
    (∀ (M : Mach) (fuel d : Nat) (s : Session) (text : List WChar) (c : String),
      (pyParse M true fuel d s text).1 = .ok (.raised c) → c ≠ "RuntimeError") ∧
    (match (pyParse mach true 1000 0 (parseTask mach undefined true 1000 0 new goodText).2 badText).1 with
      | .ok (.raised _) => true | _ => false) = true := by
  refine ⟨?_, by decide +kernel⟩
  intro M fuel d s text c h
  unfold pyParse at h
  split at h <;> simp at h <;> (subst h; decide)

/-- C91 is false: for a rejected line, the first call is undefined. -/
theorem C91_state_counterexample :
    (match (pyParse mach true 1000 0 new badText).1 with | .ub => true | _ => false) = true := by
  decide +kernel

end Cnars.Props
