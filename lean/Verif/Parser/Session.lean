import Verif.Parser.ActionTypes
import Verif.Parser.Main

/-!
# A parser object and its use

`NarseseParser::parse_task` (NarseseParser.h:16-23) with `Parser::parse_string` (Parser.cpp:28-47):
syntax, semantic actions, and what remains in the object from one call to the next.
-/

namespace Cnars.Parser
open Cnars

/-- The member `ast` (narsese.h:1392).  No constructor initialises it. -/
inductive Member where
  | uninit
  | null
  | tree (a : List Ast)

/-- What a call of `parse_task` finds: the input buffer and the member `ast` of the parser, and the
state the semantic actions work on. -/
structure Session where
  buf : Buf
  ast : Member
  env : Env

/-- After `parse()` (narsese.cpp:779): the member is assigned only if the line was accepted. -/
def Member.after (m : Member) : Option (List Ast) → Member
  | some a => .tree a
  | none => m

/-- `parse_task` (NarseseParser.h:16-23, Parser.cpp:28-47): the task, `none` for the null pointer.
`d` is the value of `error_delay`, `bad` as in `dispatch`. -/
def parseTask (M : Mach) (bad : Act Val) (strict : Bool) (fuel d : Nat) (s : Session)
    (text : List WChar) : Res (Option Task) × Session :=
  let env := s.env.clearNames
  match parseText strict fuel s.buf text d with
  | .ok r =>
    let m := s.ast.after r.ast
    match m with
    | .uninit => (.ub, ⟨r.scan.buf, m, env⟩)
    | .null => (.ok none, ⟨r.scan.buf, m, env⟩)
    | .tree a =>
      match evalTask M bad a env with
      | (.ok t, env') => (.ok (some t), ⟨r.scan.buf, .null, env'⟩)
      | (.throw e, env') => (.throw e, ⟨r.scan.buf, m, env'⟩)
      | (.ub, env') => (.ub, ⟨r.scan.buf, m, env'⟩)
      | (.outOfFuel, env') => (.outOfFuel, ⟨r.scan.buf, m, env'⟩)
  | .throw e => (.throw e, ⟨s.buf, s.ast, env⟩)
  | .ub => (.ub, ⟨s.buf, s.ast, env⟩)
  | .outOfFuel => (.outOfFuel, ⟨s.buf, s.ast, env⟩)

/-- The states of a parser object before a call: new, or after a call that returned or threw; the
rest of the program may have changed terms, dictionaries and time. -/
inductive Between (M : Mach) (strict : Bool) : Session → Prop where
  | fresh (env : Env) : Between M strict ⟨freshBuf, .uninit, env⟩
  | returned {fuel d : Nat} {s s' : Session} {text : List WChar} {t : Option Task} :
      Between M strict s → d < 3 → parseTask M undefined strict fuel d s text = (.ok t, s') →
      Between M strict s'
  | threw {fuel d : Nat} {s s' : Session} {text : List WChar} {e : String} :
      Between M strict s → d < 3 → parseTask M undefined strict fuel d s text = (.throw e, s') →
      Between M strict s'
  | other {s : Session} (env : Env) : Between M strict s → Between M strict { s with env := env }

theorem parseTask_ok {M : Mach} {bad : Act Val} {strict : Bool} {fuel d : Nat} {s s' : Session}
    {text : List WChar} {t : Option Task}
    (h : parseTask M bad strict fuel d s text = (.ok t, s')) :
    s'.ast = .null ∧ ∃ r, parseText strict fuel s.buf text d = .ok r ∧ s'.buf = r.scan.buf := by
  unfold parseTask at h
  cases hp : parseText strict fuel s.buf text d with
  | ok r =>
    rw [hp] at h
    simp only at h
    split at h
    · simp at h
    · rename_i hm
      simp only [Prod.mk.injEq] at h
      rw [← h.2]
      exact ⟨hm, r, rfl, rfl⟩
    · split at h <;> simp only [Prod.mk.injEq, reduceCtorEq, false_and] at h
      rw [← h.2]
      exact ⟨rfl, r, rfl, rfl⟩
  | throw e => rw [hp] at h; simp at h
  | ub => rw [hp] at h; simp at h
  | outOfFuel => rw [hp] at h; simp at h

theorem parse_no_throw {strict : Bool} {fuel d : Nat} {b : Buf} {text : List WChar} {e : String}
    (hb : BufIs b []) (hd : d < 3) : parseText strict fuel b text d ≠ .throw e := by
  intro h
  obtain ⟨s', _, h6⟩ := parseText_spec hb text hd
    (fuel := fuel + (24 * (firstLine text).length + 6)) (by omega)
  have h7 : ∃ x, parseText false (fuel + (24 * (firstLine text).length + 6)) b text d = .ok x := by
    rcases h6 with ⟨_, _, _, _, _, h6⟩ | ⟨_, h6⟩ <;> exact ⟨_, h6⟩
  have hf : ∀ e, parseText false fuel b text d ≠ .throw e := by
    intro e he
    obtain ⟨x, hx⟩ := h7
    unfold parseText parse at hx he
    simp only [Res.bind_eq_ok] at hx
    obtain ⟨r, h1, y, h2, h3⟩ := hx
    rcases run_less h1 with h4 | h4
    · rw [h4] at he
      simp [h2] at he
    · rw [h4] at he
      simp at he
  cases strict with
  | false => exact hf e h
  | true =>
    unfold parseText at h
    rcases strict_cases (T := narsese) fuel ⟨b, fill text, false⟩ d with h' | h'
    · rw [h'] at h; simp at h
    · rw [h] at h'
      cases h2 : parse narsese false fuel ⟨b, fill text, false⟩ d with
      | ok r' => rw [h2] at h'; simp [Res.Rel] at h'
      | throw m => exact hf m h2
      | ub => rw [h2] at h'; simp [Res.Rel] at h'
      | outOfFuel => rw [h2] at h'; simp [Res.Rel] at h'

theorem parseTask_throw {M : Mach} {bad : Act Val} {strict : Bool} {fuel d : Nat} {s s' : Session}
    {text : List WChar} {e : String} (hb : BufIs s.buf []) (hd : d < 3)
    (h : parseTask M bad strict fuel d s text = (.throw e, s')) :
    ∃ r, parseText strict fuel s.buf text d = .ok r ∧ s'.buf = r.scan.buf := by
  unfold parseTask at h
  cases hp : parseText strict fuel s.buf text d with
  | ok r =>
    rw [hp] at h
    simp only at h
    split at h
    · simp at h
    · simp at h
    · split at h <;> simp only [Prod.mk.injEq, reduceCtorEq, false_and] at h
      rw [← h.2]
      exact ⟨r, rfl, rfl⟩
  | throw m => exact absurd hp (parse_no_throw hb hd)
  | ub => rw [hp] at h; simp at h
  | outOfFuel => rw [hp] at h; simp at h

/-- The buffer of a parser between calls. -/
theorem Between.reached {M : Mach} {strict : Bool} {s : Session} (h : Between M strict s) :
    Reached s.buf := by
  induction h with
  | fresh => exact .fresh
  | returned _ hd h ih =>
    obtain ⟨_, r, hr, e⟩ := parseTask_ok h
    rw [e]
    exact .next ih hd hr
  | threw _ hd h ih =>
    obtain ⟨r, hr, e⟩ := parseTask_throw ih.empty hd h
    rw [e]
    exact .next ih hd hr
  | other env _ ih => exact ih

end Cnars.Parser
