import Verif.Props.Parsing
import Verif.Parser.NestChecks

/-!
# How deep a line may be nested (C46)

The two bounds are exact: up to 44 levels the stack always suffices, beyond 371 it never does, and between both happens.
-/

namespace Cnars.Props
open Cnars Cnars.Parser

/-- C46, for accepted lines of any length: the memory suffices if the syntax tree is nested at most 44 deep and the tokens are
short.  `C46_nested_counterexample`: 45 is too much. -/
theorem C46_nested_44_partial {b : Buf} (hb : Reached b) {d : Nat} (hd : d < 3) {text : List WChar}
    (hc : ∀ c ∈ text, c ≤ 127) (hs : ShortTokens (firstLine text)) {fuel : Nat} {r : Parsed} {a : List Ast}
    (h : parseText false fuel b text d = .ok r) (ha : r.ast = some a) (hn : Ast.depths a ≤ 44) :
    parseText true fuel b text d = .ok r := by
  obtain ⟨t, hv, hr, _, rfl, h1, _⟩ := C46_stack_exact hb hd hc hs h ha
  exact h1 (height_of_nested hv hr hn)

/-- C46 fails for every line that the grammar accepts with a syntax tree nested more than 371 deep, whatever the line is made of:
the stack is left.  The nestings from 45 to 371 are not decided by the nesting alone (`C46_nested_counterexample`); for those
see `C46_stack_exact`. -/
theorem C46_too_deep_partial {b : Buf} (hb : Reached b) {d : Nat} (hd : d < 3) {text : List WChar}
    (hc : ∀ c ∈ text, c ≤ 127) (hs : ShortTokens (firstLine text)) {fuel : Nat} {r : Parsed} {a : List Ast}
    (h : parseText false fuel b text d = .ok r) (ha : r.ast = some a) (hn : 371 < Ast.depths a) :
    parseText true fuel b text d = .ub := by
  obtain ⟨t, hv, hr, _, rfl, _, h1⟩ := C46_stack_exact hb hd hc hs h ha
  refine h1 (Nat.lt_of_not_le fun hh => ?_)
  have := nested_of_height hv hr hh
  omega

/-- C46: where the memory suffices for an accepted line, the syntax tree handed to the interpreter is nested at most 371 deep; so
the interpreter's recursion over it is bounded. -/
theorem C46_interpreter_depth {b : Buf} (hb : Reached b) {d : Nat} (hd : d < 3) {text : List WChar}
    (hc : ∀ c ∈ text, c ≤ 127) (hs : ShortTokens (firstLine text)) {fuel : Nat} {r : Parsed} {a : List Ast}
    (h : parseText true fuel b text d = .ok r) (ha : r.ast = some a) : Ast.depths a ≤ 371 := by
  refine Nat.le_of_not_lt fun hn => ?_
  have h5 := strict_cases (T := narsese) fuel ⟨b, fill text, false⟩ d
  have h6 : ∃ r', parseText false fuel b text d = .ok r' ∧ r'.ast = r.ast := by
    unfold parseText at h ⊢
    rw [h] at h5
    rcases h5 with h5 | h5
    · cases h5
    · cases h7 : parse narsese false fuel ⟨b, fill text, false⟩ d with
      | ok r' => rw [h7] at h5; exact ⟨r', rfl, h5.1.symm⟩
      | throw m => rw [h7] at h5; simp [Res.Rel] at h5
      | ub => rw [h7] at h5; simp [Res.Rel] at h5
      | outOfFuel => rw [h7] at h5; simp [Res.Rel] at h5
  obtain ⟨r', h6, h7⟩ := h6
  have := C46_too_deep_partial hb hd hc hs h6 (h7.trans ha) hn
  rw [h] at this
  cases this

/-- `(&&,+1,+1,(&&,+1,+1,…))` around `+1` and two blanks. -/
def steepTerm : Nat → List Char
  | 0 => ['+', '1', ' ', ' ']
  | n + 1 => ['(', '&', '&', ',', '+', '1', ',', '+', '1', ','] ++ steepTerm n ++ [')']

/-- `<+1-->w(+1,+1,(&&,+1,+1,…))>.` with 19 conjunctions. -/
def steepText : List WChar :=
  bytes (['<', '+', '1', '-', '-', '>', 'w', '(', '+', '1', ',', '+', '1', ','] ++ steepTerm 19 ++ [')', '>', '.'])

/-- `((…(----A&B)&B…)&B).` with `n` pairs of parentheses. -/
def flatText (n : Nat) : List WChar :=
  bytes (List.replicate n '(' ++ ['-', '-', '-', '-', 'A'] ++ (List.replicate n ['&', 'B', ')']).flatten ++ ['.'])

/-- The bounds 44 and 371 cannot be improved: a line nested 45 deep leaves the stack, one nested 371 deep does not. -/
theorem C46_nested_counterexample :
    (nesting? (parseText false 6000 freshBuf steepText 0) = 45 ∧
      undefined? (parseText true 6000 freshBuf steepText 0) = true) ∧
    (accepted? (parseText true 12000 freshBuf (flatText 121) 0) = true ∧
      nesting? (parseText true 12000 freshBuf (flatText 121) 0) = 371) := by
  decide +kernel

example : ShortTokens (firstLine (flatText 122)) ∧ (∀ c ∈ flatText 122, c ≤ 127) ∧
    accepted? (parseText false 12000 freshBuf (flatText 122) 0) = true ∧
    371 < nesting? (parseText false 12000 freshBuf (flatText 122) 0) :=
  ⟨shortTokens_of_runsOk (by decide +kernel) (by decide +kernel), by decide +kernel, by decide +kernel, by decide +kernel⟩

/-- The hypotheses of `C46_interpreter_depth` hold for lines that the program accepts. -/
example : ShortTokens (firstLine (flatText 121)) ∧ (∀ c ∈ flatText 121, c ≤ 127) :=
  ⟨shortTokens_of_runsOk (by decide +kernel) (by decide +kernel), by decide +kernel⟩

/-- The hypotheses of `C46_nested_44_partial` hold for lines nested more than 41 deep. -/
example : nesting? (parseText false 6000 freshBuf
    (bytes (['<', '+', '1', '-', '-', '>', 'w', '(', '+', '1', ',', '+', '1', ','] ++ steepTerm 18 ++ [')', '>', '.'])) 0) = 43 := by
  decide +kernel

end Cnars.Props
