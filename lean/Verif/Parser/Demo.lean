import Verif.Interp.Repr
import Verif.Props.Tasks

/-!
# The program in main.cpp
-/

namespace Cnars.Parser
open Cnars Cnars.Props

/-- The loop of `main` (main.cpp:31-38), over any lines: a line is read, the task is printed through a
reference to it, which for a rejected line is a null pointer dereferenced, and the task is dropped at the end
of the block (Task.h:19-38, Sentence.h:112-146, Term.inl:44-52).  The result are the texts that are printed.
Simplified: `error_delay` is the same in all calls; the handles in a term are dropped in the order of the
term, as in `Prog.Step`. -/
def demo (M : Mach) (fix : Nat → ℚ → Str) (bg : Fin 3 → ℚ → Str) (strict : Bool) (fuel d : Nat) :
    List (List WChar) → Session → Res (List Str × Session)
  | [], s => .ok ([], s)
  | text :: more, s =>
    match parseTask M undefined strict fuel d s text with
    | (.ok (some t), s1) => do
      let line ← Print.task M.R fix bg s1.env.globals.time s1.env.world.store.dict false
        (shownBudget t.budget) t.sentence
      let w ← (addrs t.sentence.term).foldlM (fun w a => dropAddr a w) s1.env.world
      let (lines, s2) ← demo M fix bg strict fuel d more { s1 with env := { s1.env with world := w } }
      return (line :: lines, s2)
    | (.ok none, _) => .ub
    | (.throw e, _) => .throw e
    | (.ub, _) => .ub
    | (.outOfFuel, _) => .outOfFuel

/-- The lines in `main` (main.cpp:23-28). -/
def mainLines : List (List Char) :=
  [['<', 'r', 'o', 'b', 'i', 'n', '-', '-', '>', 'b', 'i', 'r', 'd', '>', '.'],
   ['(', '&', '&', ',', ' ', 'A', ',', ' ', 'B', ')', '.'],
   ['(', '&', '&', ',', ' ', 'A', '1', ',', ' ', 'B', '1', ')', '.'],
   ['(', '&', '&', ',', ' ', 'A', '2', ',', ' ', 'B', '2', ')', '.']]

/-- `main` (main.cpp:16-41): the lines it prints.  `a` is the address of the term without a name, which is
shown as such (Term.cpp:66-69); it is no entry of the dictionaries, and that it takes an address is not
modelled. -/
def mainOut (M : Mach) (fix : Nat → ℚ → Str) (bg : Fin 3 → ℚ → Str) (strict : Bool) (fuel d : Nat)
    (a : Word) (s : Session) : Res (List Str) := do
  let first ← Repr.term none none a (Term.mkAtom a)
  let (lines, _) ← demo M fix bg strict fuel d (mainLines.map bytes) s
  return first :: ['g', 'o', ':'] :: lines

end Cnars.Parser
