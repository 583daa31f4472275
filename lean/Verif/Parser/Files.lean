import Verif.Parser.Demo

/-!
# The program that reads files of examples

`test_parse_nal` of Tests/test_parser.cpp.  A file is the list of its bytes, a byte is a character below 256.
-/

namespace Cnars.Parser
open Cnars Cnars.Props

/-- `std::isspace` in the locale of the program, which is "C" (boost/algorithm/string/trim.hpp, used in
Tests/test_parser.cpp:49 and 58). -/
def isSpace (c : Char) : Bool := c ∈ [' ', '\t', '\n', '\x0b', '\x0c', '\r']

/-- `boost::algorithm::trim` (Tests/test_parser.cpp:49, 58). -/
def trim (s : List Char) : List Char := ((s.dropWhile isSpace).reverse.dropWhile isSpace).reverse

/-- The lines that `std::getline` returns one after the other (Tests/test_parser.cpp:46): what is behind the last end of
line is a line if there is anything. -/
def getlines : List Char → List (List Char)
  | [] => []
  | c :: cs =>
    if c = '\n' then [] :: getlines cs
    else match getlines cs with
      | [] => [[c]]
      | l :: ls => (c :: l) :: ls

/-- `isdigits` (Tests/test_parser.cpp:25-28): `::isdigit` gets a `char`, which is negative from 128 on, where its
meaning is not defined, except for `EOF`, which is -1. -/
def isDigits : List Char → Res Bool
  | [] => .ok true
  | c :: cs =>
    if c.toNat = 255 then .ok false
    else if 128 ≤ c.toNat then .ub
    else if c.isDigit then isDigits cs
    else .ok false

/-- What is read of a line (Tests/test_parser.cpp:48-60): nothing if it is a number or a comment or empty. -/
def wanted (line : List Char) : Res (Option (List Char)) := do
  let input := trim line
  if ← isDigits input then return none
  else if input.head? = some '\'' then return none
  else
    let input := trim input
    if input.length > 0 then return some input else return none

/-- The loop of `test_parse_nal` over the lines of a file (Tests/test_parser.cpp:46-66): a task is printed through a
reference to it, which for a rejected line is a null pointer dereferenced, and is dropped at the end of the block.  The
result are the texts that are printed for the tasks.  Simplified as in `demo`. -/
def nal (M : Mach) (fix : Nat → ℚ → Str) (bg : Fin 3 → ℚ → Str) (colored strict : Bool) (fuel d : Nat) :
    List (List Char) → Session → Res (List Str × Session)
  | [], s => .ok ([], s)
  | line :: more, s => do
    match ← wanted line with
    | none => nal M fix bg colored strict fuel d more s
    | some input =>
      match parseTask M undefined strict fuel d s (bytes input) with
      | (.ok (some t), s1) => do
        let text ← Print.task M.R fix bg s1.env.globals.time s1.env.world.store.dict colored
          (shownBudget t.budget) t.sentence
        let w ← (addrs t.sentence.term).foldlM (fun w a => dropAddr a w) s1.env.world
        let (texts, s2) ← nal M fix bg colored strict fuel d more { s1 with env := { s1.env with world := w } }
        return (text :: texts, s2)
      | (.ok none, _) => .ub
      | (.throw e, _) => .throw e
      | (.ub, _) => .ub
      | (.outOfFuel, _) => .outOfFuel

/-- The loop of `test_parse_nal` over the files (Tests/test_parser.cpp:32-84); `none` is a file that cannot be opened.
Not modelled: the pattern that is looked up in the file system, and the lines "Parsing …" and "Unable to open …". -/
def nalFiles (M : Mach) (fix : Nat → ℚ → Str) (bg : Fin 3 → ℚ → Str) (colored strict : Bool) (fuel d : Nat) :
    List (Option (List Char)) → Session → Res (List Str × Session)
  | [], s => .ok ([], s)
  | none :: more, s => nalFiles M fix bg colored strict fuel d more s
  | some file :: more, s => do
    let (texts, s1) ← nal M fix bg colored strict fuel d (getlines file) s
    let (texts', s2) ← nalFiles M fix bg colored strict fuel d more s1
    return (texts ++ texts', s2)

end Cnars.Parser
