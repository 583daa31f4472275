import Verif.Parser.Tables

/-!
# Certificates for the height of the stack and the length of tokens

Generated by `tools/gen_height.py`; checked by the kernel in `HeightChecks.lean`, so nothing depends on
how they were found.
-/

namespace Cnars.Parser

/-- Per symbol: the height of its trees, less three times the nesting of the syntax tree. -/
def capTable : List Nat := [
   1, 1, 1, 1, 1, 1, 1, 1, 1, 1, 1, 1, 1, 1, 1, 1, 1, 1, 1, 1, 1, 1, 1, 1, 1, 1, 1, 1, 1, 1, 1, 1,
   1, 1, 1, 1, 1, 1, 1, 1, 1, 1, 1, 1, 1, 1, 1, 1, 1, 1, 1, 1, 1, 1, 1, 1, 1, 1, 1, 4, 3, 3, 3, 3,
   3, 3, 3, 3, 3, 3, 3, 3, 3, 3, 3, 3, 3, 3, 3, 3, 3, 3, 3, 3, 3, 3, 3, 3, 3, 3, 3, 3, 3, 3, 3, 3,
   3, 3, 3, 3, 3, 3, 3, 3, 3, 3, 3, 3, 3, 3, 3, 3, 3, 3, 3, 3, 3, 2, 2, 1, 3, 3, 6, 6, 4, 4, 6, 6,
   4, 4, 5, 4, 5, 4, 5, 4, 5, 4, 5, 4, 5, 4, 5, 4, 3, 3, 3, 3, 3, 3, 3, 3, 3, 3, 3, 1, 9, 5, 5, 4,
   1, 5, 4, 1, 5, 4, 3, 5, 5, 4, 1, 5, 5, 4, 1, 7, 1, 5, 5, 4, 1, 5, 5, 4, 1, 7, 7, 7, 4, 6, 6, 6,
   6, 4, 6, 1, 1, 5, 5, 4, 3, 5, 5, 4, 1, 7, 1, 3, 2, 2, 5, 5, 5, 5, 2, 2, 5, 2, 2, 5, 5, 5, 5, 2,
   2, 2, 5, 5, 3, 5, 5, 5, 5, 3]

/-- Per machine and state: how many characters can be read, no quotation mark among them, until only
letters and the like can follow; 9 if the state cannot be reached without a quotation mark. -/
def levelTable : List (List Nat) := [
   [2, 0, 0, 0, 0, 0, 0, 0, 0, 0, 9, 0, 9, 1, 9, 9, 9],
   [3, 0, 0, 0, 0, 0, 0, 0, 0, 0, 0, 1, 1, 0, 0, 0, 0, 0, 0, 2, 2, 0, 0, 0, 2, 0, 2, 0, 0, 0, 9, 0, 0, 0, 0, 0, 0, 1, 0, 0, 0, 0, 0, 0, 0, 0, 0, 0, 0, 0, 0, 0, 0, 0, 9, 0, 0, 2, 0, 0, 9, 0, 1, 0, 1, 0, 1, 1, 1, 1, 1, 1, 1, 1, 1, 1, 0, 9, 9, 0],
   [2, 0, 0, 0, 0, 0, 0, 0, 0, 0, 9, 1, 9, 9, 9, 9],
   [2, 0, 0, 0, 0, 0, 0, 0, 0, 9, 1, 9, 9, 9, 9],
   [2, 0, 0, 0, 0, 0, 0, 0, 0, 9, 0, 0, 9, 0, 0, 1, 0, 0, 9, 9, 9], [0, 0, 0, 0, 0, 0],
   [1, 0, 0, 0, 0], [0, 0], [1, 0], [1, 0], [1, 0],
   [2, 0, 0, 0, 0, 0, 0, 0, 0, 0, 0, 0, 9, 0, 9, 1, 9, 9, 9],
   [2, 0, 0, 0, 0, 0, 0, 0, 0, 0, 1, 0, 0, 0, 1, 1, 0, 0, 0, 9, 0, 0, 0, 0, 0, 9, 9, 9, 9],
   [3, 0, 0, 0, 0, 0, 0, 2, 0, 1, 0, 0, 0, 0, 1, 0, 0, 0, 0, 0, 0, 0, 0, 0, 0, 0, 0, 0, 0, 0, 0, 0, 2, 2, 2, 1, 1, 1, 1, 1, 1, 1, 1, 1, 1],
   [1, 0, 0, 9, 9, 9, 9, 9], [1, 0, 0, 0], [2, 0, 0, 0, 0, 0, 0, 0, 0, 0, 0, 0, 9, 1, 9, 9, 9, 9],
   [2, 0, 0, 0, 0, 0, 0, 0, 0, 0, 0, 0, 0, 9, 0, 9, 1, 9, 9, 9],
   [3, 0, 0, 0, 0, 0, 0, 0, 0, 2, 0, 1, 1, 0, 0, 0, 0, 0, 0, 0, 0, 0, 0, 0, 0, 0, 0, 0, 0, 0, 0, 0, 0, 2, 2, 2, 1, 1, 1, 1, 1, 1, 1, 1, 1, 1],
   [2, 0, 1, 0, 0, 0, 0, 0, 0, 0, 0, 1, 0, 0, 0, 1, 0, 0, 0, 0, 0, 0, 0, 9, 9, 9, 9, 9],
   [0, 0, 9, 9, 9, 9, 9], [1, 0, 0], [1, 0, 0, 0], [1, 0, 0], [3, 0, 0, 0, 0, 0, 0, 2, 1, 1, 1],
   [3, 0, 0, 0, 0, 0, 2, 1, 1, 1], [3, 0, 0, 0, 9, 0, 0, 0, 2, 9, 1, 1, 1, 9, 9, 9],
   [3, 0, 0, 0, 0, 2, 1, 1, 1], [3, 0, 0, 0, 0, 0, 2, 1, 1, 1], [1, 0, 0], [1, 0, 0],
   [3, 1, 2, 0, 0, 0, 1, 0, 0, 0, 0, 0, 0, 0, 0, 0, 0, 0, 0, 0, 0, 0, 0, 2, 2, 2, 1, 1, 1, 1, 1, 1, 1, 1, 1, 1],
   [3, 2, 0, 1, 0, 0, 0, 1, 0, 0, 0, 0, 0, 0, 0, 0, 0, 0, 0, 0, 0, 0, 0, 0, 2, 2, 2, 1, 1, 1, 1, 1, 1, 1, 1, 1, 1],
   [2, 0, 0, 0, 0, 0, 0, 0, 0, 0, 0, 0, 0, 9, 1, 9, 9, 9, 9], [1, 0], [1, 0, 0, 0], [1, 0, 0],
   [2, 0, 0, 0, 0, 0, 0, 0, 0, 0, 0, 0, 0, 9, 0, 9, 1, 9, 9, 9], [1, 0, 0],
   [3, 0, 0, 0, 0, 0, 0, 0, 0, 0, 0, 0, 0, 2, 2, 2, 1, 1, 1, 1, 1, 1, 1, 1, 1, 1, 2],
   [3, 0, 0, 0, 0, 0, 0, 0, 2, 0, 1, 1, 0, 0, 0, 0, 0, 0, 0, 0, 0, 0, 0, 0, 0, 0, 0, 0, 0, 0, 0, 0, 0, 2, 2, 2, 1, 1, 1, 1, 1, 1, 1, 1, 1, 1],
   [1, 0, 0, 0, 0, 0, 0, 0, 0, 0, 0], [1, 0], [0, 0, 0, 0, 0], [1, 0], [1, 0, 0], [1, 0, 0],
   [1, 0], [1, 0], [1, 0, 0, 0, 0, 0], [2, 0, 0, 0, 0, 0, 1], [2, 0, 0, 0, 0, 0, 1],
   [2, 0, 0, 0, 0, 0, 1], [2, 0, 0, 0, 0, 0, 1], [1, 0, 0, 0, 0, 0], [1, 0, 0, 0, 0, 0], [1, 0],
   [3, 0, 0, 0, 0, 0, 0, 0, 2, 0, 1, 1, 0, 0, 0, 0, 0, 0, 0, 0, 0, 0, 0, 0, 0, 0, 0, 0, 0, 0, 0, 0, 2, 2, 2, 1, 1, 1, 1, 1, 1, 1, 1, 1, 1],
   [1, 0, 0, 0, 0, 0, 0], [0, 0, 0, 0, 0, 0], [1, 0], [2, 1, 0, 0, 1, 0, 0, 0, 0],
   [2, 1, 0, 0, 1, 0, 0, 0, 0], [1, 0], [0, 0, 0, 0, 0, 0], [1, 0, 0, 0], [1, 0, 0], [1, 0, 0],
   [0, 0, 0, 0, 0], [0, 0, 0]]

end Cnars.Parser
