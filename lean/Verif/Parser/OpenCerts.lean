import Verif.Parser.Tables

/-!
# Certificates for the stack of lines with few opening characters

Generated by `tools/gen_opens.py`; checked by the kernel in `Opens.lean`, so nothing depends on how they
were found.
-/

namespace Cnars.Parser

/-- Per symbol: a lower bound for the burden of its texts. -/
def needTable : List Nat := [
   0, 0, 0, 0, 0, 0, 0, 0, 0, 0, 0, 0, 0, 0, 2, 8, 8, 0, 0, 0, 0, 0, 0, 0, 0, 0, 0, 0, 0, 0, 0, 0,
   0, 0, 0, 0, 0, 0, 0, 0, 0, 0, 0, 0, 0, 0, 0, 0, 0, 16, 0, 6, 0, 0, 0, 0, 0, 0, 0, 0, 0, 0, 0,
   0, 0, 0, 0, 0, 0, 8, 0, 8, 0, 0, 0, 0, 0, 0, 0, 0, 0, 0, 0, 0, 2, 0, 0, 0, 0, 0, 0, 0, 0, 0, 0,
   0, 0, 0, 6, 0, 0, 0, 0, 0, 0, 0, 16, 0, 0, 0, 0, 0, 0, 0, 0, 0, 0, 0, 0, 0, 0, 0, 0, 0, 0, 0,
   0, 0, 0, 0, 0, 0, 0, 0, 0, 0, 0, 0, 0, 0, 0, 0, 0, 0, 0, 0, 0, 0, 0, 0, 0, 0, 0, 0, 0, 0, 0, 0,
   0, 0, 0, 0, 0, 0, 0, 0, 0, 0, 0, 0, 0, 0, 0, 0, 0, 0, 2, 0, 0, 0, 8, 0, 0, 0, 8, 0, 0, 0, 0, 0,
   0, 0, 0, 0, 0, 0, 0, 0, 0, 0, 0, 0, 0, 0, 0, 0, 0, 0, 0, 0, 0, 0, 0, 0, 0, 0, 0, 0, 0, 0, 0, 0,
   0, 0, 0, 0, 0, 0, 0, 0, 0, 0, 0, 0]

/-- Per state: twice the number of stack entries below it, less the burdens they have. -/
def slackTable : List Nat := [
   0, 24, 2, 4, 4, 16, 4, 6, 6, 6, 6, 6, 6, 10, 2, 16, 16, 16, 8, 8, 14, 8, 8, 14, 18, 18, 0, 16,
   10, 16, 6, 6, 8, 8, 16, 8, 8, 8, 8, 8, 2, 10, 16, 16, 16, 16, 10, 2, 2, 0, 2, 2, 2, 2, 2, 2, 2,
   14, 14, 14, 14, 14, 14, 14, 4, 4, 2, 2, 12, 18, 20, 8, 8, 10, 10, 10, 10, 10, 10, 10, 4, 14,
   12, 12, 14, 12, 12, 14, 4, 14, 14, 14, 14, 14, 14, 14, 14, 14, 14, 14, 14, 4, 12, 12, 12, 12,
   12, 12, 12, 6, 14, 14, 14, 14, 14, 14, 14, 4, 4, 6, 2, 4, 4, 12, 4, 4, 4, 4, 14, 10, 10, 18,
   12, 12, 6, 6, 8, 14, 14, 6, 4, 6, 6, 6, 6, 6, 6, 6, 6, 16, 12, 14, 14, 14, 8, 8, 10, 8, 8, 10,
   8, 10, 8, 8, 10, 8, 18, 14, 16, 16, 10, 10, 18, 18, 20, 22]

end Cnars.Parser
