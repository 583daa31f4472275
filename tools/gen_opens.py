"""Write Verif/Parser/OpenCerts.lean: how many opening characters the symbols on the parse stack need.
The kernel checks the tables in `Opens.lean`."""
import sys, os
sys.path.insert(0, os.path.dirname(os.path.abspath(__file__)))
from narsese_tables import *

# twice the number of entries an opening character can leave on the stack; 1 for each `-` of `--`
NEED = {98: 6, 106: 16, 180: 8, 184: 8, 176: 2}
rules = {}
for p, (d, e, n, l) in enumerate(prods):
    rules.setdefault(l, []).append(RHS[p])
need = [0] * len(symbols)
for X, v in NEED.items():
    need[X] = v
    for r in rules[X]:
        while r[0] >= 59:           # down to the keyword
            need[r[0]] = v
            r = rules[r[0]][0]
        need[r[0]] = v

edges = [(s, X, i) for s in range(len(act)) for (X, k, i) in act[s] + gt[s] if k == 2]
phi = [0] * len(act)
while True:
    old = list(phi)
    for s, X, i in edges:
        phi[i] = max(phi[i], phi[s] + 2 - need[X])
    assert max(phi) <= 24
    if phi == old:
        break

def wrap(items, ind='   ', width=98):
    lines, cur = [], ind
    for k, it in enumerate(items):
        s = it + (', ' if k + 1 < len(items) else '')
        if len(cur) + len(s.rstrip()) > width:
            lines.append(cur.rstrip())
            cur = ind
        cur += s
    lines.append(cur)
    return '\n'.join(lines)

open('/verif/lean/Verif/Parser/OpenCerts.lean', 'w').write(f'''import Verif.Parser.Tables

/-!
# Certificates for the stack of lines with few opening characters

Generated by `tools/gen_opens.py`; checked by the kernel in `Opens.lean`, so nothing depends on how they
were found.
-/

namespace Cnars.Parser

/-- Per symbol: a lower bound for the burden of its texts. -/
def needTable : List Nat := [
{wrap([str(x) for x in need])}]

/-- Per state: twice the number of stack entries below it, less the burdens they have. -/
def slackTable : List Nat := [
{wrap([str(x) for x in phi])}]

end Cnars.Parser
''')
