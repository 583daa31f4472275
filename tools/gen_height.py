"""Write Verif/Parser/HeightCerts.lean: bounds for the height of the parse stack and for the length of
tokens.  The kernel checks them in `HeightChecks.lean`."""
import sys, os
sys.path.insert(0, os.path.dirname(os.path.abspath(__file__)))
from narsese_tables import *

A = 3
cap = [1] * len(symbols)
while True:
    old = list(cap)
    for p, (d, e, n, l) in enumerate(prods):
        v = max([i + cap[X] for i, X in enumerate(RHS[p])] + [1]) - (A if e else 0)
        cap[l] = max(cap[l], v)
    if cap == old:
        break

PUN = set(map(ord, " !\"#$%&()*+,-/:;<=>?@[\\]^{|}~"))

def levels(m):
    edges = [[x for x in row if not x[0] == x[1] == 34] for row, _ in m]
    reach, todo = {0}, [0]
    while todo:
        for _, _, t in edges[todo.pop()]:
            if t not in reach:
                reach.add(t)
                todo.append(t)
    words = set(reach)
    while True:
        bad = {q for q in words for lo, hi, t in edges[q]
               if t not in words or any(lo <= c <= hi for c in PUN)}
        if not bad:
            break
        words -= bad
    def longest(q):
        return 0 if q in words else max(1 + longest(t) for _, _, t in edges[q])
    return [longest(q) if q in reach else 9 for q in range(len(m))]

def wrap(items, ind='   ', width=98):
    lines, cur = [], ind
    for k, it in enumerate(items):
        s = it + (', ' if k + 1 < len(items) else '')
        if len(cur) + len(s.rstrip()) > width:
            lines.append(cur.rstrip())
            cur = ind
        cur += s
    lines.append(cur)
    return '\n'.join(lines)

open('/verif/lean/Verif/Parser/HeightCerts.lean', 'w').write(f'''import Verif.Parser.Tables

/-!
# Certificates for the height of the stack and the length of tokens

Generated by `tools/gen_height.py`; checked by the kernel in `HeightChecks.lean`, so nothing depends on
how they were found.
-/

namespace Cnars.Parser

/-- Per symbol: the height of its trees, less three times the nesting of the syntax tree. -/
def capTable : List Nat := [
{wrap([str(x) for x in cap])}]

/-- Per machine and state: how many characters can be read, no quotation mark among them, until only
letters and the like can follow; 9 if the state cannot be reached without a quotation mark. -/
def levelTable : List (List Nat) := [
{wrap(['[' + ', '.join(map(str, levels(m))) + ']' for m in dfas])}]

end Cnars.Parser
''')
