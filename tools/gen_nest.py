"""Write Verif/Parser/NestCerts.lean: exact bounds between the height of parse trees and the nesting of
their syntax trees.  The kernel checks them in `NestChecks.lean`."""
import sys, os
sys.path.insert(0, os.path.dirname(os.path.abspath(__file__)))
from narsese_tables import *

N = len(symbols)
T = set(range(N)) - {p[3] for p in prods}
te = [1 if s[1] else 0 for s in symbols]
em = [1 if p[1] else 0 for p in prods]

def deepest(n):
    """rows[h][X]: one more than the deepest nesting of trees of X with height at most h; 0 if there are none."""
    rows = [[0] * N]
    for h in range(1, n):
        r = [te[X] + 1 if X in T else rows[-1][X] for X in range(N)]
        again = True
        while again:
            again = False
            for p, (_, _, _, l) in enumerate(prods):
                vs = [(r if i == 0 else rows[h - i])[X] if h > i else 0 for i, X in enumerate(RHS[p])]
                v = em[p] + max(vs + [1])
                if 0 not in vs and v > r[l]:
                    r[l] = v
                    again = True
        rows.append(r)
    return rows

def highest(n):
    """rows[d][X]: one more than the greatest height of trees of X nested at most d deep; 0 if there are none."""
    rows = []
    for d in range(n):
        r = [2 if X in T and te[X] <= d else 0 for X in range(N)]
        again = True
        while again:
            again = False
            for p, (_, _, _, l) in enumerate(prods):
                if d < em[p]:
                    continue
                vs = [(rows[d - 1] if em[p] else r)[X] for X in RHS[p]]
                v = max([i + x for i, x in enumerate(vs)] + [2])
                if 0 not in vs and v > r[l]:
                    r[l] = v
                    again = True
        rows.append(r)
    return rows

def pack(r):
    """One number: ten bits per symbol."""
    assert max(r) < 1024
    return '0x%x' % sum(x << 10 * X for X, x in enumerate(r))

def table(rows):
    return ',\n'.join('  ' + pack(r) for r in rows)

def period(rows, per, n):
    inc = [rows[n][X] - rows[n - per][X] for X in range(N)]
    for d in range(n, len(rows)):
        assert all(rows[d][X] - rows[d - per][X] == inc[X] for X in range(N))
    return inc

F, G = deepest(140), highest(60)
incF, incG = period(F, 1, 9), period(G, 2, 8)

open('/verif/lean/Verif/Parser/NestCerts.lean', 'w').write(f'''/-!
# Certificates for the nesting of syntax trees

Generated by `tools/gen_nest.py`; checked by the kernel in `NestChecks.lean`, so nothing depends on how
they were found.
-/

namespace Cnars.Parser

/-- Per height and symbol (ten bits each): one more than the deepest nesting, 0 if there are no such trees. -/
def deepestRows : List Nat := [
{table(F[:9])}]

/-- Per symbol: how much deeper per entry from then on. -/
def deepestInc : Nat :=
  {pack(incF)}

/-- Per nesting and symbol (ten bits each): one more than the greatest height, 0 if there are no such trees. -/
def highestRows : List Nat := [
{table(G[:8])}]

/-- Per symbol: how much higher per two levels from then on. -/
def highestInc : Nat :=
  {pack(incG)}

end Cnars.Parser
''')
