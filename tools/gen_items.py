#!/usr/bin/env python3
"""Generate lean/Verif/Parser/ItemCerts.lean: LR(1) items for the tables of narsese.h, checked by the
kernel in ItemChecks.lean.  Nothing depends on how they are computed here."""
import sys, os
sys.path.insert(0, os.path.dirname(__file__))
from narsese_tables import *
NS = len(act); NT = lambda X: X >= 59
byl = {}
for p in range(len(prods)): byl.setdefault(prods[p][3], []).append(p)
null = set(); ch = True
while ch:
    ch = False
    for p in range(len(prods)):
        A = prods[p][3]
        if A not in null and all(x in null for x in RHS[p]): null.add(A); ch = True
first = [{X} if X < 59 else set() for X in range(len(symbols))]
ch = True
while ch:
    ch = False
    for p in range(len(prods)):
        A = prods[p][3]; n = len(first[A])
        for x in RHS[p]:
            first[A] |= first[x]
            if x not in null: break
        if len(first[A]) != n: ch = True
def firsts(l, la):
    s = set()
    for x in l:
        s |= first[x]
        if x not in null: return s
    return s | la
# the same as narseseKids in ItemChecks.lean
def kids(p, g):
    if g == 0: return [1] if p in (4, 13, 19, 28) else [0, 2] if p == 107 else []
    if g == 1: return None if p == 66 else []
    if g == 2: return [3] if p == 62 else []
    if g == 3: return None if p == 67 else []
def kid(p, g, d):
    k = kids(p, g) or []
    return k[d] if d < len(k) else 0
items = [{} for _ in range(NS)]
items[0][(269, 0, 0)] = {59}
work = [0]
def add(q, it, la):
    if it not in items[q]: items[q][it] = set(la); return True
    if not la <= items[q][it]: items[q][it] |= la; return True
    return False
while work:
    q = work.pop()
    st = list(items[q])
    while st:
        p, g, d = st.pop()
        if d < len(RHS[p]) and NT(RHS[p][d]):
            la = firsts(RHS[p][d + 1:], items[q][(p, g, d)])
            h = kid(p, g, d)
            for r in byl.get(RHS[p][d], []):
                if kids(r, h) is not None and add(q, (r, h, 0), la): st.append((r, h, 0))
    for (p, g, d), la in list(items[q].items()):
        if d < len(RHS[p]):
            X = RHS[p][d]
            for (Y, a, i) in (gt[q] if NT(X) else act[q]):
                if Y == X and a == 2 and add(i, (p, g, d + 1), la): work.append(i)
fol = [set() for _ in symbols]
fol[59] = {59}
ch = True
while ch:
    ch = False
    for p in range(len(prods)):
        A = prods[p][3]
        for i, x in enumerate(RHS[p]):
            f = firsts(RHS[p][i + 1:], fol[A])
            if not f <= fol[x]: fol[x] |= f; ch = True
mask = lambda s: sum(1 << x for x in s)
def wrap(xs, ind='   '):
    out = []; cur = ind
    for k, x in enumerate(xs):
        y = x + (',' if k + 1 < len(xs) else '')
        if len(cur) + len(y) + 1 > 100: out.append(cur.rstrip()); cur = ind
        cur += y + ' '
    out.append(cur.rstrip())
    return '\n'.join(out)
if __name__ == '__main__':
    o = open(os.path.join(os.path.dirname(__file__), '../lean/Verif/Parser/ItemCerts.lean'), 'w')
    o.write('''import Verif.Parser.Tables

/-!
# LR(1) items for the parser tables

Generated by `tools/gen_items.py`; checked by the kernel in `ItemChecks.lean`, so nothing depends on
how they were found.
-/

namespace Cnars.Parser

''')
    for q in range(NS):
        l = ['(%d, %d, %d, %d)' % (p, g, d, mask(la)) for (p, g, d), la in sorted(items[q].items())]
        o.write('def items%d : List (Nat × Nat × Nat × Nat) := [\n%s]\n\n' % (q, wrap(l)))
    o.write('/-- Production, tag, position of the dot, symbols that may follow, per state. -/\n')
    o.write('def itemTable : List (List (Nat × Nat × Nat × Nat)) := [\n%s]\n\n' % wrap(['items%d' % q for q in range(NS)]))
    o.write('/-- The symbols that derive the empty text. -/\n')
    o.write('def nullTable : List Bool := [\n%s]\n\n' % wrap(['true' if X in null else 'false' for X in range(len(symbols))]))
    o.write('/-- The tokens a symbol can begin with. -/\n')
    o.write('def firstTable : List Nat := [\n%s]\n\n' % wrap([str(mask(first[X])) for X in range(len(symbols))]))
    o.write('/-- The tokens that can come after a symbol. -/\n')
    o.write('def followTable : List Nat := [\n%s]\n\n' % wrap([str(mask(fol[X])) for X in range(len(symbols))]))
    o.write('/-- The productions of a symbol. -/\n')
    o.write('def byLhsTable : List (List Nat) := [\n%s]\n\n' % wrap([str(byl.get(X, [])) for X in range(len(symbols))]))
    o.write('end Cnars.Parser\n')
