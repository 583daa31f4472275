#!/usr/bin/env python3
"""Generate lean/Verif/Parser/Certs.lean: certificates for the tables of narsese.h that the finite
checks of Checks.lean verify.  Nothing depends on how they are computed here."""
import sys, os
sys.path.insert(0, os.path.dirname(__file__))
from narsese_tables import *
NS = len(act); P = range(len(prods)); nsym = len(symbols)
NT = lambda X: X >= 59
byl = {}
for p in P: byl.setdefault(prods[p][3], []).append(p)
# LR(0) item sets
def closure(I):
    I = set(I); w = list(I)
    while w:
        p, d = w.pop()
        if d < len(RHS[p]):
            for q in byl.get(RHS[p][d], []):
                if (q, 0) not in I: I.add((q, 0)); w.append((q, 0))
    return I
items = [None] * NS
items[0] = closure({(269, 0)}); todo = [0]
while todo:
    r = todo.pop()
    for (X, a, i) in act[r] + gt[r]:
        k = {(p, d + 1) for (p, d) in items[r] if d < len(RHS[p]) and RHS[p][d] == X}
        if a == 2 and items[i] is None: items[i] = closure(k); todo.append(i)
kern = [sorted((p, d) for p, d in items[s] if d) for s in range(NS)]
# number of syntax tree nodes
wd = [(1 if symbols[X][1] else 0) if not NT(X) else 0 for X in range(nsym)]
ch = True
while ch:
    ch = False
    for p in P:
        v = 1 if prods[p][1] else min(2, sum(wd[x] for x in RHS[p]))
        if v > wd[prods[p][3]]: wd[prods[p][3]] = v; ch = True
# size of trees with empty yield
e = [None] * nsym; e[0] = 1
ch = True
while ch:
    ch = False
    for p in P:
        if all(e[x] is not None for x in RHS[p]):
            v = 1 + sum(e[x] for x in RHS[p]); A = prods[p][3]
            if e[A] is None or v > e[A]: e[A] = v; ch = True; assert v < 100
# credits
def mins(R):
    em, ne = 0, None
    for X in R:
        c = []
        if ne is not None and e[X] is not None: c.append(ne - e[X])
        if ne is not None and r[X] is not None: c.append(ne + r[X])
        if em is not None and r[X] is not None: c.append(em + r[X])
        ne2 = min(c) if c else None
        em = em - e[X] if em is not None and e[X] is not None else None
        ne = ne2
    return em, ne
for C in range(5, 200):
    r = [C - 1 if X < 59 else None for X in range(nsym)]
    ok = True
    for it in range(400):
        ch = False
        for p in P:
            em, ne = mins(RHS[p]); A = prods[p][3]
            if ne is not None:
                v = ne - 1
                if r[A] is None or v < r[A]: r[A] = v; ch = True
                if v < 0: ok = False
        if not ch or not ok: break
    if ok and not ch: break
rank = [0] * NS
for it in range(1000):
    ch = False
    for s in range(NS):
        for (X, a, i) in act[s] + gt[s]:
            if e[X] is not None and a in (2, 3):
                v = 1 + (rank[i] if a == 2 else 0)
                if v > rank[s]: rank[s] = v; ch = True
    if not ch: break
E = max(x for x in e if x is not None); R = max(rank)
# number of symbols without text on the way to a state
g = [0] * NS
ch = True
while ch:
    ch = False
    for s in range(NS):
        for (X, a, i) in act[s] + gt[s]:
            if a == 2 and g[s] + (e[X] is not None) > g[i]:
                g[i] = g[s] + (e[X] is not None); ch = True
    assert max(g) < 100
def wrap(items, ind='   ', width=98):
    out, line = [], ''
    for it in items:
        piece = it + ', '
        if len(ind) + len(line) + len(piece) > width:
            out.append(ind + line.rstrip()); line = ''
        line += piece
    out.append(ind + line.rstrip().rstrip(','))
    return '\n'.join(out)
nat = lambda l: wrap([str(x if x is not None else 0) for x in l])
opt = lambda l: wrap(['none' if x is None else 'some %d' % x for x in l])
open('/verif/lean/Verif/Parser/Certs.lean', 'w').write(f'''import Verif.Parser.Tables

/-!
# Certificates for the parser tables

Generated by `tools/gen_certs.py`; checked by the kernel in `Checks.lean`, so nothing depends on how
they were found.
-/

namespace Cnars.Parser

/-- LR(0) items (production, position of the dot) with the dot not at the beginning, per state. -/
def kernTable : List (List (Nat × Nat)) := [
{wrap(['[' + ', '.join('(%d, %d)' % x for x in k) + ']' for k in kern])}]

/-- A bound on the number of syntax tree nodes per symbol, 2 standing for no bound. -/
def widthTable : List Nat := [
{nat(wd)}]

/-- Bounds for the size of trees without text, per symbol. -/
def emptyTable : List (Option Nat) := [
{opt(e)}]

/-- Credits per symbol: a tree with text `w` has size at most `{C} * w.length` minus the credit. -/
def creditTable : List Nat := [
{nat(r)}]

/-- Number of symbols without text that can be pushed one after the other on a state. -/
def rankTable : List Nat := [
{nat(rank)}]

/-- Number of symbols without text that can be on the stack below a state. -/
def flatTable : List Nat := [
{nat(g)}]

end Cnars.Parser
''')
print('C', C, 'E', E, 'R', R)
