#!/usr/bin/env python3
"""Generate lean/Verif/Parser/{TableTypes? no,Tables,TablesRaw,Items}.lean from
/repo/Narsese/Parser/narsese.h.  Run: python3 /verif/tools/gen_tables.py"""
import sys, os
sys.path.insert(0, os.path.dirname(__file__))
from narsese_tables import *

OUT = '/verif/lean/Verif/Parser/'
KW = {'instance', 'set', 'open', 'end', 'where', 'with', 'string'}
emits = sorted({p[1] for p in prods} | {s[1] for s in symbols} - {''})
emits = [e for e in emits if e]
def en(e):
    if e == '': return '.none'
    return '.«%s»' % e if e in KW else '.' + e
def wrap(items, ind='   ', width=98):
    out, line = [], ''
    for it in items:
        piece = it + ', '
        if len(ind) + len(line) + len(piece) > width:
            out.append(ind + line.rstrip()); line = ''
        line += piece
    out.append(ind + line.rstrip().rstrip(','))
    return '\n'.join(out)
def opt(x): return 'none' if x < 0 else 'some %d' % x
L = []
w = L.append
w('''import Verif.Parser.Types

/-!
# Tables of the generated parser

Generated by `tools/gen_tables.py` from `/repo/Narsese/Parser/narsese.h`; do not edit.

* `actionRows` is `actions[176][23*3+1]` (narsese.h:254-432), `goRows` is `go[176][..]`
  (narsese.h:435-613): the row `{n, s1, a1, i1, ..}` becomes the list of its triples.
* `defProdTable` is `def_prod[176]` (narsese.h:616-620) and `dfaSelectTable` is `dfa_select[176]`
  (narsese.h:623-628); `-1` becomes `none`.
* `dfaTable` is what the loop of `_parser::lex` reads from `dfa_idx`, `dfa_chars`, `dfa_trans`,
  `dfa_accept` (narsese.h:631-792): for every machine and state the character ranges with their
  target, and the accepted symbol plus one (0 = none).  `TablesRaw.lean` holds the four arrays
  verbatim and proves that this table is what they contain.
* `symbolTable` is `symbols[234]` (narsese.h:795-1031) and `productionTable` is
  `productions[270]` (narsese.h:1034-1306), with names and definition texts as comments.
* `rhsTable` is not in the C++ tables except as text: it is the right-hand side of every production,
  as symbol numbers, read off the `definition` strings.
-/

namespace Cnars.Parser
''')
def triples(r): return '[' + ', '.join('(%d, %d, %d)' % t for t in r) + ']'
w('/-- `actions` (narsese.h:254-432): per state `(symbol, action, index)`. -/')
w('def actionRows : List (List (Nat × Nat × Nat)) :=\n  [' + ',\n   '.join(wrap(['(%d, %d, %d)' % t for t in r], '    ').strip().join('[]') for r in act) + ']\n')
w('/-- `go` (narsese.h:435-613): per state `(nonterminal, action, index)`. -/')
w('def goRows : List (List (Nat × Nat × Nat)) :=\n  [' + ',\n   '.join(wrap(['(%d, %d, %d)' % t for t in r], '    ').strip().join('[]') for r in gt) + ']\n')
w('/-- `def_prod` (narsese.h:616-620). -/')
w('def defProdTable : List (Option Nat) :=\n  [' + wrap([opt(x) for x in def_prod]).strip() + ']\n')
w('/-- `dfa_select` (narsese.h:623-628). -/')
w('def dfaSelectTable : List (Option Nat) :=\n  [' + wrap([opt(x) for x in dfa_select]).strip() + ']\n')
seen = {}
names = []
for i, d in enumerate(dfas):
    w('/-- Lexer machine %d. -/' % i)
    w('def dfa%d : Machine :=\n  [' % i + ',\n   '.join('(%s, %d)' % (wrap(['(%d, %d, %d)' % t for t in tr], '    ').strip().join('[]'), a) for tr, a in d) + ']\n')
    names.append('dfa%d' % i)
w('/-- All lexer machines (narsese.h:631-792). -/')
w('def dfaTable : List Machine :=\n  [' + wrap(names).strip() + ']\n')
w('/-- `symbols` (narsese.h:795-1031). -/')
w('def symbolTable : List SymInfo :=\n  [' + '\n   '.join('⟨%s, %d, %s⟩%s  -- %d  %s' % (en(s[1]), s[2], 'true' if s[5] else 'false', ',' if i < len(symbols) - 1 else '', i, s[0]) for i, s in enumerate(symbols)) + '\n  ]\n')
w('/-- `productions` (narsese.h:1034-1306). -/')
w('def productionTable : List ProdInfo :=\n  [' + '\n   '.join('⟨%s, %d, %d⟩%s  -- %d  %s' % (en(p[1]), p[2], p[3], ',' if i < len(prods) - 1 else '', i, p[0]) for i, p in enumerate(prods)) + '\n  ]\n')
w('/-- The right-hand sides, from the `definition` texts of `productions` (narsese.h:1034-1306). -/')
w('def rhsTable : List (List Nat) :=\n  [' + wrap(['[' + ', '.join(map(str, r)) + ']' for r in RHS]).strip() + ']\n')
w('end Cnars.Parser')
open(OUT + 'Tables.lean', 'w').write('\n'.join(L) + '\n')

L = []
w = L.append
w('''import Verif.Parser.Tables

/-!
# The lexer arrays, verbatim

Generated by `tools/gen_tables.py` from `/repo/Narsese/Parser/narsese.h`; do not edit.
The four arrays of the lexer as they stand in the header, and the proof that `dfaTable` is exactly
what `_parser::lex` finds in them.
-/

namespace Cnars.Parser.Raw
''')
def chunks(name, xs, n=200):
    doc = L.pop()
    parts = [xs[i:i + n] for i in range(0, len(xs), n)]
    for i, p in enumerate(parts):
        w('/-- Elements %d to %d of the array. -/' % (n * i, n * i + len(p) - 1))
        w('def %s%d : List Int :=\n  [' % (name, i) + wrap([str(x) for x in p]).strip() + ']\n')
    w(doc)
    w('def %s : List Int :=\n  ' % name + ' ++ '.join('%s%d' % (name, i) for i in range(len(parts))) + '\n')
w('/-- `dfa_idx` (narsese.h:631-703), flattened row by row. -/')
w('def dfaIdx : List (List Nat) :=\n  [' + ',\n   '.join(wrap([str(x) for x in r], '    ').strip().join('[]') for r in dfa_idx) + ']\n')
w('/-- `dfa_chars` (narsese.h:706-709). -/')
chunks('dfaChars', dfa_chars)
w('/-- `dfa_trans` (narsese.h:712-715). -/')
chunks('dfaTrans', dfa_trans)
w('/-- `dfa_accept` (narsese.h:718-792). -/')
w('def dfaAccept : List (List Nat) :=\n  [' + ',\n   '.join(wrap([str(x) for x in r], '    ').strip().join('[]') for r in dfa_accept) + ']\n')
w('''/-- Read the transitions of one state: ranges up to the `-1, -1` terminator, walking through
`dfa_chars` and `dfa_trans` in step (`chr += 2`, `chr / 2`); returns what is left of both. -/
def readState : List Int → List Int → Option (List (Int × Int × Int) × List Int × List Int)
  | lo :: hi :: cs, t :: ts =>
    if lo > -1 then
      match readState cs ts with
      | some (r, cs', ts') => some ((lo, hi, t) :: r, cs', ts')
      | none => none
    else some ([], cs, ts)
  | _, _ => none

/-- Compare the states of one machine with their segments of the arrays. -/
def checkStates : List (List (Nat × Nat × Nat) × Nat) → List Nat → List Nat → Nat → List Int →
    List Int → Option (Nat × List Int × List Int)
  | [], [], [], pos, cs, ts => some (pos, cs, ts)
  | (tr, acc) :: m, i :: is, a :: as, pos, cs, ts =>
    if i = pos ∧ a = acc then
      match readState cs ts with
      | some (r, cs', ts') =>
        if r = tr.map (fun x => ((x.1 : Int), (x.2.1 : Int), (x.2.2 : Int))) then
          checkStates m is as (pos + 2 * (tr.length + 1)) cs' ts'
        else none
      | none => none
    else none
  | _, _, _, _, _, _ => none

/-- Compare all machines. -/
def checkMachines : List Machine → List (List Nat) → List (List Nat) → Nat → List Int →
    List Int → Bool
  | [], [], [], _, [], [] => true
  | m :: ms, i :: is, a :: as, pos, cs, ts =>
    match checkStates m i a pos cs ts with
    | some (pos', cs', ts') => checkMachines ms is as pos' cs' ts'
    | none => false
  | _, _, _, _, _, _ => false

/-- The segments of `dfa_chars` and `dfa_trans` that `dfa_idx` points to are, one after the other,
the transitions of `dfaTable`, and nothing is left over. -/
theorem dfaTable_is_raw : checkMachines dfaTable dfaIdx dfaAccept 0 dfaChars dfaTrans = true := by
  decide +kernel
''')
w('end Cnars.Parser.Raw')
open(OUT + 'TablesRaw.lean', 'w').write('\n'.join(L) + '\n')
print(emits)
