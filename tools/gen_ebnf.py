#!/usr/bin/env python3
"""Generate lean/Verif/Parser/EbnfCerts.lean: for every symbol of narsese.h the piece of narsese.par it
stands for, and for every state of the lexer the residual expressions of the tokens it can accept.
Nothing depends on how they are computed here: EbnfChecks.lean verifies them."""
import sys, os, re
sys.path.insert(0, os.path.dirname(__file__))
from narsese_tables import *
# ---- expressions: ('eps',) ('cls',((a,b),..)) ('seq',a,b) ('alt',a,b) ('star',a)
EPS=('eps',)
def cls(*r): return ('cls',tuple(r))
def ch(c): return cls((ord(c),ord(c)))
def rng(a,b): return cls((ord(a),ord(b)))
def seq(*l):
    return l[0] if len(l)==1 else ('seq',l[0],seq(*l[1:]))
def alt(*l):
    return l[0] if len(l)==1 else ('alt',l[0],alt(*l[1:]))
def star(a): return ('star',a)
def plus(a): return ('seq',a,star(a))
def opt(a): return ('alt',a,EPS)
def lit(s): return seq(*[ch(c) for c in s])
D=rng('0','9')
unit=alt(seq(opt(ch('0')),ch('.'),plus(D)),seq(ch('1'),ch('.'),star(ch('0'))),ch('1'),ch('0'))
openu=seq(opt(ch('0')),ch('.'),star(ch('0')),plus(rng('1','9')),star(D))
posnat=seq(plus(rng('1','9')),star(D))
integer=seq(opt(ch('-')),plus(D))
quoted=seq(ch('"'),star(seq(cls((0,33),(35,91),(93,65535)),opt(seq(ch('\\'),cls((34,34),(92,92)))))),ch('"'))
raw=plus(cls((0,31),(39,39),(48,57),(65,90),(95,122),(127,65535)))
blank=cls((9,9),(32,32))
named={'priority':('unit',unit),'quality':('unit',unit),'frequency':('unit',unit),
 'durability':('openUnit',openu),'confidence':('openUnit',openu),'k_evidence':('posNat',posnat),
 'string':('quoted',quoted),'string_raw':('raw',raw),'integer':('int',integer)}
def nullable(r):
    t=r[0]
    return t in('eps','star') or (t=='seq' and nullable(r[1]) and nullable(r[2])) or (t=='alt' and (nullable(r[1]) or nullable(r[2])))
def seq_(a,b): return b if a==EPS else ('seq',a,b)
def pd(r,lo,hi):
    t=r[0]
    if t=='eps': return []
    if t=='cls': return [EPS] if any(a<=lo and hi<=b for a,b in r[1]) else []
    if t=='seq': return [seq_(x,r[2]) for x in pd(r[1],lo,hi)]+(pd(r[2],lo,hi) if nullable(r[1]) else [])
    if t=='alt': return pd(r[1],lo,hi)+pd(r[2],lo,hi)
    return [seq_(x,r) for x in pd(r[1],lo,hi)]
def below(r):
    o=[r]
    if r[0]=='seq' and nullable(r[1]): o+=below(r[2])
    if r[0]=='alt': o+=below(r[1])+below(r[2])
    return o
def litname(s):
    return '['+', '.join("'"+{'\\':'\\\\',"'":"\\'"}.get(c,c)+"'" for c in s)+']'
def unesc(n): return n.replace('\\\\','\\')
toks=[]; tokname=[]
for s in range(59):
    n=unesc(symbols[s][0])
    if s==0: toks.append(EPS); tokname.append('.eps')
    elif s==58: toks.append(blank); tokname.append('.blank')
    elif n in named: toks.append(named[n][1]); tokname.append('.'+named[n][0])
    else: toks.append(lit(n)); tokname.append('(.lit '+litname(n)+')')
# ---- lexer certificates
certs=[]
for m in dfas:
    n=len(m)
    R=[None]*n
    s0=set()
    for s in range(1,59):
        for r in below(toks[s]): s0.add((s,r))
    def stepset(S,lo,hi):
        o=set()
        for s,r in S:
            for x in pd(r,lo,hi):
                for y in below(x): o.add((s,y))
        return o
    R[0]=s0; todo=[0]
    while todo:
        q=todo.pop()
        for lo,hi,t in m[q][0]:
            x=stepset(R[q],lo,hi)
            if R[t] is None: R[t]=x; todo.append(t)
            elif not R[t]<=x: R[t]=R[t]&x; todo.append(t)
    # keep what is needed: backwards from accepting states
    need=[set() for _ in range(n)]
    for q in range(n):
        a=m[q][1]
        if a>0:
            c=[(s,r) for s,r in R[q] if s==a-1 and nullable(r)]
            assert c,(q,a)
            c.sort(key=lambda z:len(str(z))); need[q].add(c[0])
    ch_=True
    while ch_:
        ch_=False
        for q in range(n):
            for lo,hi,t in m[q][0]:
                for (s,y) in list(need[t]):
                    if any(s2==s and any(y in below(x) for x in pd(r,lo,hi)) for s2,r in need[q]): continue
                    c=[(s2,r) for s2,r in R[q] if s2==s and any(y in below(x) for x in pd(r,lo,hi))]
                    assert c,(q,t,s)
                    c.sort(key=lambda z:len(str(z)))
                    # prefer the full expression in the first state
                    need[q].add(c[0]); ch_=True
    certs.append(need)
tab=[]; idx={}
def ix(r):
    if r not in idx: idx[r]=len(tab); tab.append(r)
    return idx[r]
C=[[sorted((s,ix(r)) for s,r in st) for st in m] for m in certs]
def show(r):
    t=r[0]
    if t=='eps': return '.eps'
    if t=='cls': return '.cls ['+', '.join('(%d, %d)'%x for x in r[1])+']'
    if t=='star': return '.star (%s)'%show(r[1])
    return '.%s (%s) (%s)'%(t,show(r[1]),show(r[2]))
# ---- symbols
ntn={'set':'.set','variable':'.variable'}
def gram(s,depth=0):
    n=unesc(symbols[s][0]); e=symbols[s][1] or 'none'
    if s<59: return '.tok %s .%s'%(tokname[s],e)
    rhs=[RHS[p] for p in range(len(prods)) if prods[p][3]==s]
    g=lambda x:'.grp ['+', '.join('['+', '.join(ref(y) for y in r)+']' for r in rhs)+']'
    if n.startswith('&embedded') or n.startswith('&whitespace'):
        base=n
        if n[-1] in '?*+':
            b=[i for i,x in enumerate(symbols) if x[0]==n[:-1]][0]
            return {'?':'.opt','*':'.star','+':'.plus'}[n[-1]]+' (%s)'%ref(b)
        return g(s)
    if n.endswith("'"): return g(s)
    return '.nt .'+n
def ref(s): return gram(s)
def wrap(items, ind='   ', width=98):
    out=[];cur=ind
    for i,x in enumerate(items):
        p=x+(', ' if i+1<len(items) else '')
        if len(cur)+len(p.rstrip())>width and cur.strip(): out.append(cur.rstrip()); cur=ind
        cur+=p
    out.append(cur.rstrip()); return '\n'.join(out)
o='''import Verif.Parser.Ebnf

/-!
# Certificates for the grammar

Generated by `tools/gen_ebnf.py`; see `EbnfLemmas.lean` and `Regex.lean` for what they mean.
-/

namespace Cnars.Parser

/-- Residual expressions of the tokens. -/
def rxTable : List Rx :=
  ['''+wrap([show(r) for r in tab]).strip()+''']

/-- The expressions of the terminals, by symbol number. -/
def tokTable : List Rx :=
  ['''+wrap(tokname).strip()+''']

'''
for k,m in enumerate(C):
    o+='def rxCert%d : MachineCert :=\n  ['%k+wrap(['['+', '.join('(%d, %d)'%x for x in st)+']' for st in m]).strip()+']\n\n'
o+='/-- Per state of every machine. -/\ndef rxCerts : List MachineCert :=\n  ['+wrap(['rxCert%d'%k for k in range(len(C))]).strip()+']\n\n'
o+='/-- What the symbols of the tables stand for. -/\ndef symGram : List Gram :=\n  ['+wrap([gram(s) for s in range(len(symbols))]).strip()+']\n\nend Cnars.Parser\n'
open('/verif/lean/Verif/Parser/EbnfCerts.lean','w').write(o)
print(len(tab),sum(len(st) for m in C for st in m))
