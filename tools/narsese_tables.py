import re
src=open('/repo/Narsese/Parser/narsese.h').read()
def block(name):
    i=src.index(name); i=src.index('{',i); d=0
    for j in range(i,len(src)):
        # skip strings
        pass
    return i
def grab(decl):
    i=src.index(decl); i=src.index('=',i); i=src.index('{',i)
    d=0;j=i;instr=False
    while True:
        c=src[j]
        if instr:
            if c=='\\': j+=1
            elif c=='"': instr=False
        elif c=='"': instr=True
        elif c=='{': d+=1
        elif c=='}':
            d-=1
            if d==0: break
        j+=1
    return src[i+1:j]
def rows(t):
    return [[eval(x) for x in r.replace('\n',' ').split(',') if x.strip()] for r in re.findall(r'\{([^{}]*)\}',t)]
actions=rows(grab('const int actions[')); go=rows(grab('const int go['))
flat=lambda t:[eval(x) for x in t.replace('\n',' ').split(',') if x.strip()]
def_prod=flat(grab('const int def_prod[')); dfa_select=flat(grab('const int dfa_select['))
dfa_idx=rows(grab('const int dfa_idx[')); dfa_chars=flat(grab('const int dfa_chars[')); dfa_trans=flat(grab('const int dfa_trans['))
dfa_accept=rows(grab('const int dfa_accept['))
def cstr(s): return bytes(s,'utf8').decode('unicode_escape')
symbols=[(cstr(a),cstr(b),int(t),int(l),int(w),int(g)) for a,b,t,l,w,g in re.findall(r'\{ /\* \d+ \*/ "((?:[^"\\]|\\.)*)", "((?:[^"\\]|\\.)*)", (\d), bool\((\d)\), bool\((\d)\), bool\((\d)\) \}',grab('const _syminfo symbols['))]
prods=[(cstr(a),cstr(b),int(n),int(l)) for a,b,n,l in re.findall(r'\{ /\* \d+ \*/ "((?:[^"\\]|\\.)*)", "((?:[^"\\]|\\.)*)", (\d+), (\d+) \}',grab('const _prodinfo productions['))]
trip=lambda r:[(r[1+3*i],r[2+3*i],r[3+3*i]) for i in range(r[0])]
act=[trip(r) for r in actions]; gt=[trip(r) for r in go]
assert all(len(r)==1+3*r[0] for r in actions+go)
def trans(m,s):
    c=dfa_idx[m][s]; out=[]
    while dfa_chars[c]>-1:
        out.append((dfa_chars[c],dfa_chars[c+1],dfa_trans[c//2])); c+=2
    return out
dfas=[[(trans(m,s),dfa_accept[m][s]) for s in range(len(dfa_idx[m]))] for m in range(len(dfa_idx))]
# rhs
names={}
for i,s in enumerate(symbols): names.setdefault(s[0],[]).append(i)
def rhs(i):
    d,e,n,l=prods[i]
    lhs,r=d.split(' : ',1)
    assert symbols[l][0]==lhs,(d,symbols[l])
    if i==207: return [58]
    out=[]
    for w in r.split():
        if w.startswith('"') and w.endswith('"') and len(w)>2:
            c=[x for x in names[w[1:-1]] if x<=58]
        elif w.startswith('@') and len(w)>2 and not w=="@'": c=[x for x in names[w[1:]] if x<=58]
        elif w=='~&eof': c=[0]
        else: c=[x for x in names[w] if x>58]
        assert len(c)==1,(w,c); out.append(c[0])
    assert len(out)==n,(d,out); return out
RHS=[rhs(i) for i in range(len(prods))]
