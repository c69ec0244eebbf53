#!/usr/bin/env python3
"""Generates lean/Verif/Model/Tables/*.lean (the tables of /repo/src/quadrules) and
lean/Verif/Lemmas/Tables/*.lean (the kernel computations of their moments)."""
import re,os
from fractions import Fraction as F
OUT='/verif/lean/Verif/'
def load(fn):
    full=open('/repo/src/quadrules/'+fn).read()
    lines=full.split('\n')
    starts=[(int(m.group(1)),i+1) for i,l in enumerate(lines) for m in [re.match(r'        \{(\d+),($| \{\{)',l)] if m]
    s=full[full.index('namespace tndm::detail {')+len('namespace tndm::detail {'):]
    s=s[s.index('{'):s.rindex('};')+1].replace('{','[').replace('}',']')
    s=re.sub(r'-?\d+(\.\d*)?(e[+-]?\d+)?',lambda m:'"'+m.group(0)+'"',s)
    out=[]
    for e in eval(s):
        pts,w=e[1]
        out.append((int(e[0]),pts,w))
    st=dict(starts); assert [o for o,_ in starts]==[o for o,_,_ in out],(starts,)
    last=len(lines)-next(i for i,l in enumerate(reversed(lines)) if '};' in l)
    ends={}
    for a,(o,l) in enumerate(starts): ends[o]=(starts[a+1][1]-1) if a+1<len(starts) else last
    return [(o,p,w,st[o],ends[o]) for o,p,w in out]
def digits(v):
    k=0
    while (F(v)*10**k).denominator!=1: k+=1
    return k
def gen(fn,name,var,D,js,files):
    rules=load(fn)
    for fi,orders in enumerate(files):
        suf='' if len(files)==1 else 'ABCDEFGH'[fi]
        m=['import Verif.Model.QuadTable','/-! Generated by tools/gen_tables.py from src/quadrules/%s: do not edit. -/'%fn,'namespace Tandem.QuadTable','set_option maxRecDepth 100000','']
        c=['import Verif.Lemmas.QuadCheck','import Verif.Model.Tables.%s%s'%(name,suf),'/-! Generated by tools/gen_tables.py: moments of the rules in src/quadrules/%s. -/'%fn,'namespace Tandem.QuadTable','set_option maxRecDepth 100000','']
        for o,p,w,l0,l1 in rules:
            if o not in orders: continue
            k=max(digits(x) for q in p+[w] for x in q)
            S=10**k
            P=[[int(F(x)*S) for x in q] for q in p]; W=[int(F(x)*S) for x in w]
            assert len(P)==len(W) and all(len(q)==D for q in P)
            m.append(f'/-- The rule of order {o} in `{var}`, src/quadrules/{fn} lines {l0}-{l1}. -/')
            m.append(f'def {var[0].lower()+var[1:] if 0 else name[0].lower()+name[1:]}{o} : Raw := ⟨{o}, {k}, [')
            m.append(',\n'.join('  ['+', '.join(map(str,q))+']' for q in P)+'],\n  ['+',\n  '.join(map(str,W))+']⟩\n')
            n=name[0].lower()+name[1:]+str(o)
            mk='Pt2' if D==2 else 'Pt3'
            c.append(f'def {n}N : List {mk} := [')
            c.append(',\n'.join('  ⟨'+', '.join(f'nat_lit {x if js else x+S}' for x in q+[])+f', nat_lit {wt}⟩' for q,wt in zip(P,W))+']\n')
            nrm=('normJS' if js else f'normWV{D}')
            c.append(f'theorem {n}_eq : {nrm} {n} = some {n}N := by decide +kernel')
            unit=f'(10 ^ {k})' if js else f'(2 * 10 ^ {k})'
            wu=f'(6 * 10 ^ {k})' if js else f'({2**D} * 10 ^ {k})'
            E='(10 ^ 64)' if js else '(10 ^ 38)'
            c.append(f'theorem {n}_in : all{D}In {unit} {n}N = true := by decide +kernel')
            big= js and o>=12
            if not big:
                c.append(f'theorem {n}_ok : all{D} {unit} {wu} {E} {n}N {o} = true := by decide +kernel')
            else:
                for i in range(o+1):
                    c.append(f'theorem {n}_ok{i} : row3 {unit} {wu} {E} {n}N {o} {i} = true := by decide +kernel')
                c.append(f'theorem {n}_ok : all3 {unit} {wu} {E} {n}N {o} = true := by')
                c.append('  unfold all3; rw [allBelow_iff]; intro i hi')
                c.append('  match i, hi with')
                for i in range(o+1): c.append(f'  | {i}, _ => exact {n}_ok{i}')
                c.append(f'  | i + {o+1}, h => exact absurd h (by omega)')
            c.append('')
        m.append('end Tandem.QuadTable'); c.append('end Tandem.QuadTable')
        open(OUT+f'Model/Tables/{name}{suf}.lean','w').write('\n'.join(m)+'\n')
        open(OUT+f'Lemmas/Tables/{name}{suf}.lean','w').write('\n'.join(c)+'\n')
    return [o for o,*_ in rules]
t=gen('WitherdenVincent2015_Tri.cpp','Tri','WitherdenVincent2015_Tri',2,False,[range(0,21)])
e=gen('WitherdenVincent2015_Tet.cpp','Tet','WitherdenVincent2015_Tet',3,False,[range(0,21)])
j=gen('JaskowiecSukumar2020.cpp','JS','JaskowiecSukumar2020',3,True,[range(0,14),range(14,17),range(17,19),range(19,20),range(20,21)])
print(t,e,j)
