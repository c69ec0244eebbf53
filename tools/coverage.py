#!/usr/bin/env python3
"""Rewrites the section '## Which code is modelled' of DESIGN.md from the citations in lean/Verif/Model."""
import re,glob,os
cov={}
for f in sorted(glob.glob('/verif/lean/Verif/Model/**/*.lean',recursive=True)):
    s=open(f).read(); mod=f.split('Model/')[1][:-5]
    for m in re.finditer(r'((?:src|app|examples)/[\w/\.\-]+\.(?:h|cpp|c|py))',s):
        cov.setdefault(m.group(1),set()).add(mod.split('/')[0])
files=[]
for root in ('src','app'):
    for dp,_,fs in os.walk('/repo/'+root):
        for x in fs:
            if re.search(r'\.(h|cpp|c|py)$',x): files.append(os.path.join(dp,x)[6:])
out='## Which code is modelled\n\nGenerated by `tools/coverage.py` from the citations in `lean/Verif/Model`; the comment of each definition gives the lines. Files with a model (in whole or in part):\n\n'
for x in sorted(cov):
    if os.path.exists('/repo/'+x): out+=f'* `{x}`: {", ".join(sorted(cov[x]))}\n'
out+='\nFiles of src/ and app/ no definition cites (not modelled):\n\n'
for x in sorted(files):
    if x not in cov: out+=f'* `{x}` ({sum(1 for _ in open("/repo/"+x,errors="replace"))} lines)\n'
d=open('/verif/DESIGN.md').read()
a='<!-- coverage -->\n'; b='<!-- /coverage -->\n'
if a in d: d=d[:d.index(a)]+a+out+b+d[d.index(b)+len(b):]
else: d=d.rstrip('\n')+'\n\n'+a+out+b
open('/verif/DESIGN.md','w').write(d)
