#!/usr/bin/env python3
"""Regenerate MANIFEST.json from the theorem names in lean/Verif/Props and tools/notes.json."""
import json,re,glob,os
root=os.path.dirname(os.path.dirname(os.path.abspath(__file__)))
notes=json.load(open(root+'/tools/notes.json'))
props=[json.loads(l) for l in open(root+'/properties.jsonl')]
thms={}
for f in sorted(glob.glob(root+'/lean/Verif/Props/*.lean')):
    ns=[]
    for line in open(f):
        m=re.match(r'namespace (\S+)',line)
        if m: ns.append(m.group(1))
        m=re.match(r'end (\S+)',line)
        if m and ns and ns[-1]==m.group(1): ns.pop()
        m=re.match(r'(?:protected |private )?theorem ((C\d\d+)_\S*)',line)
        if m: thms.setdefault(m.group(2),[]).append('.'.join(ns+[m.group(1).rstrip(':')]))
claims=[]
for p in props:
    i=p['id']; n=notes.get(i,{})
    t=thms.get(i,[])
    if not t and 'status' not in n: 
        print('no theorems yet:',i,p['title']); continue
    st=n.get('status') or ('partial' if any(x.endswith('_partial') for x in t) else 'proved')
    claims.append({"property":i,"status":st,"theorems":t,"note":n.get('note','')})
extra=set(thms)-{p['id'] for p in props}
if extra: print('theorems without property:',extra)
json.dump({"claims":claims},open(root+'/MANIFEST.json','w'),indent=1)
print(len(claims),'claims',sum(len(c['theorems']) for c in claims),'theorems')
