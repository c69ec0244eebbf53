#!/usr/bin/env python3
"""Regenerates the section on axioms in DESIGN.md (run after `lake build`); the scratch file that prints
the axioms is outside of /verif."""
import json, re, subprocess, collections
m = json.load(open('/verif/MANIFEST.json'))
t = [x for c in m['claims'] for x in c['theorems']]
open('/tmp/ax.lean', 'w').write('import Verif\n' + '\n'.join('#print axioms ' + x for x in t) + '\n')
r = subprocess.run(['lake', 'env', 'lean', '/tmp/ax.lean'], cwd='/verif/lean', capture_output=True, text=True)
s = (r.stdout + r.stderr).replace('\n ', ' ')
g = collections.defaultdict(list)
for l in s.split('\n'):
    k = re.match(r"'(\S+)' (depends on axioms: \[(.*)\]|does not depend on any axioms)", l)
    if k: g[k.group(3) or ''].append(k.group(1))
    elif l.strip(): raise SystemExit(l)
full = 'propext, Classical.choice, Quot.sound'
assert all(set(a.split(', ')) <= set(full.split(', ')) | {''} for a in g), g.keys()
out = ['<!-- axioms -->', '## Axioms of each theorem', '',
  f'Generated by `tools/axioms.py` from `#print axioms` for the {len(t)} theorems of MANIFEST.json. Only the three '
  'axioms of Lean itself (`propext`, `Classical.choice`, `Quot.sound`) occur. The theorems named below depend on '
  'fewer of them; **every other theorem of the manifest depends on exactly `' + full + '`**.', '']
for a in sorted(g, key=lambda a: len(g[a])):
    if a == full: continue
    out.append(f'* {"no axioms" if not a else "`" + a + "`"} ({len(g[a])}): ' + ', '.join('`' + x.split('.')[-1] + '`' for x in g[a]))
out.append(f'* `{full}` ({len(g[full])}): all others')
out.append('<!-- /axioms -->')
d = open('/verif/DESIGN.md').read()
b = '\n'.join(out)
if '<!-- axioms -->' in d:
    d = re.sub(r'<!-- axioms -->.*?<!-- /axioms -->', lambda _: b, d, flags=re.S)
else:
    d = d.rstrip('\n') + '\n\n' + b + '\n'
open('/verif/DESIGN.md', 'w').write(d)
print({a or 'none': len(x) for a, x in g.items()})
