#!/usr/bin/env python3
"""Every def/structure/inductive in lean/Verif/Model must carry a doc comment naming a file and lines of /repo."""
import re,glob
bad=0
for f in sorted(glob.glob('/verif/lean/Verif/Model/*.lean')):
    s=open(f).read()
    for m in re.finditer(r'^(?:@\[[^\]]*\]\s*)?(?:noncomputable |private |partial )?(def|structure|inductive|abbrev) (\S+)',s,re.M):
        pre=s[:m.start()].rstrip()
        d=''
        if pre.endswith('-/'):
            d=pre[pre.rfind('/-'):]
        if not re.search(r'\.(h|cpp|c|inc|py)\b',d) or not re.search(r'lines?\s+\d',d):
            print(f.split('/')[-1],m.group(2)); bad+=1
        else:
            for fm in re.finditer(r'((?:src|app|examples|test)/[\w/\.\-]+\.(?:h|cpp|c|py))',d):
                import os
                if not os.path.exists('/repo/'+fm.group(1)): print('missing file',f,m.group(2),fm.group(1)); bad+=1
print('bad',bad)
