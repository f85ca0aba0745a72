#!/usr/bin/env python3
"""Write AXIOMS.md: the axioms each theorem of MANIFEST.json depends on (run after `lake build` in lean/)."""
import json,subprocess,re,collections
m=json.load(open('/verif/MANIFEST.json'))
ths=[t for c in m['claims'] for t in c['theorems']]
src='import Verif\n'+''.join(f'#print axioms {t}\n' for t in ths)
open('/tmp/ax.lean','w').write(src)
o=subprocess.run(['lake','env','lean','/tmp/ax.lean'],cwd='/verif/lean',capture_output=True,text=True).stdout
o=re.sub(r'\n\s+',' ',o)
by=collections.OrderedDict()
for l in o.splitlines():
    r=re.match(r"'(.*)' depends on axioms: \[(.*)\]",l)
    if r: by[r.group(1)]=', '.join(sorted(x.strip() for x in r.group(2).split(',')))
    r=re.match(r"'(.*)' does not depend on any axioms",l)
    if r: by[r.group(1)]='none'
assert set(by)==set(ths),set(ths)-set(by)
g=collections.defaultdict(list)
for t in ths: g[by[t]].append(t.replace('Texted.',''))
with open('/verif/AXIOMS.md','w') as f:
    f.write('# Axioms per theorem (generated by tools/axioms.py)\n')
    for k in sorted(g): f.write(f'\n## {k} ({len(g[k])})\n\n'+', '.join(g[k])+'\n')
print({k:len(v) for k,v in g.items()})
