#!/usr/bin/env python3
"""Rebuild seeded/LOG.jsonl from seeded/m*.out and the remarks in seeded/remarks.json (keyed "m1:7", counted from 0)."""
import json,glob,os
R=json.load(open('/verif/seeded/remarks.json')) if os.path.exists('/verif/seeded/remarks.json') else {}
n=s=0
with open('/verif/seeded/LOG.jsonl','w') as o:
    for f in sorted(glob.glob('/verif/seeded/m*.out'),key=lambda f:int(''.join(c for c in os.path.basename(f) if c.isdigit()))):
        k=os.path.basename(f)[:-4]
        for i,l in enumerate(open(f)):
            d=json.loads(l)
            if 'error' in d: continue
            r=R.get(f'{k}:{i}',{})
            e=dict(definition=d['definition'],file=d['file'],edit=d['edit'],old=d['old'],new=d['new'],claim_broken=d['claim_broken'],
                   theorems_failed=d['theorems_failed'],survived=d['survived'],theorems_tightened=r.get('tightened',[]))
            if 'note' in r: e['note']=r['note']
            o.write(json.dumps(e,ensure_ascii=False)+'\n'); n+=1; s+=d['survived']
print(n,'attempts',s,'survived')
