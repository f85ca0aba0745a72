#!/usr/bin/env python3
"""Generate lean/Verif/Model/DocTable.lean from the FunctionDoc literals in /repo/edlisp/builtin_*.go."""
import re,glob
rows=[]
for f in sorted(glob.glob('/repo/edlisp/builtin_*.go')):
    s=open(f).read()
    ms=list(re.finditer(r'RegisterDocumentation\(FunctionDoc\{(.*?)\n\t\}\)',s,re.S))
    assert len(ms)==1,f
    m=ms[0]; b=m.group(1)
    l0=s[:m.start()].count('\n')+1; l1=s[:m.end()].count('\n')+1
    n=re.search(r'^\t\tName:\s+"([^"]*)"',b,re.M).group(1)
    c=re.search(r'^\t\tCategory:\s+"([^"]*)"',b,re.M).group(1)
    sa=re.findall(r'"([^"]*)"',re.search(r'^\t\tSeeAlso:\s+\[\]string\{([^}]*)\}',b,re.M).group(1))
    pm=re.search(r'^\t\tParameters:\s+\[\]ParameterDoc\{(.*?)(?=^\t\t[A-Z])',b,re.M|re.S)
    body=pm.group(1) if pm else ''
    chunks=re.split(r'(?=\bName:)',body)[1:]
    ps=[]
    for ch in chunks:
        pn=re.match(r'Name:\s+"([^"]*)"',ch).group(1)
        pt=re.search(r'Type:\s+"([^"]*)"',ch).group(1)
        o=re.search(r'Optional:\s+(\w+)',ch)
        ps.append((pn,pt,(o and o.group(1)=='true')))
    rows.append((n,c,ps,sa,f,l0,l1))
assert len(rows)==50
out=['import Verif.Model.Docs','/- Generated by tools/doctable.py from the `init` functions of /repo/edlisp/builtin_*.go. -/','namespace Texted','']
out.append('/-- What the 50 `init` functions register (/repo/edlisp/builtin_*.go, the lines given beside each entry), without the prose: the\nsummary, the description, the text about each parameter and the examples are left out. -/')
out.append('def docTable : List DocEntry := [')
for i,(n,c,ps,sa,f,l0,l1) in enumerate(rows):
    p=', '.join('⟨b! "%s", b! "%s", %s⟩'%(a,t,'true' if o else 'false') for a,t,o in ps)
    e='  -- %s:%d-%d\n  ⟨b! "%s", b! "%s", [%s],\n    [%s]⟩%s'%(f.replace('/repo/','/repo/'),l0,l1,n,c,p,', '.join('b! "%s"'%x for x in sa),',' if i<49 else ']')
    out.append(e)
out+=['','end Texted','']
open('/verif/lean/Verif/Model/DocTable.lean','w').write('\n'.join(out))
for r in rows: print(r[0],r[2])
