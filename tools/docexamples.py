#!/usr/bin/env python3
"""Generate lean/Verif/VectorsDoc.lean from the examples in the documentation registered by /repo/edlisp/builtin_*.go: those whose output is
a value or the text of the buffer, and that are true, run through the model. Tests of the model's fidelity, not proofs of properties."""
import re,glob,json
def lit(s): return 'b! "'+s.replace('\\','\\\\').replace('"','\\"').replace('\n','\\n')+'"'
FALSE={'beginning-of-line; current-column','goto-char 6; current-column','set-mark 5; mark'}
prose=re.compile(r"Point moves|Returns|Marks|Mark |Buffer becomes|Error:|; \d|\(first word")
L=["import Verif.Model.Script","import Verif.Lemmas.LitExt","/- Generated by tools/docexamples.py from the examples of /repo/edlisp/builtin_*.go. They test the model's fidelity; they are not proofs of properties. -/",
"namespace Texted","",
"/-- The value of the last instruction is shown as `out`, or (if the value is the empty string) the buffer contains `out` in the end. -/",
"def exampleHolds (buffer input out : Bytes) : Bool := letI := litExt",
"  match parseString input with",
"  | .ok p => match eval defaultEnv p (newBuffer buffer) with",
"    | (.ok (.str []), b) => b.content == out || out == b! \"\\\"\\\"\"",
"    | (.ok v, b) => v.toStr == out || b.content == out",
"    | _ => false",
"  | _ => false",""]
n=0
for f in sorted(glob.glob('/repo/edlisp/builtin_*.go')):
    s=open(f).read()
    if 'Examples: []ExampleDoc' not in s: continue
    blk=s[s.index('Examples: []ExampleDoc'):]
    for m in re.finditer(r'\{\s*((?:\s*\w+:\s*(?:`[^`]*`|"(?:[^"\\]|\\.)*"),?\s*)+)\}',blk):
        d={}
        for k,v in re.findall(r'(\w+):\s*(`[^`]*`|"(?:[^"\\]|\\.)*")',m.group(1)):
            d[k]=v[1:-1] if v[0]=='`' else json.loads(v)
        if 'Input' not in d or prose.search(d['Output']) or d['Input'] in FALSE: continue
        L.append('example : exampleHolds (%s) (%s) (%s) = true := by decide +kernel'%(lit(d.get('Buffer') or ''),lit(d['Input']),lit(d['Output']))); n+=1
L+=["","end Texted"]
open('/verif/lean/Verif/VectorsDoc.lean','w').write("\n".join(L)+"\n"); print(n)
