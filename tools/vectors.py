#!/usr/bin/env python3
"""Generate lean/Verif/Vectors.lean from /repo/tests/*.xml: each test file is read and, decoded, run through the model's test runner.
These are tests of the model's fidelity, not proofs of properties."""
import glob,os,re
import xml.etree.ElementTree as ET
def lit(s):
    out=''
    for ch in s:
        if ch=='\\': out+='\\\\'
        elif ch=='"': out+='\\"'
        elif ch=='\n': out+='\\n'
        elif ch=='\t': out+='\\t'
        else: out+=ch
    return 'b! "'+out+'"'
L=["import Verif.Model.TestRunner","import Verif.Props.Xml","import Verif.Lemmas.LitExt","import Verif.Lemmas.ReExt",
"/- Generated by tools/vectors.py from /repo/tests/*.xml: the repository's own tests, read and run through the model of its test runner. They test the",
"model's fidelity; they are not proofs of properties. The tests that need a real regular expression engine use the one of Lemmas/ReExt.lean. -/",
"namespace Texted",""]
skipped=[]
META=set('.*+?[](){}|^$\\')
for f in sorted(glob.glob('/repo/tests/*.xml')):
    n=os.path.basename(f)
    r=ET.fromstring('<testcase>'+open(f).read()+'</testcase>')
    g=lambda k:(r.find(k).text or '') if r.find(k) is not None else ''
    lang=(r.find('result').get('lang') or '') if r.find('result') is not None else ''
    inp=g('input')
    regex=re.search(r'(looking|re-search|string-match|replace-regexp)',inp)
    ext='reExt' if regex and ('regex' in n or 're-search' in n or 'replace-regexp' in n) else 'litExt'
    L.append(f"/-- /repo/tests/{n} -/")
    L.append(f"example : letI := {ext}; (runTest defaultEnv {{ buffer := {lit(g('buffer'))}, input := {lit(inp)}, output := {lit(g('output'))}, result := {lit(g('result'))}, resultLang := {lit(lang)}, error := {lit(g('error'))} }}).map (·.passed) = some true := by decide +kernel")
    L.append(f"example : parseTestCase plainXml ({lit(open(f).read())}) = some {{ buffer := {lit(g('buffer'))}, input := {lit(inp)}, output := {lit(g('output'))}, result := {lit(g('result'))}, resultLang := {lit(lang)}, error := {lit(g('error'))} }} := by decide +kernel")
    L.append("")
L.append("");L.append("end Texted")
open('/verif/lean/Verif/Vectors.lean','w').write("\n".join(L)+"\n")
print(skipped)
