# Generates lean/Verif/Spec/Reference.lean from /repo/docs/functions.md.
import re
num={'count','position','line-number','start','end','index','number1','number2'}
strs={'string','string1','string2','regexp','replacement'}
out=[]
for i,l in enumerate(open('/repo/docs/functions.md'),1):
    m=re.match(r'### `([^`]+)`(.*)',l)
    if not m: continue
    ps=[]
    for opt,p in re.findall(r'(\[?)_([^_]+)_\]?',m.group(2)):
        ty='number' if p in num else 'string' if p in strs else p
        ps.append('⟨b! "%s", b! "%s", %s⟩'%(p,ty,'true' if opt else 'false'))
    out.append('  -- line %d\n  ⟨b! "%s", [%s]⟩'%(i,m.group(1),', '.join(ps)))
open('/verif/lean/Verif/Spec/Reference.lean','w').write('''import Verif.Model.Docs
/- Generated by tools/reference.py from the headings of /repo/docs/functions.md. -/
namespace Texted.Spec
open Texted

/-- A heading of the function reference: the name and the parameters, those in brackets optional. The reference gives no types; here a
count, position, line number, index, start or end is a number, and what is called a string, regexp or replacement is a string; of the
others (lists, items, conditions, expressions) the name stands for the type. -/
structure RefEntry where
  name : Bytes
  parameters : List ParamSig
  deriving DecidableEq

/-- /repo/docs/functions.md, heading by heading. -/
def functionReference : List RefEntry := [
'''+',\n'.join(out)+''']

end Texted.Spec
''')
