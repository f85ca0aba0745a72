#!/usr/bin/env python3
"""Translates the bodies of Go functions of /repo (the subset of Go they use) into terms of the small Go of Verif/Model/Go.lean.
Writes lean/Verif/Model/GoSource.lean. Everything it does not know makes it stop with an error: nothing is skipped."""
import re,os,glob,sys
REPO=os.environ.get('GO2LEAN_REPO','/repo/edlisp/')
OUT=os.environ.get('GO2LEAN_OUT','/verif/lean/Verif/Model/')
TOK=re.compile(r'''\s+|//[^\n]*|(?P<id>[A-Za-z_][A-Za-z_0-9]*)|(?P<num>\d+)|(?P<str>"(?:\\.|[^"\\])*")|(?P<chr>'(?:\\.|[^'\\])')|(?P<op>:=|==|!=|<=|>=|&&|\|\||\+\+|--|\+=|[-+*/<>!=(){}\[\].,;:&%])''')
def tokens(text):
    i=0;out=[]
    while i<len(text):
        m=TOK.match(text,i)
        if not m: raise SystemExit('token? '+repr(text[i:i+30]))
        if m.lastgroup: out.append((m.lastgroup,m.group()))
        elif '\n' in m.group() : out.append(('nl','\n'))
        i=m.end()
    return out
VARS=set()
KEYWORDS={'end','match','start_','at','from','open','in','show','by'}
def name(x):
    VARS.add(x)
    return '.'+('«%s»'%x if x in KEYWORDS else x)
def lit(s):  # Go string literal -> Lean b! literal
    body=s[1:-1]
    return 'b! "%s"'%body
CONSTRUCT={'NewString':'newString','NewSymbol':'newSymbol'}
FN1={'int':'int','float64':'float64','NewString':'newString','NewNumber':'newNumber','NewSymbol':'newSymbol','isLetter':'isLetter','string':'string'}
PKG={('strings','Index'):'stringsIndex',('strings','LastIndex'):'stringsLastIndex',('strings','HasPrefix'):'stringsHasPrefix',('strings','HasSuffix'):'stringsHasSuffix',
     ('strings','Split'):'stringsSplit',('strings','ToUpper'):'stringsToUpper',('strings','ToLower'):'stringsToLower',('regexp','Compile'):'regexpCompile'}
KINDS={'TheNumberKind':'isNumber','TheStringKind':'isString','TheSymbolKind':'isSymbol','TheListKind':'isList'}
METHOD={'FindStringIndex':'findStringIndex','ReplaceAllString':'replaceAllString'}
FIELDS={'lastSearchMatch':'lastMatch','lastSearchStart':'lastStart','lastSearchEnd':'lastEnd','point':'point','mark':'mark'}
PREC={'||':1,'&&':2,'==':3,'!=':3,'<':3,'<=':3,'>':3,'>=':3,'+':4,'-':4}
OPS={'||':'or','&&':'and','==':'eq','!=':'ne','<':'lt','<=':'le','>':'gt','>=':'ge','+':'add','-':'sub'}
class P:
    def __init__(s,toks,recv,builders):
        s.t=toks;s.i=0;s.recv=recv;s.b=builders;s.scopes=[{'args','buffer','b','text','ch'}]
    def peek(s,k=0): return s.t[s.i+k] if s.i+k<len(s.t) else ('eof','')
    def next(s): x=s.peek(); s.i+=1; return x
    def at(s,v): return s.peek()[1]==v
    def eat(s,v):
        if not s.at(v): raise SystemExit('expected %s, got %s near %s'%(v,s.peek(),s.t[max(0,s.i-8):s.i+5]))
        s.i+=1
    def declare(s,x):
        if any(x in sc for sc in s.scopes[:-1]): raise SystemExit('shadowed variable '+x)   # variables have one flat scope in the model
        s.scopes[-1].add(x)
    def nls(s):
        while s.peek()[0]=='nl' or s.at(';'): s.i+=1
    # expressions
    def expr(s,p=1):
        a=s.unary()
        while s.peek()[1] in PREC and PREC[s.peek()[1]]>=p:
            o=s.next()[1]
            b=s.expr(PREC[o]+1)
            a='(.bin .%s %s %s)'%(OPS[o],a,b)
        return a
    def unary(s):
        if s.at('!'): s.next(); return '(.not %s)'%s.unary()
        if s.at('-'):
            s.next(); k,v=s.next(); assert k=='num'; return '(.int (-%s))'%v
        return s.postfix(s.primary())
    def primary(s):
        k,v=s.next()
        if k=='num': return '(.int %s)'%v
        if k=='str': return '(.str (%s))'%lit(v)
        if k=='chr':
            c=v[1:-1]; c={'\\n':'\n'}.get(c,c); assert len(c)==1
            return '(.char %d)'%ord(c)
        if v=='(':
            e=s.expr(); s.eat(')'); return e
        if v=='nil': return '.nil'
        if v=='len': s.eat('('); e=s.expr(); s.eat(')'); return '(.len %s)'%e
        if v=='IsA':
            s.eat('('); e=s.expr(); s.eat(','); kd=s.next()[1]; s.eat(')'); return '(.call1 .%s %s)'%(KINDS[kd],e)
        if v=='fmt':
            s.eat('.'); assert s.next()[1]=='Errorf'; s.eat('('); f=s.next()[1][1:-1]; a=[]
            while s.at(','): s.next(); a.append(s.expr())
            s.eat(')')
            verbs=re.findall(r'%.',f); assert len(verbs)==len(a) and len(a)<=1
            if not a: return '(.errorf (b! "%s"))'%f
            assert verbs[0] in('%d','%v') and f.endswith(verbs[0])
            return '(.errorf1 (b! "%s") %s)'%(f[:-2],a[0])
        if v in FN1 and s.at('('):
            s.eat('('); e=s.expr(); s.eat(')')
            if v=='NewNumber' and re.fullmatch(r'\(\.int \d+\)',e): e='(.call1 .float64 %s)'%e   # an untyped constant becomes a float64
            return '(.call1 .%s %s)'%(FN1[v],e)
        if (v,s.peek(1)[1]) in PKG and s.at('.'):
            f=PKG[(v,s.peek(1)[1])]; s.eat('.'); s.next(); a=s.args()
            return '(.call%d .%s %s)'%(len(a),f,' '.join(a))
        if v==s.recv and s.at('.'):
            s.eat('.'); m=s.next()[1]
            if m in('Point','Mark','String'): s.eat('('); s.eat(')'); return '(.buf .%s)'%{'Point':'point','Mark':'mark','String':'content'}[m]
            if m=='content': s.eat('.'); assert s.next()[1]=='String'; s.eat('('); s.eat(')'); return '(.buf .content)'
            return '(.buf .%s)'%FIELDS[m]
        if v in s.b and s.at('.') and s.peek(1)[1]=='String':
            s.eat('.'); s.next(); s.eat('('); s.eat(')'); return '(.var %s)'%name(v)
        if k=='id': return '(.var %s)'%name(v)
        raise SystemExit('primary? %s %s'%(k,v))
    def args(s):
        s.eat('('); a=[]
        while not s.at(')'):
            a.append(s.expr())
            if s.at(','): s.next()
        s.eat(')'); return a
    def postfix(s,e):
        while True:
            if s.at('['):
                s.next()
                if s.at(':'): s.next(); h=s.expr(); s.eat(']'); e='(.sliceTo %s %s)'%(e,h); continue
                l=s.expr()
                if s.at(':'):
                    s.next()
                    if s.at(']'): s.next(); e='(.sliceFrom %s %s)'%(e,l)
                    else: h=s.expr(); s.eat(']'); e='(.slice %s %s %s)'%(e,l,h)
                else: s.eat(']'); e='(.index %s %s)'%(e,l)
            elif s.at('.') and s.peek(1)[1]=='(':
                s.next(); s.next(); s.eat('*'); t=s.next()[1]; s.eat(')')
                e='(.assert .%s %s)'%({'Number':'isNumber','String':'isString'}[t],e)
            elif s.at('.') and s.peek(1)[1]=='Value': s.next(); s.next(); e='(.value %s)'%e
            elif s.at('.') and s.peek(1)[1] in METHOD:
                s.next(); m=METHOD[s.next()[1]]; a=s.args(); e='(.call%d .%s %s)'%(len(a)+1,m,' '.join([e]+a))
            elif s.at('.') and s.peek(1)[1]=='FindAllStringIndex':
                s.next(); s.next(); a=s.args(); assert len(a)==2 and a[1]=='(.int (-1))'; e='(.call2 .findAllStringIndex %s %s)'%(e,a[0])
            else: return e
    # statements
    def block(s,ind):
        s.eat('{'); out=[]; s.scopes.append(set())
        s.nls()
        while not s.at('}'):
            out+=s.stmt(ind); s.nls()
        s.eat('}'); s.scopes.pop()
        return s.seq(out,ind)
    def seq(s,l,ind):
        if not l: return '.skip'
        if len(l)==1: return l[0]
        pad='\n'+'  '*ind
        return '(.seq %s <|%s'%('',pad) if False else ('('+(' <|'+pad).join('.seq '+x for x in l[:-1])+' <|'+pad+l[-1]+')')
    def simple(s,ind):
        """assignment, ++, --, call"""
        k,v=s.peek()
        if v==s.recv:
            s.next(); s.eat('.'); m=s.next()[1]
            if m in('SetPoint','SetMark'): a=s.args(); return ['(.setBuf .%s %s)'%({'SetPoint':'point','SetMark':'mark'}[m],a[0])]
            if m=='Insert': a=s.args(); return ['(.insert %s)'%a[0]]
            if m=='content':
                s.eat('.'); f=s.next()[1]; a=s.args()
                if f=='Reset': assert not a; return ['.reset']
                assert f=='WriteString'; return ['(.write %s)'%a[0]]
            if s.at('+='): s.next(); e=s.expr(); return ['(.setBuf .%s (.bin .add (.buf .%s) %s))'%(FIELDS[m],FIELDS[m],e)]
            s.eat('='); e=s.expr(); return ['(.setBuf .%s %s)'%(FIELDS[m],e)]
        if v in s.b and s.peek(1)[1]=='.':
            s.next(); s.next(); assert s.next()[1]=='WriteString'; a=s.args()
            return ['(.set %s (.bin .add (.var %s) %s))'%(name(v),name(v),a[0])]
        assert k=='id',(k,v)
        x=s.next()[1]
        if s.at('++'): s.next(); return ['(.set %s (.bin .add (.var %s) (.int 1)))'%(name(x),name(x))]
        if s.at('--'): s.next(); return ['(.set %s (.bin .sub (.var %s) (.int 1)))'%(name(x),name(x))]
        if s.at('+='): s.next(); e=s.expr(); return ['(.set %s (.bin .add (.var %s) %s))'%(name(x),name(x),e)]
        if s.at(','):
            s.next(); y=s.next()[1]; op=s.next()[1]; assert op in('=',':=')
            if op==':=': s.declare(x); s.declare(y)
            e=s.expr()
            if s.at(','): s.next(); e2=s.expr(); return ['(.set2 %s %s %s %s)'%(name(x),name(y),e,e2)]
            return ['(.setPair %s %s %s)'%(name(x),name(y),e)]
        op=s.next()[1]; assert op in('=',':='),(op,x)
        if op==':=': s.declare(x)
        e=s.expr(); return ['(.set %s %s)'%(name(x),e)]
    def stmt(s,ind):
        k,v=s.peek()
        if v=='var':
            s.next(); x=s.next()[1]; xs=[x]
            while s.at(','): s.next(); xs.append(s.next()[1])
            ty=s.next()[1]
            for z in xs: s.declare(z)
            if len(xs)>1: assert ty=='int' and not s.at('='); return ['(.set %s (.int 0))'%name(x) for x in xs]
            if ty=='strings': s.eat('.'); assert s.next()[1]=='Builder'; s.b.add(x); return ['(.set %s (.str []))'%name(x)]
            assert ty=='int'
            if s.at('='): s.next(); e=s.expr()
            else: e='(.int 0)'
            return ['(.set %s %s)'%(name(x),e)]
        if v=='return':
            s.next(); a=s.expr()
            if s.at(','): s.next(); b=s.expr(); return ['(.ret %s %s)'%(a,b)]
            return ['(.ret %s .nil)'%a]
        if v=='if':
            s.next(); c=s.expr(); pad='\n'+'  '*(ind+1)
            a=s.block(ind+1)
            b='.skip'
            if s.at('else'):
                s.next()
                b=s.stmt(ind+1)[0] if s.at('if') else s.block(ind+1)
            return ['(.if_ %s%s%s%s%s)'%(c,pad,a,pad,b)]
        if v=='for':
            s.next(); pad='\n'+'  '*(ind+1)
            if s.peek(3)[1]==':=' and s.peek(4)[1]=='range':
                i=s.next()[1]; s.eat(','); x=s.next()[1]; s.next(); s.next(); e=s.expr(); b=s.block(ind+1)
                return ['(.range %s %s %s%s%s)'%(name(i),name(x),e,pad,b)]
            # for c {  |  for init; c; post {
            j=s.i; semi=False
            while s.t[j][1]!='{':
                semi|=s.t[j][1]==';'; j+=1
            if not semi:
                c=s.expr(); b=s.block(ind+1)
                return ['(.while %s .skip%s%s)'%(c,pad,b)]
            init=s.simple(ind); s.eat(';'); c=s.expr(); s.eat(';'); post=s.simple(ind); b=s.block(ind+1)
            return init+['(.while %s %s%s%s)'%(c,post[0],pad,b)]
        return s.simple(ind)
def function(path,pat):
    lines=open(path).read().split('\n')
    i=[k for k,l in enumerate(lines) if re.match(pat,l)][0]
    j=[k for k in range(i,len(lines)) if lines[k]=='}'][0]
    return i+1,j+1,'\n'.join(lines[i:j+1])
def translate(path,pat):
    a,b,text=function(path,pat)
    head=text[:text.index('{')]
    recv='buffer' if 'buffer *Buffer' in head else 'b'
    body=text[len(head):]
    p=P(tokens(body),recv,set())
    t=p.block(1); 
    p.nls(); assert p.peek()[0]=='eof',p.peek()
    return a,b,t
out=[];table=[]
# which names: eval.go NewDefaultEnvironment
ev=open(REPO+'eval.go').read()
reg=re.findall(r'env\.Functions\["([^"]+)"\]\s*=\s*(Builtin\w+)',ev) or re.findall(r'"([^"]+)":\s*(Builtin\w+)',ev)
files={}
for f in sorted(glob.glob(REPO+'builtin_*.go')):
    for m in re.finditer(r'^func (Builtin\w+)\(',open(f).read(),re.M): files[m.group(1)]=f
assert len(reg)==50 and set(x for _,x in reg)==set(files),(len(reg),set(files)-set(x for _,x in reg))
for nm,fn in reg:
    a,b,t=translate(files[fn],r'func %s\('%fn)
    d='go'+fn[len('Builtin'):]
    out.append('/-- %s:%d-%d `%s` -/\ndef %s : GoS :=\n  %s\n'%(files[fn],a,b,fn,d,t))
    table.append((nm,d))
for fn,f,pat,d in [('Buffer.Insert',REPO+'eval.go',r'func \(b \*Buffer\) Insert\(','goInsertMethod'),('isLetter',REPO+'helpers.go',r'func isLetter\(','goIsLetter')]:
    a,b,t=translate(f,pat)
    out.append('/-- %s:%d-%d `%s` -/\ndef %s : GoS :=\n  %s\n'%(f,a,b,fn,d,t))
VARS.update(['args','text','ch'])
vs=sorted(VARS)
res='import Verif.Model.Go\n/- GENERATED by tools/go2lean.py from /repo/edlisp: the built-in functions as they are written in Go. Do not edit. -/\nnamespace Texted\n\n'
res+='\n'.join(out)
res+='\n/-- /repo/edlisp/eval.go `NewDefaultEnvironment`: the names of the functions, in source order. -/\ndef goTable : List (Bytes × GoS) := [\n'
res+=',\n'.join('  (b! "%s", %s)'%x for x in table)+']\n\nend Texted\n'
open(OUT+'GoSource.lean','w').write(res)
vt='import Verif.Model.Value\n/- GENERATED by tools/go2lean.py: the names of the variables of the translated functions. -/\nnamespace Texted\n\n/-- The variables of the functions in Model/GoSource (/repo/edlisp/builtin_*.go, eval.go:72-86, helpers.go:4-6). -/\ninductive GoVar where\n'
vt+='\n'.join('  | '+('«%s»'%x if x in KEYWORDS else x) for x in vs)+'\n  deriving DecidableEq\n\nend Texted\n'
open(OUT+'GoVar.lean','w').write(vt)
print(len(out),vs)
