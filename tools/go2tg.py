#!/usr/bin/env python3
"""Translates the Go functions of /repo that run tests and show documentation into terms of the language of Verif/Model/Tg.lean. Writes
lean/Verif/Model/TgVar.lean and TgSource.lean. Everything it does not know makes it stop with an error: nothing is skipped, except the mutex
(which must be taken and released in the two lines it knows) and the closing of the test file. A variable that shadows another one gets a name
of its own; a parameter that points to a struct of arguments becomes one parameter for each field."""
import re,os
REPO=os.environ.get('GO2LEAN_REPO','/repo/')
OUT=os.environ.get('GO2LEAN_OUT','/verif/lean/Verif/Model/')
T='edlisp/testing/testing.go';C='commands/test.go';R='edlisp/documentation_registry.go';D='commands/doc.go';M='tools/texted_doc.go'
FUNCS=[('parseTestCase',T,'ParseTestCase'),('parseTestFile',T,'ParseTestFile'),('runTest',T,'RunTest'),('runTestWithTrace',T,'RunTestWithTrace'),
 ('runTestFile',T,'RunTestFile'),('runTestFileWithTrace',T,'RunTestFileWithTrace'),('formatValue',T,'formatValue'),
 ('runTests',C,'runTests'),('printTestResult',C,'printTestResult'),('createTraceCallback',C,'createTraceCallback'),('formatInstruction',C,'formatInstruction'),
 ('registerDocumentation',R,'RegisterDocumentation'),('getDocumentation',R,'GetDocumentation'),('getAllDocumentation',R,'GetAllDocumentation'),
 ('getDocumentationByCategory',R,'GetDocumentationByCategory'),('getCategories',R,'GetCategories'),('getRegisteredFunctionCount',R,'GetRegisteredFunctionCount'),
 ('textedDocHandler',M,'TextedDocHandler'),('handleFunctionDoc',M,'handleFunctionDoc'),('handleCategoryListing',M,'handleCategoryListing'),
 ('handleAllFunctions',M,'handleAllFunctions'),('formatFunctionDoc',M,'formatFunctionDoc'),('formatFunctionList',M,'formatFunctionList'),
 ('runDoc',D,'runDoc'),('showFunctionDoc',D,'showFunctionDoc'),('listFunctions',D,'listFunctions')]
TOK=re.compile(r'''[ \t\r]+|\n|//[^\n]*|(?P<id>[A-Za-z_][A-Za-z_0-9]*)|(?P<num>\d+)|(?P<str>"(?:\\.|[^"\\])*"|`[^`]*`)|(?P<op>:=|==|!=|<=|>=|&&|\|\||\+\+|--|\+=|[-+*/<>!=(){}\[\].,;:&%])''')
def tokens(text):
    i=0;out=[]
    while i<len(text):
        m=TOK.match(text,i)
        if not m: raise SystemExit('token? '+repr(text[i:i+30]))
        if m.lastgroup: out.append((m.lastgroup,m.group()))
        elif m.group()=='\n': out.append(('nl','\n'))
        i=m.end()
    return out
KEYWORDS={'end','match','at','from','open','in','show','by','fun','let','have','where','if','then','else','do','prefix','instance','rec','mut','example'}
VARS={'blank'}
def vn(x):
    VARS.add(x)
    return '.'+('«%s»'%x if x in KEYWORDS else x)
def goString(v):
    body=v[1:-1]
    if v[0]=='`':
        assert '\n' not in body and '\\' not in body
        return body.replace('"','\\"')
    assert not re.search(r'\\[^n"]',body),v   # \n and \" mean the same in Lean
    return body
def S(body): return '(.str (b! "%s"))'%body
PREC={'||':1,'&&':2,'==':3,'!=':3,'<':3,'<=':3,'>':3,'>=':3,'+':4,'-':4}
OPS={'||':'or','&&':'and','==':'eq','!=':'ne','<':'lt','<=':'le','>':'gt','>=':'ge','+':'add','-':'sub'}
def cons(a):
    t='.nil'
    for x in reversed(a): t='(.cons %s %s)'%(x,t)
    return t
def prim(p,*a): return '(.call %s %s)'%(p if p[0]=='(' else '.'+p,cons(a))
def es(l): return '['+', '.join(l)+']'
ZERO={'string':'(.str [])','bool':'(.bool false)','int':'(.int 0)','error':'.nil','[]Value':'.noVals','Value':'.nil','[]string':'.noStrs','*TestResult':'.nil',
 '[]*TestResult':'.noResults','strings.Builder':'.noText','[]FunctionDoc':'.noDocs','map[string][]FunctionDoc':'.noGroups','map[string]bool':'.noFlags'}
FIELDS={'Buffer':'buffer','Input':'input','Output':'output','Result':'result','Error':'error','Input.Text':'inputText','Result.Text':'resultText','Result.Lang':'resultLang',
 'Error.Text':'errorText','Name':'name','Passed':'passed','Expected':'expected','Actual':'actual','Instruction':'instruction','Summary':'summary','Description':'description',
 'Parameters':'parameters','Examples':'examples','SeeAlso':'seeAlso','Category':'category','Type':'type','Optional':'optional','Value':'value'}
KINDS={'TheStringKind':'string','TheNumberKind':'number','TheSymbolKind':'symbol','TheListKind':'list'}
TYPES={'edlisp.String':'string','edlisp.Number':'number','edlisp.Symbol':'symbol','edlisp.List':'list'}
# package functions without effects: name -> (operation, number of Go results)
PRIMS={'parser.ParseString':('parseString',2),'parser.ParseFormat':('parseFormat',2),'regexp.MatchString':('matchString',2),'strings.TrimSpace':('trimSpace',1),
 'strings.Trim':('trim',1),'strings.Contains':('contains',1),'strings.Join':('join',1),'strings.Title':('title',1),'filepath.Base':('pathBase',1),
 'edlisp.NewBuffer':('newBuffer',1),'edlisp.NewDefaultEnvironment':('newEnv',1),'edlisp.Equal':('equal',1),'mcp.NewToolResultError':('toolError',1),'mcp.NewToolResultText':('toolText',1)}
SIG={}     # Go name -> (lean name, params [(name,type)], results [type])
STRUCT={}  # struct name -> fields
def load_structs():
    for f in (T,C):
        for m in re.finditer(r'^type (\w+) struct \{\n(.*?)^\}',open(REPO+f).read(),re.M|re.S):
            STRUCT[m.group(1)]=[re.match(r'\t(\w+) +([^ ]+)(?: +`(.*)`)?$',l).groups() for l in m.group(2).strip('\n').split('\n')]
    tag=lambda n,t:('xml:"%s"'%n.lower())
    assert STRUCT['TestCase']==[(n,t,tag(n,t)) for n,t in (('Buffer','string'),('Input','Input'),('Output','string'),('Result','Result'),('Error','Error'))]
    for n in('Input','Result','Error'): assert STRUCT[n]==[('Lang','string','xml:"lang,attr"'),('Text','string','xml:",chardata"')]
    assert STRUCT['TestResult']==[('Name','string',None),('Passed','bool',None),('Error','error',None),('Expected','string',None),('Actual','string',None)]
HOOK=[]
class P:
    def __init__(s,toks,fname):
        s.t=toks;s.i=0;s.scopes=[{}];s.used=set();s.ty={};s.fname=fname;s.pre=[];s.tmp=0;s.insw=0
    def peek(s,k=0): return s.t[s.i+k] if s.i+k<len(s.t) else ('eof','')
    def next(s): x=s.peek(); s.i+=1; return x
    def at(s,*vs): return all(s.peek(k)[1]==v for k,v in enumerate(vs))
    def die(s,msg): raise SystemExit('%s: %s near %s'%(s.fname,msg,' '.join(x[1] for x in s.t[max(0,s.i-8):s.i+6])))
    def eat(s,*vs):
        for v in vs:
            if not s.at(v): s.die('expected '+v)
            s.i+=1
    def nls(s):
        while s.peek()[0]=='nl' or s.at(';'): s.i+=1
    def declare(s,x,ty=None):
        if x=='_': return 'blank'
        if x in s.scopes[-1]: return s.scopes[-1][x]
        u=x;k=2
        while u in s.used: u='%s%d'%(x,k); k+=1
        s.used.add(u); s.scopes[-1][x]=u
        if ty: s.ty[u]=ty
        return u
    def look(s,x):
        if x=='_': return 'blank'
        for sc in reversed(s.scopes):
            if x in sc: return sc[x]
        return None
    def var(s,x):
        u=s.look(x)
        if u is None: s.die('unknown name '+x)
        return '(.var %s)'%vn(u)
    def temp(s):
        s.tmp+=1; return 'tmp%d'%s.tmp
    def typ(s):
        v=s.next()[1]
        if v=='*': return '*'+s.typ()
        if v=='[': s.eat(']'); return '[]'+s.typ()
        if v=='map': s.eat('[','string',']'); return 'map[string]'+s.typ()
        if s.at('.') : s.eat('.'); v=v+'.'+s.next()[1]
        return v
    def ztype(s,t): return t.replace('edlisp.','').replace('testing.','')
    # several results or effects: hoisted, the results in temporary variables
    def hoist(s,kind,arg,nres,extra=()):
        ts=[s.temp() for _ in range(nres)]
        s.pre.append([kind,ts,list(extra),arg]); return ts
    def render(s,p):
        if isinstance(p,str): return p
        kind,ts,extra,arg=p
        if kind=='callFn': return '(.callFn %s .%s %s)'%(es([vn(x) for x in ts]),arg[0],cons(arg[1]))
        if kind in('setMany','openFile','readAll'): return '(.%s %s %s)'%(kind,es([vn(x) for x in ts]),arg)
        if kind=='unmarshal': return '(.unmarshal %s %s %s)'%(vn(extra[0]),vn(ts[0]),arg)
        if kind=='evalTrace': return '(.evalTrace %s %s %s %s %s %s)'%(vn(ts[0]),vn(ts[1]),arg[0],arg[1],vn(extra[0]),arg[2])
        s.die(kind)
    def flush(s,l):
        p=[s.render(x) for x in s.pre]; s.pre=[]; return p+l
    def expr(s,p=1):
        a=s.unary()
        while s.peek()[1] in PREC and PREC[s.peek()[1]]>=p:
            o=s.next()[1]; n=len(s.pre)
            b=s.one(PREC[o]+1)
            if o in('&&','||') and len(s.pre)>n: s.die('a call behind '+o)
            a='(.bin .%s %s %s)'%(OPS[o],s.single(a),b)
        return a
    def single(s,e):
        if isinstance(e,list):
            if len(e)!=1: s.die('many results')
            return '(.var %s)'%vn(e[0])
        return e
    def one(s,p=1): return s.single(s.expr(p))
    def unary(s):
        if s.at('!'):
            s.next(); return '(.not %s)'%s.single(s.unary())
        return s.postfix(s.primary())
    def args(s):
        s.eat('('); a=[]; s.nls()
        while not s.at(')'):
            a.append(s.one())
            if s.at(','): s.next()
            s.nls()
        s.eat(')'); return a
    def struct(s,t):
        """the values of the fields in the order of the declaration"""
        s.eat('{'); s.nls(); f={}
        while not s.at('}'):
            k=s.next()[1]; s.eat(':')
            if k in f: s.die('field twice')
            f[k]=s.one()
            if s.at(','): s.next()
            s.nls()
        s.eat('}')
        for k in f:
            if k not in [x[0] for x in STRUCT[t]]: s.die('field '+k)
        return [f.get(x[0]) or ZERO[s.ztype(x[1])] for x in STRUCT[t]]
    def pieces(s,f,a):
        out=[]
        for x in re.split(r'(%[a-zA-Z])',f):
            if x.startswith('%'):
                if not a: s.die('verb without operand')
                e=a.pop(0); v=re.match(r'\(\.var \.(\w+)\)$',e)
                if x=='%v' and v and s.ztype(s.ty.get(v.group(1),''))=='Value': out.append(prim('verb',e))
                elif x in('%s','%w','%v'): out.append(e)
                elif x=='%d': out.append(prim('decimal',e))
                elif x=='%q': out.append(prim('quote',e))
                elif x=='%g': out.append(prim('fmtG',e))
                else: s.die('verb '+x)
            elif x: assert '%' not in x; out.append(S(x))
        if a: s.die('operands left')
        return out
    def fmtargs(s):
        s.eat('(')
        fm=goString(s.next()[1]); a=[]
        while s.at(','): s.next(); a.append(s.one())
        s.eat(')'); return s.pieces(fm,a)
    def callfn(s,go):
        lean,params,results=SIG[go]; a=[]
        s.eat('('); s.nls()
        for n,t in params:
            if t=='context.Context': s.die('context')
            if t=='io.Reader': a.append(s.one())
            else: a.append(s.one())
            if s.at(','): s.next()
            s.nls()
        s.eat(')')
        return s.hoist('callFn',(lean,a),len(results))
    def primary(s):
        k,v=s.next()
        if k=='num': return '(.int %s)'%v
        if k=='str': return S(goString(v))
        if v=='(': e=s.one(); s.eat(')'); return e
        if v=='[':
            t='[]'+s.typ_after()
            if t=='[]byte': s.eat('('); e=s.one(); s.eat(')'); return e
            s.eat('{','}'); return ZERO[s.ztype(t)]
        if v=='nil': return '.nil'
        if v in('true','false'): return '(.bool %s)'%v
        if v=='len': a=s.args(); return prim('len',*a)
        if v=='append': a=s.args(); assert len(a)==2; return prim('append',*a)
        if v=='string': a=s.args(); assert len(a)==1; return a[0]
        if v in('int','float64'): a=s.args(); assert len(a)==1; return prim(v,*a)
        if v=='make':
            s.eat('('); t=s.ztype(s.typ())
            if s.at(','):
                s.eat(',','0')
                if s.at(','): s.eat(','); s.one()   # the capacity has no effect
            s.eat(')'); return ZERO[t]
        if v=='func':
            assert s.fname=='createTraceCallback' and not HOOK
            s.eat('(','ctx','*','edlisp','.','TraceContext',')')
            q=P(s.t[s.i:],'the callback of createTraceCallback'); q.results=[]; x=q.declare('ctx'); vn(x); b=q.block(1,True); s.i+=q.i; HOOK.append(b)
            return '.hook'
        if v=='&':
            t=s.next()[1]
            if t=='TestResult': return prim('newTestResult',*s.struct(t))
            if t=='TestCase': return prim('newTestCase',*s.struct(t))
            s.die('& '+t)
        u=s.look(v)
        if u is None and s.at('.'):
            q=v+'.'+s.peek(1)[1]
            if q in PRIMS:
                s.i+=2; a=s.args(); op,n=PRIMS[q]
                return prim(op,*a) if n==1 else s.hoist('setMany',prim(op,*a),n)
            if q=='filepath.Glob': s.i+=2; s.eat('(','"tests/*.xml"',')'); return s.hoist('setMany','.glob',2)
            if q=='os.Open': s.i+=2; a=s.args(); return s.hoist('openFile',a[0],2)
            if q=='io.ReadAll': s.i+=2; a=s.args(); return s.hoist('readAll',a[0],2)
            if q=='xml.Unmarshal':
                s.i+=2; s.eat('('); e=s.one(); s.eat(',','&'); w=s.look(s.next()[1]); s.eat(')'); assert s.ty[w]=='wrapper'
                return s.hoist('unmarshal',e,1,[w])
            if q=='fmt.Errorf': s.i+=2; return prim('errorf',*s.fmtargs())
            if q=='fmt.Sprintf': s.i+=2; return prim('sprintf',*s.fmtargs())
            if q=='edlisp.EvalWithTrace':
                s.i+=2; s.eat('('); p=s.one(); s.eat(','); e=s.one(); s.eat(','); b=s.look(s.next()[1]); s.eat(','); h=s.one(); s.eat(')')
                return s.hoist('evalTrace',(p,e,h),2,[b])
            if q=='edlisp.IsA':
                s.i+=2; s.eat('('); e=s.one(); s.eat(',','edlisp','.'); k=s.next()[1]; s.eat(')'); return prim('(.isA .%s)'%KINDS[k],e)
            if v in('testing','edlisp') and s.peek(1)[1] in SIG: s.i+=2; return s.callfn(s.peek(-1)[1])
        if k!='id': s.die('primary '+v)
        if u is None:
            if v=='documentationRegistry' and s.fname in [g for l,f,g in FUNCS if f==R]: return '.registry'
            if v in SIG and s.at('('): return s.callfn(v)
            s.die('unknown name '+v)
        ty=s.ty.get(u,'')
        if ty.startswith('args:'):
            s.eat('.'); f=s.next()[1]; return s.var(v+'_'+f)
        return '(.var %s)'%vn(u)
    def typ_after(s):
        s.eat(']'); return s.typ()
    def postfix(s,e):
        while isinstance(e,str):
            m0=re.match(r'\(\.var \.(\w+)\)$',e); ty=s.ty.get(m0.group(1),'') if m0 else ''
            if s.at('['):
                s.next(); l=s.one(); s.eat(']')
                if e=='.registry': return s.hoist('setMany',prim('lookup',e,l),2)
                e=prim('index',e,l)
            elif s.at('.','('):
                s.eat('.','('); t=s.typ(); s.eat(')'); assert t[0]=='*'; e=prim('(.as .%s)'%TYPES[t[1:]],e)
            elif s.at('.'):
                m=s.peek(1)[1]; s.i+=2
                if m=='String': s.eat('(',')'); e=prim('builderString' if ty=='strings.Builder' else 'bufferString',e)
                elif m in('Point','Mark'): s.eat('(',')'); e=prim(m.lower(),e)
                elif m=='Error' and s.at('(',')'): s.eat('(',')'); e=prim('errorText',e)
                elif m=='Len': s.eat('(',')'); e=prim('listLen',e)
                elif m=='Get': e=prim('listGet',e,*s.args())
                elif m in('GetString','GetBool'): assert m0.group(1)=='request'; e=prim(m[0].lower()+m[1:],e,*s.args())
                elif s.at('.') and m+'.'+s.peek(1)[1] in FIELDS: e=prim('(.field .%s)'%FIELDS[m+'.'+s.peek(1)[1]],e); s.i+=2
                elif m in FIELDS: e=prim('(.field .%s)'%FIELDS[m],e)
                else: s.die('method '+m)
            else: return e
        return e
    def seq(s,l,ind):
        if not l: return '.skip'
        if len(l)==1: return l[0]
        pad='\n'+'  '*ind
        return '('+(' <|'+pad).join('.seq '+x for x in l[:-1])+' <|'+pad+l[-1]+')'
    def block(s,ind,void=False):
        s.eat('{'); s.scopes.append({}); out=s.stmts(ind,lambda: s.at('}')); s.eat('}'); s.scopes.pop()
        return s.seq(out+(['(.ret .nil)'] if void else []),ind)
    def stmts(s,ind,stop):
        out=[]; s.nls()
        while not stop(): out+=s.stmt(ind); s.nls()
        return out
    def simple(s,ind):
        k,v=s.peek()
        if k!='id': s.die('statement')
        if s.at('fmt','.','Printf'):
            s.i+=3; p=s.fmtargs(); return s.flush(['(.print %s)'%prim('sprintf',*p)])
        if s.at('fmt','.','Println','(',')'): s.i+=5; return ['(.print %s)'%S('\\n')]
        if s.at('fmt','.','Println','('): s.i+=4; t=goString(s.next()[1]); s.eat(')'); return ['(.print %s)'%S(t+'\\n')]
        if s.at('os','.','Exit'): s.i+=3; a=s.args(); return s.flush(['(.exit %s)'%a[0]])
        if s.at('registryMutex'):
            lock=s.peek(2)[1]; assert lock==('Lock' if s.fname=='RegisterDocumentation' else 'RLock')
            s.eat('registryMutex','.',lock,'(',')','\n','defer','registryMutex','.',lock.replace('Lock','Unlock'),'(',')'); return []
        if s.at('defer'): s.eat('defer','file','.','Close','(',')'); return []
        if s.at('sort','.','Slice'):
            s.eat('sort','.','Slice','('); x=s.next()[1]; s.eat(',','func','(','i',',','j','int',')','bool','{','\n','return',x,'[','i',']','.'); f=s.next()[1]
            s.eat('<',x,'[','j',']','.',f,'\n','}',')'); return ['(.sortDocs %s .%s)'%(vn(s.look(x)),FIELDS[f])]
        if s.at('sort','.','Strings'): s.eat('sort','.','Strings','('); x=s.next()[1]; s.eat(')'); return ['(.sortStrs %s)'%vn(s.look(x))]
        if v=='documentationRegistry':
            s.next(); s.eat('['); a=s.one(); s.eat(']','='); d=s.one(); return s.flush(['(.register %s %s)'%(a,d)])
        u=s.look(v)
        if u and s.at(v,'.','WriteString'):
            s.i+=3; a=s.args(); return s.flush(['(.set %s %s)'%(vn(u),prim('writeString','(.var %s)'%vn(u),a[0]))])
        if u and s.peek(1)[1]=='.' and s.peek(2)[1] in FIELDS and s.peek(3)[1]=='=':
            f=s.peek(2)[1]; s.i+=4; e=s.one(); return s.flush(['(.setField %s .%s %s)'%(vn(u),FIELDS[f],e)])
        if u and s.peek(1)[1]=='[':
            s.i+=2; a=s.one(); s.eat(']','='); e=s.one(); return s.flush(['(.setAt %s %s %s)'%(vn(u),a,e)])
        if u is None and v in SIG and s.peek(1)[1]=='(':
            s.next(); r=s.callfn(v); assert r==[]; return s.flush([])
        xs=[s.next()[1]]
        if s.at('++'): s.next(); x=vn(s.look(xs[0])); return ['(.set %s (.bin .add (.var %s) (.int 1)))'%(x,x)]
        if s.at('+='): s.next(); e=s.one(); x=vn(s.look(xs[0])); return s.flush(['(.set %s (.bin .add (.var %s) %s))'%(x,x,e)])
        while s.at(','): s.next(); xs.append(s.next()[1])
        op=s.next()[1]
        if op not in('=',':='): s.die('assignment')
        e=s.expr()
        if op==':=' and all(x=='_' or x in s.scopes[-1] for x in xs): s.die('nothing new')
        ys=[s.declare(x) if op==':=' else s.look(x) for x in xs]
        if None in ys: s.die('unknown variable')
        if isinstance(e,list):
            if len(e)!=len(ys): s.die('number of results')
            s.pre[-1][1]=ys; s.tmp-=len(e); return s.flush([])   # the call sets the variables itself
        if len(ys)!=1: s.die('one value for many variables')
        return s.flush(['(.set %s %s)'%(vn(ys[0]),e)])
    def stmt(s,ind):
        k,v=s.peek(); pad='\n'+'  '*(ind+1)
        if v=='var':
            s.next(); x=s.next()[1]
            if s.at('struct'):
                s.eat('struct','{','\n','XMLName','xml','.','Name','`xml:"testcase"`','\n')
                for n,t,tag in STRUCT['TestCase']: s.eat(n,t,'`%s`'%tag,'\n')
                s.eat('}'); vn(s.declare(x,'wrapper')); return []
            t=s.ztype(s.typ()); u=s.declare(x,t)
            return ['(.set %s %s)'%(vn(u),ZERO[t])]
        if v=='return':
            s.next(); a=[]
            while s.peek()[0]!='nl':
                e=s.expr()
                if isinstance(e,list): a+=['(.var %s)'%vn(t) for t in e]
                else: a.append(e)
                if s.at(','): s.next()
            if len(a)!=len(s.results): s.die('number of results')
            return s.flush(['(.ret %s)'%cons(a)])
        if v=='continue': s.next(); return ['.cont']
        if v=='break': s.next(); assert not s.insw; return ['.brk']
        if v=='if':
            s.next(); s.scopes.append({}); c=s.one(); pre=s.flush([]); a=s.block(ind+1); b='.skip'
            if s.at('else'):
                s.next(); b=s.seq(s.stmt(ind+1),ind+1) if s.at('if') else s.block(ind+1)
            s.scopes.pop()
            return pre+['(.if_ %s%s%s%s%s)'%(c,pad,a,pad,b)]
        if v=='switch': return s.switch(ind)
        if v=='for':
            s.next(); s.scopes.append({})
            if s.peek(1)[1]==':=' and s.peek(2)[1]!='range':
                init=s.simple(ind); s.eat(';'); c=s.one(); assert not s.pre; s.eat(';'); post=s.simple(ind); b=s.block(ind+1)
                r=init+['(.while %s %s%s%s)'%(c,s.seq(post,ind),pad,b)]
            else:
                i=s.next()[1]; x='_'
                if s.at(','): s.next(); x=s.next()[1]
                s.eat(':=','range'); v=s.peek()[1]; e=s.one(); pre=s.flush([])
                ismap=e=='.registry' or (e=='(.var .%s)'%s.look(v) and s.mapped(s.look(v)))
                i=s.declare(i); x=s.declare(x); b=s.block(ind+1)
                r=pre+['(.%s %s %s %s%s%s)'%('rangeMap' if ismap else 'range',vn(i),vn(x),e,pad,b)]
            s.scopes.pop(); return r
        return s.simple(ind)
    def mapped(s,u): return u in('categoryMap','categorySet')
    def switch(s,ind):
        s.eat('switch','{'); s.nls(); cases=[]; default=None
        stop=lambda: s.at('case') or s.at('default') or s.at('}')
        s.insw+=1
        while not s.at('}'):
            if s.at('default'):
                s.eat('default',':'); s.scopes.append({}); default=s.seq(s.stmts(ind+2,stop),ind+2); s.scopes.pop(); continue
            s.eat('case'); c=s.one(); s.eat(':'); assert not s.pre
            s.scopes.append({}); body=s.stmts(ind+2,stop); s.scopes.pop()
            cases.append((c,s.seq(body,ind+2)))
        s.insw-=1
        s.eat('}'); t=default or '.skip'
        for c,b in reversed(cases): t='(.if_ %s\n%s%s\n%s%s)'%(c,'  '*(ind+1),b,'  '*(ind+1),t)
        return [t]
def header(path,go):
    lines=open(path).read().split('\n')
    i=[k for k,l in enumerate(lines) if re.match(r'func %s\('%go,l)][0]
    j=[k for k in range(i,len(lines)) if lines[k]=='}'][0]
    text='\n'.join(lines[i:j+1]); head=lines[i]
    m=re.match(r'func \w+\((.*?)\) ?(.*)\{$',head); assert m,head
    params=[];pend=[]
    for p in [x.strip() for x in m.group(1).split(',') if x.strip()]:
        w=p.split(' ')
        if len(w)==1: pend.append(w[0])
        else: params+=[(x,w[1]) for x in pend]+[(w[0],w[1])]; pend=[]
    res=m.group(2).strip(); res=[x.strip() for x in res.strip('()').split(',')] if res else []
    return i+1,j+1,params,res,text[len(head)-1:]
load_structs()
H={}
for lean,f,go in FUNCS:
    H[lean]=header(REPO+f,go); SIG[go]=(lean,H[lean][2],H[lean][3])
out=[];vs={}
for lean,f,go in FUNCS:
    a,b,params,res,body=H[lean]
    p=P(tokens(body),go); p.results=res; ps=[]
    for x,t in params:
        if t=='*runTestsArgs':
            p.declare(x,'args:'+t[1:])
            for n,ty,_ in STRUCT[t[1:]]: ps.append(p.declare(x+'_'+n,ty))
        elif t=='context.Context': continue   # not used
        else: ps.append(p.declare(x,t))
    for x in ps: vn(x)
    t=p.block(1,not res); p.nls(); assert p.peek()[0]=='eof'; assert not p.pre
    vs[lean]=ps
    out.append('/-- %s:%d-%d `%s` -/\ndef tg%s : TgS :=\n  %s\n'%('/repo/'+f,a,b,go,lean[0].upper()+lean[1:],t))
assert len(HOOK)==1
out.append('/-- /repo/commands/test.go:170-175 the function that `createTraceCallback` returns -/\ndef tgTraceHook : TgS :=\n  %s\n'%HOOK[0])
vs['traceHook']=['ctx']
names=[x for x,_,_ in FUNCS]+['traceHook']
body=lambda n:'tg'+n[0].upper()+n[1:]
res='import Verif.Model.Tg\n/- GENERATED by tools/go2tg.py from /repo: functions as they are written in Go. Do not edit. -/\nnamespace Texted\n\n'
res+='\n'.join(out)
res+='\n/-- The parameters of the functions (a struct of arguments field by field, in the order of its declaration; without the context, which is not used). -/\ndef TgFn.params : TgFn → List TgVar\n'+'\n'.join('  | .%s => %s'%(n,es([vn(x) for x in vs[n]])) for n in names)+'\n'
res+='\n/-- The bodies of the functions. -/\ndef TgFn.body : TgFn → TgS\n'+'\n'.join('  | .%s => %s'%(n,body(n)) for n in names)+'\n\nend Texted\n'
open(OUT+'TgSource.lean','w').write(res)
vt='import Verif.Model.Basic\n/- GENERATED by tools/go2tg.py: the variables and the names of the functions in Model/TgSource. -/\nnamespace Texted\n\n/-- The variables of the functions in Model/TgSource (/repo/edlisp/testing, commands/test.go, commands/doc.go, tools/texted_doc.go). -/\ninductive TgVar where\n'
vt+='\n'.join('  | '+('«%s»'%x if x in KEYWORDS else x) for x in sorted(VARS))+'\n  deriving DecidableEq\n'
vt+='\n/-- The functions in Model/TgSource. -/\ninductive TgFn where\n'+'\n'.join('  | '+x for x in names)+'\n  deriving DecidableEq\n\nend Texted\n'
open(OUT+'TgVar.lean','w').write(vt)
print(len(out),len(VARS))
