#!/usr/bin/env python3
"""Translates Go functions of /repo that read and write files, print and answer tool calls into terms of the language of
Verif/Model/Fg.lean. Writes lean/Verif/Model/FgVar.lean and FgSource.lean. Everything it does not know makes it stop with an error:
nothing is skipped. A variable that shadows another one gets a name of its own; a parameter that points to a struct of arguments becomes one
parameter for each field."""
import re,os
REPO=os.environ.get('GO2LEAN_REPO','/repo/')
OUT=os.environ.get('GO2LEAN_OUT','/verif/lean/Verif/Model/')
T='texted.go';E='commands/edit.go';C='commands/parse.go';W='edlisp/writer/'
FUNCS=[('IsValidFormat',T,'IsValidFormat'),('ExecuteScript',T,'ExecuteScript'),('ExecuteScriptWithFormat',T,'ExecuteScriptWithFormat'),
 ('readFile',T,'readFile'),('writeFile',T,'writeFile'),('EditFile',T,'EditFile'),('EditFileWithFormat',T,'EditFileWithFormat'),
 ('EditFiles',T,'EditFiles'),('EditFilesWithFormat',T,'EditFilesWithFormat'),
 ('NewWriter',W+'writer.go','NewWriter'),('sexpWrite',W+'sexp.go','SExpWriter.Write'),('sexpWriteValue',W+'sexp.go','SExpWriter.WriteValue'),
 ('shellWrite',W+'shell.go','ShellWriter.Write'),('shellWriteValue',W+'shell.go','ShellWriter.WriteValue'),
 ('jsonWrite',W+'json.go','JSONWriter.Write'),('jsonWriteValue',W+'json.go','JSONWriter.WriteValue'),
 ('processFilesInPlace',E,'processFilesInPlace'),('processSingleFileToStdout',E,'processSingleFileToStdout'),
 ('processSingleFileToOutput',E,'processSingleFileToOutput'),('processFiles',E,'processFiles'),('processStdin',E,'processStdin'),
 ('evaluateExpressionsOnContent',E,'evaluateExpressionsOnContent'),('runExpressions',E,'runExpressions'),('runEdit',E,'runEdit'),
 ('isValidFormat',C,'isValidFormat'),('parseInput',C,'parseInput'),('writeOutput',C,'writeOutput'),('runParse',C,'runParse'),
 ('editFilesWithLoop','tools/edit_file.go','editFilesWithLoop'),('EditFileHandler','tools/edit_file.go','EditFileHandler'),
 ('TextedEvalHandler','tools/texted_eval.go','TextedEvalHandler')]
TOK=re.compile(r'''[ \t\r]+|\n|//[^\n]*|(?P<id>[A-Za-z_][A-Za-z_0-9]*)|(?P<num>\d+)|(?P<str>"(?:\\.|[^"\\])*")|(?P<op>:=|==|!=|<=|>=|&&|\|\||\+\+|--|\+=|[-+*/<>!=(){}\[\].,;:&%])''')
def tokens(text):
    i=0;out=[]
    while i<len(text):
        m=TOK.match(text,i)
        if not m: raise SystemExit('token? '+repr(text[i:i+30]))
        if m.lastgroup: out.append((m.lastgroup,m.group()))
        elif m.group()=='\n': out.append(('nl','\n'))
        i=m.end()
    return out
KEYWORDS={'end','match','at','from','open','in','show','by','fun','let','have','where','if','then','else','do','prefix','instance','rec','mut'}
VARS={'blank'}
def vn(x):
    VARS.add(x)
    return '.'+('«%s»'%x if x in KEYWORDS else x)
def goString(v):
    body=v[1:-1]
    assert not re.search(r'\\[^n"]',body),v   # \n and \" mean the same in Lean
    return body
def S(body): return '(.str (b! "%s"))'%body
PREC={'||':1,'&&':2,'==':3,'!=':3,'<':3,'<=':3,'>':3,'>=':3,'+':4,'-':4}
OPS={'||':'or','&&':'and','==':'eq','!=':'ne','<':'lt','<=':'le','>':'gt','>=':'ge','+':'add','-':'sub'}
def cons(a):
    t='.nil'
    for x in reversed(a): t='(.cons %s %s)'%(x,t)
    return t
def prim(p,*a): return '(.call %s %s)'%(p if p[0]=='(' else '.'+p,cons(a))
def es(l): return '['+', '.join(l)+']'
ZERO={'string':'(.str [])','bool':'(.bool false)','int':'(.int 0)','error':'.nil','[]Value':'.noVals','[]string':'.noStrs','[]EditResult':'.noResults','strings.Builder':'.noText','writer.Format':'(.str [])'}
FIELDS={'Filename':'filename','Success':'success','Error':'error'}
# package functions with several results or effects: name -> (operation, number of Go results)
OPSF={'os.ReadFile':('readFile',2),'os.WriteFile':('writeFile',1),'parser.ParseString':('parseString',2),'parser.ParseJSONString':('parseJSONString',2),
 'parser.ParseReader':('parseReader',2),'parser.ParseJSONReader':('parseJSONReader',2)}
CONSTS={}   # the constants of writer.go
WR={'ShellWriter':'shell','SExpWriter':'sexp','JSONWriter':'json'}
SIG={}     # Go name -> (lean name, params [(name,type)], results [type])
STRUCT={}  # struct name -> fields
def load_structs():
    for f in {E,C}:
        for m in re.finditer(r'^type (\w+) struct \{\n(.*?)^\}',open(REPO+f).read(),re.M|re.S):
            STRUCT[m.group(1)]=[re.match(r'\t(\w+) +(.*)$',l).groups() for l in m.group(2).strip('\n').split('\n')]
    for m in re.finditer(r'^\t(Format\w+) +Format = "(\w*)"$',open(REPO+W+'writer.go').read(),re.M): CONSTS[m.group(1)]=m.group(2)
    assert len(CONSTS)==3
class P:
    def __init__(s,toks,fname):
        s.t=toks;s.i=0;s.scopes=[{}];s.used=set();s.ty={};s.fname=fname;s.pre=[];s.tmp=0;s.wparam=None;s.recv=None;s.enc={}
    def peek(s,k=0): return s.t[s.i+k] if s.i+k<len(s.t) else ('eof','')
    def next(s): x=s.peek(); s.i+=1; return x
    def at(s,*vs): return all(s.peek(k)[1]==v for k,v in enumerate(vs))
    def die(s,msg): raise SystemExit('%s: %s near %s'%(s.fname,msg,' '.join(x[1] for x in s.t[max(0,s.i-8):s.i+6])))
    def eat(s,*vs):
        for v in vs:
            if not s.at(v): s.die('expected '+v)
            s.i+=1
    def nls(s):
        while s.peek()[0]=='nl' or s.at(';'): s.i+=1
    def declare(s,x,ty=None):
        if x=='_': return 'blank'
        if x in s.scopes[-1]: return s.scopes[-1][x]
        u=x;k=2
        while u in s.used: u='%s%d'%(x,k); k+=1
        s.used.add(u); s.scopes[-1][x]=u
        if ty: s.ty[u]=ty
        return u
    def look(s,x):
        if x=='_': return 'blank'
        for sc in reversed(s.scopes):
            if x in sc: return sc[x]
        return None
    def var(s,x):
        u=s.look(x)
        if u is None: s.die('unknown name '+x)
        return '(.var %s)'%vn(u)
    def temp(s):
        s.tmp+=1; return 'tmp%d'%s.tmp
    def typ(s):
        v=s.next()[1]
        if v=='*': return '*'+s.typ()
        if v=='[': s.eat(']'); return '[]'+s.typ()
        if s.at('.'): s.eat('.'); v=v+'.'+s.next()[1]
        return v
    def ztype(s,t): return t.replace('edlisp.','').replace('texted.','')
    # several results: hoisted, the results in temporary variables
    def hoist(s,kind,name,args,nres,extra=()):
        ts=[s.temp() for _ in range(nres)]
        s.pre.append([kind,ts,list(extra),name,args]); return ts
    def render(s,p):
        if isinstance(p,str): return p
        kind,ts,extra,name,args=p
        return '(.%s %s .%s %s)'%(kind,es([vn(x) for x in ts+extra]),name,cons(args))
    def flush(s,l):
        p=[s.render(x) for x in s.pre]; s.pre=[]; return p+l
    def expr(s,p=1):
        a=s.unary()
        while s.peek()[1] in PREC and PREC[s.peek()[1]]>=p:
            o=s.next()[1]; n=len(s.pre)
            b=s.one(PREC[o]+1)
            if o in('&&','||') and len(s.pre)>n: s.die('a call behind '+o)
            a='(.bin .%s %s %s)'%(OPS[o],s.single(a),b)
        return a
    def single(s,e):
        if isinstance(e,list):
            if len(e)!=1: s.die('many results')
            return '(.var %s)'%vn(e[0])
        return e
    def one(s,p=1): return s.single(s.expr(p))
    def unary(s):
        if s.at('!'):
            s.next(); return '(.not %s)'%s.single(s.unary())
        return s.postfix(s.primary())
    def args(s):
        s.eat('('); a=[]; s.nls()
        while not s.at(')'):
            a.append(s.one())
            if s.at(','): s.next()
            s.nls()
        s.eat(')'); return a
    def struct(s):
        """&structArgs{...}: the values of the fields in the order of the declaration"""
        s.eat('&'); t=s.next()[1]; s.eat('{'); s.nls(); f={}
        while not s.at('}'):
            k=s.next()[1]; s.eat(':')
            if k in f: s.die('field twice')
            f[k]=s.one()
            if s.at(','): s.next()
            s.nls()
        s.eat('}')
        for k in f:
            if k not in [n for n,_ in STRUCT[t]]: s.die('field '+k)
        return [f.get(n) or ZERO[s.ztype(ty)] for n,ty in STRUCT[t]]
    def pieces(s,f,a):
        out=[]
        for x in re.split(r'(%[a-zA-Z])',f):
            if x.startswith('%'):
                if not a: s.die('verb without operand')
                e=a.pop(0)
                if x in('%s','%w','%v'): out.append(e)
                elif x=='%d': out.append(prim('decimal',e))
                else: s.die('verb '+x)
            elif x: out.append(S(x))
        if a: s.die('operands left')
        return out
    def fmtargs(s):
        s.eat('('); 
        if s.at(')'): s.next(); return []
        fm=goString(s.next()[1]); a=[]
        while s.at(','): s.next(); a.append(s.one())
        s.eat(')'); return s.pieces(fm,a)
    def wtarget(s):
        """a destination io.Writer: the expression and the variable that holds it"""
        if s.at('&'): s.next(); x=s.next()[1]; u=s.look(x); assert s.ty[u]=='strings.Builder'; return '(.var %s)'%vn(u),u
        if s.at('os','.','Stdout'): s.i+=3; return '.stdout','blank'
        x=s.next()[1]; u=s.look(x); assert u==s.wparam,(s.fname,x); return '(.var %s)'%vn(u),u
    def callfn(s,go,recv=None):
        lean,params,results=SIG[go]; params=params[1:] if recv is not None else params
        a=[recv] if recv is not None else []; extra=[]
        s.eat('('); s.nls()
        for n,t in params:
            if t=='io.Writer': e,u=s.wtarget(); a.append(e); extra.append(u)
            elif t.startswith('*') and t[1:] in STRUCT: a+=s.struct()
            else: a.append(s.one())
            if s.at(','): s.next()
            s.nls()
        s.eat(')')
        return s.hoist('callFn',lean,a,len(results),extra)
    def primary(s):
        k,v=s.next()
        if k=='num': return '(.int %s)'%v
        if k=='str': return S(goString(v))
        if v=='(': e=s.one(); s.eat(')'); return e
        if v=='[':   # []byte(x)
            s.eat(']','byte','('); e=s.one(); s.eat(')'); return e
        if v=='nil': return '.nil'
        if v in('true','false'): return '(.bool %s)'%v
        if v=='len': a=s.args(); return prim('len',*a)
        if v=='append': a=s.args(); assert len(a)==2; return prim('append',*a)
        if v=='string': a=s.args(); assert len(a)==1; return a[0]
        if v=='make':
            s.eat('('); t=s.ztype(s.typ()); s.eat(',','0',','); s.one(); s.eat(')'); return ZERO[t]   # the capacity has no effect
        if v=='EditResult': s.eat('{','Filename',':'); e=s.one(); s.eat('}'); return prim('newEditResult',e)
        if v=='&':
            if s.at('writer','.'): s.eat('writer','.')
            t=s.next()[1]; s.eat('{','}'); return '(.writer .%s)'%WR[t]
        u=s.look(v)
        if u is None and s.at('.'):
            q=v+'.'+s.peek(1)[1]
            if q in OPSF:
                s.i+=2; a=s.args(); op,n=OPSF[q]
                if q=='os.WriteFile':
                    assert a[2] in('(.int 0644)','(.int 420)'),a; a=a[:2]
                return s.hoist('op',op,a,n)
            if q=='io.ReadAll': s.i+=2; s.eat('(','os','.','Stdin',')'); return s.hoist('op','readStdin',[],2)
            if q=='os.Stdin': s.i+=2; return '.stdin'
            if q=='os.Stdout' and s.at('.','Stdout','.','WriteString'): s.i+=4; return s.hoist('op','print',s.args(),2)
            if q=='fmt.Errorf': s.i+=2; return prim('errorf',*s.fmtargs())
            if q=='fmt.Sprintf': s.i+=2; return prim('sprintf',*s.fmtargs())
            if q in('fmt.Fprint','fmt.Fprintln'):
                s.i+=2; s.eat('('); e,u=s.wtarget()
                if q=='fmt.Fprintln': t=S('\\n')
                else:
                    s.eat(','); y=s.peek()[1]; t=s.one()
                    if s.ty.get(s.look(y))!='string': t=prim('sexpText',t)
                s.eat(')'); return s.hoist('op','fprint',[e,t],2,[u])
            if q=='edlisp.NewBuffer': s.i+=2; return prim('newBuffer',*s.args())
            if q=='edlisp.NewDefaultEnvironment': s.i+=2; s.eat('(',')'); return prim('newEnv')
            if q=='edlisp.NewList': s.i+=2; a=s.args(); assert len(a)==1; return prim('newList',*a)
            if q=='edlisp.Eval':
                s.i+=2; s.eat('('); a=[s.one()]; s.eat(','); a.append(s.one()); s.eat(','); b=s.next()[1]; s.eat(')')
                return s.hoist('op','eval',a+[s.var(b)],2,[s.look(b)])
            if v=='writer' and s.peek(1)[1] in CONSTS: s.i+=2; return S(CONSTS[s.peek(-1)[1]])
            if q=='writer.Format': s.i+=2; a=s.args(); assert len(a)==1; return a[0]
            if q=='mcp.NewToolResultError': s.i+=2; return prim('toolError',*s.args())
            if q=='mcp.NewToolResultText': s.i+=2; return prim('toolText',*s.args())
            if v in('texted','writer') and s.peek(1)[1] in SIG: s.i+=2; return s.callfn(s.peek(-1)[1])
        if k!='id': s.die('primary '+v)
        if u is None:
            if v in CONSTS: return S(CONSTS[v])
            if v in SIG and s.at('('): return s.callfn(v)
            s.die('unknown name '+v)
        ty=s.ty.get(u,'')
        if ty.startswith('args:'):
            s.eat('.'); f=s.next()[1]
            if f=='cmd':
                s.eat('.','Flags','(',')','.'); m=s.next()[1]
                return s.hoist('op',{'GetStringSlice':'flagStrings','GetString':'flagString'}[m],[s.var(v+'_cmd')]+s.args(),2)
            return s.var(v+'_'+f)
        return '(.var %s)'%vn(u)
    def postfix(s,e):
        while isinstance(e,str):
            m0=re.match(r'\(\.var \.(\w+)\)$',e); ty=s.ty.get(m0.group(1),'') if m0 else ''
            if s.at('['): s.next(); l=s.one(); s.eat(']'); e=prim('index',e,l)
            elif s.at('.'):
                m=s.peek(1)[1]; s.i+=2
                if m in FIELDS: e=prim('(.field .%s)'%FIELDS[m],e)
                elif m=='String': s.eat('(',')'); e=prim('builderString' if ty=='strings.Builder' else 'bufferString',e)
                elif m in('RequireString','RequireStringSlice'): return s.hoist('op','requireString' if m=='RequireString' else 'requireStrings',[e]+s.args(),2)
                elif m in('GetString','GetBool'): e=prim(m[0].lower()+m[1:],e,*s.args())
                elif m in('valueToShellString','valueToJSON') and m0.group(1)==s.recv: return s.hoist('op',m,s.args(),2)
                elif m in('WriteValue','Write'):
                    if m0.group(1)==s.recv: return s.callfn(s.rtype+'.'+m,e)
                    return s.callfn('any.'+m,e)
                elif m=='Encode':
                    u=s.enc[m0.group(1)]; return s.hoist('op','encode',['(.var %s)'%vn(u)]+s.args(),1,[u])
                else: s.die('method '+m)
            else: return e
        return e
    def seq(s,l,ind):
        if not l: return '.skip'
        if len(l)==1: return l[0]
        pad='\n'+'  '*ind
        return '('+(' <|'+pad).join('.seq '+x for x in l[:-1])+' <|'+pad+l[-1]+')'
    def block(s,ind):
        s.eat('{'); s.scopes.append({}); out=s.stmts(ind,lambda: s.at('}')); s.eat('}'); s.scopes.pop()
        return s.seq(out,ind)
    def stmts(s,ind,stop):
        out=[]; s.nls()
        while not stop(): out+=s.stmt(ind); s.nls()
        return out
    def simple(s,ind):
        k,v=s.peek()
        if k!='id': s.die('statement')
        if s.at('fmt','.','Printf'):
            s.i+=3; p=s.fmtargs(); return s.flush(['(.op [.blank, .blank] .print (.cons %s .nil))'%prim('sprintf',*p)])
        if s.at('fmt','.','Println','(',')'): s.i+=5; return ['(.op [.blank, .blank] .print (.cons %s .nil))'%S('\\n')]
        u=s.look(v)
        if u and s.ty.get(u,'').startswith('args:') and s.peek(3)[1]=='=':
            f=s.peek(2)[1]; s.i+=4; e=s.one(); return s.flush(['(.set %s %s)'%(vn(s.look(v+'_'+f)),e)])
        if u and s.peek(1)[1]=='.' and s.peek(2)[1] in FIELDS and s.peek(3)[1]=='=':
            f=s.peek(2)[1]; s.i+=4; e=s.one(); return s.flush(['(.setField %s .%s %s)'%(vn(u),FIELDS[f],e)])
        xs=[s.next()[1]]
        if s.at('++'): s.next(); x=vn(s.look(xs[0])); return ['(.set %s (.bin .add (.var %s) (.int 1)))'%(x,x)]
        if s.at('+='): s.next(); e=s.one(); x=vn(s.look(xs[0])); return s.flush(['(.set %s (.bin .add (.var %s) %s))'%(x,x,e)])
        while s.at(','): s.next(); xs.append(s.next()[1])
        op=s.next()[1]
        if op not in('=',':='): s.die('assignment')
        if len(xs)==1 and s.at('json','.','NewEncoder'):
            s.eat('json','.','NewEncoder','('); e,w=s.wtarget(); s.eat(')'); x=s.declare(xs[0]); s.enc[x]=w
            return ['(.set %s .nil)'%vn(x)]   # an encoder has no state of its own
        e=s.expr()
        if op==':=' and all(x=='_' or x in s.scopes[-1] for x in xs): s.die('nothing new')
        ys=[s.declare(x) if op==':=' else s.look(x) for x in xs]
        if None in ys: s.die('unknown variable')
        if isinstance(e,list):
            if len(e)!=len(ys): s.die('number of results')
            s.pre[-1][1]=ys; s.tmp-=len(e); return s.flush([])   # the call sets the variables itself
        if len(ys)!=1: s.die('one value for many variables')
        return s.flush(['(.set %s %s)'%(vn(ys[0]),e)])
    def cond(s,ind):
        j=s.i; d=0; semi=False
        while not(s.t[j][1]=='{' and d==0):
            if s.t[j][1] in '([': d+=1
            if s.t[j][1] in ')]': d-=1
            semi|=s.t[j][1]==';'; j+=1
        init=[]
        if semi: init=s.simple(ind); s.eat(';')
        c=s.one(); return init+s.flush([]),c
    def stmt(s,ind):
        k,v=s.peek(); pad='\n'+'  '*(ind+1)
        if v=='var':
            s.next(); x=s.next()[1]; t=s.ztype(s.typ()); u=s.declare(x,t)
            return ['(.set %s %s)'%(vn(u),ZERO[t])]
        if v=='return':
            s.next(); a=[]
            while s.peek()[0]!='nl':
                e=s.expr()
                if isinstance(e,list): a+=['(.var %s)'%vn(t) for t in e]
                else: a.append(e)
                if s.at(','): s.next()
            if len(a)!=len(s.results): s.die('number of results')
            a=['.noVals' if e=='.nil' and s.ztype(t)=='[]Value' else e for e,t in zip(a,s.results)]
            if s.wparam: a.append('(.var %s)'%vn(s.wparam))
            return s.flush(['(.ret %s)'%cons(a)])
        if v=='continue': s.next(); return ['.cont']
        if v=='break': s.next(); assert not s.insw; return ['.brk']
        if v=='if':
            s.next(); s.scopes.append({}); pre,c=s.cond(ind); a=s.block(ind+1); b='.skip'
            if s.at('else'):
                s.next(); b=s.seq(s.stmt(ind+1),ind+1) if s.at('if') else s.block(ind+1)
            s.scopes.pop()
            return pre+['(.if_ %s%s%s%s%s)'%(c,pad,a,pad,b)]
        if v=='switch': return s.switch(ind)
        if v=='for':
            s.next(); s.scopes.append({})
            if s.at('{'): b=s.block(ind+1); r=['(.forever%s%s)'%(pad,b)]
            else:
                i=s.next()[1]; s.eat(','); x=s.next()[1]; s.eat(':=','range'); e=s.one(); pre=s.flush([])
                i=s.declare(i); x=s.declare(x); b=s.block(ind+1)
                r=pre+['(.range %s %s %s%s%s)'%(vn(i),vn(x),e,pad,b)]
            s.scopes.pop(); return r
        return s.simple(ind)
    insw=False
    def switch(s,ind):
        s.eat('switch'); subj=s.one(); pre=s.flush([]); s.eat('{'); s.nls(); cases=[]; default=None
        stop=lambda: s.at('case') or s.at('default') or s.at('}')
        s.insw=True
        while not s.at('}'):
            if s.at('default'):
                s.eat('default',':'); s.scopes.append({}); default=s.seq(s.stmts(ind+2,stop),ind+2); s.scopes.pop(); continue
            s.eat('case'); alts=[]
            while not s.at(':'):
                alts.append(s.one())
                if s.at(','): s.next()
            s.eat(':'); assert not s.pre
            s.scopes.append({}); body=s.stmts(ind+2,stop); s.scopes.pop()
            c='(.bin .eq %s %s)'%(subj,alts[0])
            for a in alts[1:]: c='(.bin .or %s (.bin .eq %s %s))'%(c,subj,a)
            cases.append((c,s.seq(body,ind+2)))
        s.insw=False
        s.eat('}'); t=default or '.skip'
        for c,b in reversed(cases): t='(.if_ %s\n%s%s\n%s%s)'%(c,'  '*(ind+1),b,'  '*(ind+1),t)
        return pre+[t]
def header(path,go):
    lines=open(path).read().split('\n')
    if '.' in go: r,m=go.split('.'); pat=r'func \((\w+) \*%s\) %s\('%(r,m)
    else: pat=r'func %s\('%go
    i=[k for k,l in enumerate(lines) if re.match(pat,l)][0]
    j=[k for k in range(i,len(lines)) if lines[k]=='}'][0]
    text='\n'.join(lines[i:j+1]); head=lines[i]
    m=re.match(r'func (?:\((\w+) \*(\w+)\) )?\w+\((.*?)\) ?(.*)\{$',head); assert m,head
    params=[];pend=[]
    if m.group(1): params.append((m.group(1),'*'+m.group(2)))
    for p in [x.strip() for x in m.group(3).split(',') if x.strip()]:
        w=p.split(' ')
        if len(w)==1: pend.append(w[0])
        else: params+=[(x,w[1]) for x in pend]+[(w[0],w[1])]; pend=[]
    res=m.group(4).strip(); res=[x.strip() for x in res.strip('()').split(',')] if res else []
    return i+1,j+1,params,res,text[len(head)-1:]
load_structs()
H={}
for lean,f,go in FUNCS:
    H[lean]=header(REPO+f,go); SIG[go]=(lean,H[lean][2],H[lean][3])
SIG['any.Write']=('anyWrite',SIG['SExpWriter.Write'][1],['error']); SIG['any.WriteValue']=('anyWriteValue',SIG['SExpWriter.WriteValue'][1],['error'])
out=[];vs={}
for lean,f,go in FUNCS:
    a,b,params,res,body=H[lean]
    p=P(tokens(body),go); p.results=res; ps=[]
    for x,t in params:
        if t.startswith('*') and t[1:] in STRUCT:
            p.declare(x,'args:'+t[1:])
            for n,ty in STRUCT[t[1:]]: ps.append(p.declare(x+'_'+n,ty))
        else:
            u=p.declare(x,t); ps.append(u)
            if t=='io.Writer': p.wparam=u
            if t[1:] in WR: p.recv=u; p.rtype=t[1:]
    # strings that Fprint prints as they are
    if lean=='shellWriteValue': p.ty['shellStr']='string'
    for x in ps: vn(x)
    t=p.block(1); p.nls(); assert p.peek()[0]=='eof'; assert not p.pre
    vs[lean]=ps
    out.append('/-- %s:%d-%d `%s` -/\ndef fg%s : FgS :=\n  %s\n'%('/repo/'+f,a,b,go,lean[0].upper()+lean[1:] if lean!='isValidFormat' else 'IsValidFormatOfParse',t))
for m in('Write','WriteValue'):
    x='value' if m=='WriteValue' else 'expressions'
    call=lambda k:'(.seq (.callFn [.tmp1, .writer] .%s%s (.cons (.var .w) (.cons (.var .writer) (.cons (.var .%s) .nil)))) (.ret (.cons (.var .tmp1) (.cons (.var .writer) .nil))))'%(k,m,x)
    out.append('/-- A call of the method `%s` of a `writer.Writer` (/repo/edlisp/writer/writer.go:11-14): the method of the type it has. -/\ndef fgAny%s : FgS :=\n  (.if_ (.call (.isWriter .shell) (.cons (.var .w) .nil))\n    %s\n    (.if_ (.call (.isWriter .sexp) (.cons (.var .w) .nil))\n    %s\n    %s))\n'%(m,m,call('shell'),call('sexp'),call('json')))
    vs['any'+m]=['w','writer',x]; vn('w'); vn('writer'); vn(x); vn('tmp1')
names=[x for x,_,_ in FUNCS]+['anyWrite','anyWriteValue']
body=lambda n:'fg'+(n[0].upper()+n[1:] if n!='isValidFormat' else 'IsValidFormatOfParse')
res='import Verif.Model.Fg\n/- GENERATED by tools/go2fg.py from /repo: functions as they are written in Go. Do not edit. -/\nnamespace Texted\n\n'
res+='\n'.join(out)
res+='\n/-- The parameters of the functions (a struct of arguments field by field, in the order of its declaration). -/\ndef FgFn.params : FgFn → List FgVar\n'+'\n'.join('  | .%s => %s'%(n,es([vn(x) for x in vs[n]])) for n in names)+'\n'
res+='\n/-- The bodies of the functions. -/\ndef FgFn.body : FgFn → FgS\n'+'\n'.join('  | .%s => %s'%(n,body(n)) for n in names)+'\n\nend Texted\n'
open(OUT+'FgSource.lean','w').write(res)
vt='import Verif.Model.Basic\n/- GENERATED by tools/go2fg.py: the variables and the names of the functions in Model/FgSource. -/\nnamespace Texted\n\n/-- The variables of the functions in Model/FgSource (/repo/texted.go, commands, edlisp/writer, tools). -/\ninductive FgVar where\n'
vt+='\n'.join('  | '+('«%s»'%x if x in KEYWORDS else x) for x in sorted(VARS))+'\n  deriving DecidableEq\n'
vt+='\n/-- The functions in Model/FgSource. -/\ninductive FgFn where\n'+'\n'.join('  | '+x for x in names)+'\n  deriving DecidableEq\n\nend Texted\n'
open(OUT+'FgVar.lean','w').write(vt)
print(len(out),len(VARS))
