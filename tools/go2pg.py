#!/usr/bin/env python3
"""Translates Go functions of /repo that call each other (parser, evaluator, comparison, writers) into terms of the language of
Verif/Model/Pg.lean. Writes lean/Verif/Model/PgVar.lean and PgSource.lean. Everything it does not know makes it stop with an error:
nothing is skipped. A variable that shadows another one gets a name of its own."""
import re,os
REPO=os.environ.get('GO2LEAN_REPO','/repo/')
OUT=os.environ.get('GO2LEAN_OUT','/verif/lean/Verif/Model/')
# Lean name, file, Go name (with receiver type if it is a method)
FUNCS=[('ParseReader','edlisp/parser/linebased.go','ParseReader'),('ParseString','edlisp/parser/linebased.go','ParseString'),
 ('ParseSexp','edlisp/parser/linebased.go','ParseSexp'),('ParseFormat','edlisp/parser/linebased.go','ParseFormat'),('parseLine','edlisp/parser/linebased.go','parseLine'),
 ('parseSExpression','edlisp/parser/linebased.go','parseSExpression'),('parseShellLike','edlisp/parser/linebased.go','parseShellLike'),
 ('tokenize','edlisp/parser/linebased.go','tokenize'),('parseTokens','edlisp/parser/linebased.go','parseTokens'),('parseList','edlisp/parser/linebased.go','parseList'),
 ('splitOnSemicolons','edlisp/parser/linebased.go','splitOnSemicolons'),('parseToken','edlisp/parser/linebased.go','parseToken'),
 ('ParseJSONString','edlisp/parser/json.go','ParseJSONString'),('convertJSONValue','edlisp/parser/json.go','convertJSONValue'),
 ('convertJSONArray','edlisp/parser/json.go','convertJSONArray'),('convertJSONItem','edlisp/parser/json.go','convertJSONItem'),
 ('ValidateJSONFormat','edlisp/parser/json.go','ValidateJSONFormat'),('validateJSONValue','edlisp/parser/json.go','validateJSONValue'),
 ('Eval','edlisp/eval.go','Eval'),('EvalWithTrace','edlisp/eval.go','EvalWithTrace'),('evalExpression','edlisp/eval.go','evalExpression'),
 ('NewExecutionError','edlisp/error.go','NewExecutionError'),('errorMessage','edlisp/error.go','ExecutionError.Error'),('Equal','edlisp/equal.go','Equal'),
 ('listString','edlisp/list.go','List.String'),('listLen','edlisp/list.go','List.Len'),('listIsEmpty','edlisp/list.go','List.IsEmpty'),('listGet','edlisp/list.go','List.Get'),
 ('numberString','edlisp/number.go','Number.String'),('symbolString','edlisp/symbol.go','Symbol.String'),('stringString','edlisp/string.go','String.String'),
 ('valueToJSON','edlisp/writer/json.go','JSONWriter.valueToJSON'),('valueToShellString','edlisp/writer/shell.go','ShellWriter.valueToShellString'),
 ('valueToToken','edlisp/writer/shell.go','ShellWriter.valueToToken')]
TOK=re.compile(r'''[ \t\r]+|\n|//[^\n]*|(?P<id>[A-Za-z_][A-Za-z_0-9]*)|(?P<num>\d+)|(?P<str>"(?:\\.|[^"\\])*"|`[^`]*`)|(?P<chr>'(?:\\.|[^'\\])')|(?P<op>:=|==|!=|<=|>=|&&|\|\||\+\+|--|\+=|\.\.\.|[-+*/<>!=(){}\[\].,;:&%])''')
def tokens(text):
    i=0;out=[]
    while i<len(text):
        m=TOK.match(text,i)
        if not m: raise SystemExit('token? '+repr(text[i:i+30]))
        if m.lastgroup: out.append((m.lastgroup,m.group()))
        elif m.group()=='\n': out.append(('nl','\n'))
        i=m.end()
    return out
KEYWORDS={'end','match','at','from','open','in','show','by','fun','let','have','where','if','then','else','do','prefix','instance','rec','mut'}
VARS=set()
def vn(x):
    VARS.add(x)
    return '.'+('«%s»'%x if x in KEYWORDS else x)
def leanstr(s):
    return '(b! "%s")'%s.replace('\\','\\\\').replace('"','\\"')
def goString(v):
    if v[0]=='`': return v[1:-1]
    body=v[1:-1]
    assert '\\' not in body.replace('\\"',''),v
    return body.replace('\\"','"')
CHARS={'\\n':'\\n','\\t':'\\t','\\r':'\\r','\\\\':'\\\\','"':'\\"'}
PREC={'||':1,'&&':2,'==':3,'!=':3,'<':3,'<=':3,'>':3,'>=':3,'+':4,'-':4}
OPS={'||':'or','&&':'and','==':'eq','!=':'ne','<':'lt','<=':'le','>':'gt','>=':'ge','+':'add','-':'sub'}
KINDS={'TheNumberKind':'number','TheStringKind':'string','TheSymbolKind':'symbol','TheListKind':'list'}
PTR={'Number':'number','String':'string','Symbol':'symbol','List':'list'}
PKG={'strings.HasPrefix':'hasPrefix','strings.HasSuffix':'hasSuffix','strings.TrimSpace':'trimSpace','strings.Join':'join','strings.NewReader':'newReader',
 'bufio.NewScanner':'newScanner','strconv.Unquote':'unquote','strconv.Quote':'quote','reflect.ValueOf':'reflectValueOf'}
XF={'OriginalError':'error','CurrentInstruction':'instruction','InstructionIndex':'index','Point':'point','Mark':'mark'}
BUFF={'lastSearchMatch':'lastMatch','lastSearchStart':'lastStart','lastSearchEnd':'lastEnd'}
CTX=['OriginalError','Program','CurrentInstruction','InstructionIndex','BufferContents','Point','Mark','LastSearchMatch','LastSearchStart','LastSearchEnd','Environment']
def es(l): return '['+', '.join(l)+']'
def prim(p,*a):
    t='.nil'
    for x in reversed(a): t='(.cons %s %s)'%(x,t)
    return '(.call %s %s)'%('(.'+p[1:] if p[0]=='(' else '.'+p,t)
SIG={}   # Go name -> (lean name, params [(name,type)], results [type])
class P:
    def __init__(s,toks,fname):
        s.t=toks;s.i=0;s.scopes=[{}];s.used=set();s.ty={};s.fname=fname;s.pre=[];s.tmp=0
    def peek(s,k=0): return s.t[s.i+k] if s.i+k<len(s.t) else ('eof','')
    def next(s): x=s.peek(); s.i+=1; return x
    def at(s,*vs): return all(s.peek(k)[1]==v for k,v in enumerate(vs))
    def eat(s,*vs):
        for v in vs:
            if not s.at(v): raise SystemExit('%s: expected %s, got %s near %s'%(s.fname,v,s.peek(),s.t[max(0,s.i-8):s.i+5]))
            s.i+=1
    def nls(s):
        while s.peek()[0]=='nl' or s.at(';'): s.i+=1
    # variables
    def declare(s,x,ty=None):
        if x=='_': return '_'
        if x in s.scopes[-1]: return s.scopes[-1][x]
        u=x;k=2
        while u in s.used: u='%s%d'%(x,k); k+=1
        s.used.add(u); s.scopes[-1][x]=u
        if ty: s.ty[u]=ty
        return u
    def look(s,x):
        for sc in reversed(s.scopes):
            if x in sc: return sc[x]
        return None
    def temp(s):
        s.tmp+=1; return 'tmp%d'%s.tmp
    # types
    def typ(s):
        v=s.next()[1]
        if v=='*': return '*'+s.typ()
        if v=='[': s.eat(']'); return '[]'+s.typ()
        if v=='interface': s.eat('{','}'); return 'interface{}'
        if s.at('.'): s.eat('.'); return v+'.'+s.next()[1]
        return v
    def kind(s,ty):
        ty=ty.replace('edlisp.','')
        return {'[]interface{}':'array','string':'goString','float64':'float','bool':'bool','nil':'null','*List':'list','*Symbol':'symbol','*String':'string','*Number':'number'}[ty]
    # expressions
    def expr(s,p=1):
        a=s.unary()
        while s.peek()[1] in PREC and PREC[s.peek()[1]]>=p:
            o=s.next()[1]; n=len(s.pre)
            b=s.expr(PREC[o]+1)
            if o in('&&','||') and len(s.pre)>n: raise SystemExit(s.fname+': a call behind '+o)
            a='(.bin .%s %s %s)'%(OPS[o],a,b)
        return a
    def unary(s):
        if s.at('!'): s.next(); return '(.not %s)'%s.unary()
        if s.at('-'): s.next(); k,v=s.next(); assert k=='num'; return '(.int (-%s))'%v
        if s.at('&'):
            s.next()
            if s.at('edlisp'): s.eat('edlisp','.')
            t=s.next()[1]; s.eat('{'); f={}
            s.nls()
            while not s.at('}'):
                k=s.next()[1]; s.eat(':'); f[k]=s.expr()
                if s.at(','): s.next()
                s.nls()
            s.eat('}')
            if t=='List': assert list(f)==['Elements']; return prim('newList',f['Elements'])
            if t=='String': assert list(f)==['Value']; return prim('newString',f['Value'])
            if t=='Number': assert list(f)==['Value']; return prim('newNumber',f['Value'])
            if t=='Symbol': assert list(f)==['Name']; return prim('newSymbol',f['Name'])
            if t=='ExecutionError':
                assert set(f)==set(CTX) and f['Environment']=='(.var .env)',f
                return prim('executionError',*[f[x] for x in CTX[:-1]])
            raise SystemExit('composite '+t)
        return s.postfix(s.primary())
    def args(s):
        s.eat('('); a=[]
        s.nls()
        while not s.at(')'):
            a.append(s.expr())
            if s.at(','): s.next()
            s.nls()
        s.eat(')'); return a
    def fmt(s,f,a):
        """the pieces of a format"""
        parts=re.split(r'(%(?:\.0)?[a-zA-Z])',f); out=[]
        for x in parts:
            if x.startswith('%'):
                e=a.pop(0)
                if x in('%s','%w'): out.append(e)
                elif x=='%q': out.append(prim('quote',e))
                elif x=='%d': out.append(prim('decimal',e))
                elif x=='%T': out.append(prim('typeName',e))
                elif x=='%v': out.append(prim('verb',e))
                elif x=='%g': out.append(prim('fmtG',e))
                elif x=='%.0f': out.append(prim('fmtF0',e))
                else: raise SystemExit('verb '+x)
            elif x: out.append('(.str %s)'%leanstr(x))
        assert not a,f
        return out
    def call(s,fn,args):
        lean,params,results=SIG[fn]
        assert len(args)==len(params),(fn,args)
        ts=[s.temp() for _ in results]
        s.pre.append('(.callFn %s .%s %s)'%(es([vn(t) for t in ts]),lean,arglist(args)))
        return ts
    def primary(s):
        k,v=s.next()
        if k=='num': return '(.int %s)'%v
        if k=='str': return '(.str %s)'%leanstr(goString(v))
        if k=='chr':
            c=v[1:-1]; return "(.rune '%s')"%CHARS.get(c,c)
        if v=='(': e=s.expr(); s.eat(')'); return e
        if v=='[':
            s.i-=1; t=s.typ().replace('edlisp.',''); assert t=='[]Value',t
            s.eat('{')
            if s.at('}'): s.next(); return '.noVals'
            e=s.expr(); s.eat('}'); return prim('append','.noVals',e)
        if v=='nil': return '.nil'
        if v in('true','false'): return '(.bool %s)'%v
        if v=='len': a=s.args(); return prim('len',*a)
        if v=='append': a=s.args(); assert len(a)==2; return prim('append',*a)
        if v=='string': a=s.args(); return prim('runeString',*a)
        if v=='int': a=s.args(); return prim('int',*a)
        if v=='float64': a=s.args(); return prim('float64',*a)
        if v=='make':
            s.eat('('); t=s.typ(); s.eat(','); a=[s.expr()]
            if s.at(','): s.next(); a.append(s.expr())
            s.eat(')')
            if t=='[]Value': assert len(a)==1; return prim('make',a[0])
            assert t=='[]interface{}' and len(a)==2 and a[0]=='(.int 0)'; return '.noJsons'   # the capacity has no effect
        if v=='IsA':
            s.eat('('); e=s.expr(); s.eat(','); kd=s.next()[1]; s.eat(')'); return prim('(isA .%s)'%KINDS[kd],e)
        if v=='NewString': return prim('newString',*s.args())
        if v=='fmt':
            s.eat('.'); f=s.next()[1]; s.eat('('); fm=goString(s.next()[1]); a=[]
            while s.at(','): s.next(); a.append(s.expr())
            s.eat(')')
            if f=='Sprintf' and fm=='%v':   # fmt calls the String method
                s.pre.append('(.callFn [%s] .verb (.cons %s .nil))'%(vn('shown'),a[0])); return '(.var .shown)'
            if f=='Errorf': return prim('errorf',*s.fmt(fm,a))
            assert f=='Sprintf'
            ps=s.fmt(fm,a); assert len(ps)==1; return ps[0]
        if s.at('.') and v+'.'+s.peek(1)[1] in PKG:
            p=v+'.'+s.peek(1)[1]; s.next(); s.next(); return prim(PKG[p],*s.args())
        if v=='strings' and s.at('.','TrimLeftFunc'):
            s.eat('.','TrimLeftFunc','('); e=s.expr(); s.eat(',','unicode','.','IsSpace',')'); return prim('trimLeft',e)
        if v=='strconv' and s.at('.','ParseFloat'):
            s.eat('.','ParseFloat'); a=s.args(); assert len(a)==2 and a[1]=='(.int 64)'; return prim('parseFloat',a[0])
        if v=='buffer' and s.at('.'):
            s.eat('.'); m=s.next()[1]
            if m in('Point','Mark','String'): s.eat('(',')'); return '(.buf .%s)'%{'Point':'point','Mark':'mark','String':'content'}[m]
            return '(.buf .%s)'%BUFF[m]
        if v=='env' and s.at('.','Functions'):
            s.eat('.','Functions','['); e=s.expr(); s.eat(']'); return prim('lookup','(.var %s)'%vn(s.look('env')),e)
        if k=='id':
            u=s.look(v)
            if u is None:
                if v in SIG and s.at('('):
                    ts=s.call(v,s.args())
                    return ts if len(ts)!=1 else '(.var %s)'%vn(ts[0])
                raise SystemExit('%s: unknown name %s'%(s.fname,v))
            if s.at('.') and s.ty.get(u)=='strings.Builder':
                s.eat('.'); m=s.next()[1]; s.eat('(',')')
                if m=='String': return '(.var %s)'%vn(u)
                assert m=='Len'; return prim('len','(.var %s)'%vn(u))
            return '(.var %s)'%vn(u)
        raise SystemExit('%s: primary? %s %s'%(s.fname,k,v))
    def postfix(s,e):
        while True:
            if s.at('['):
                s.next(); l=s.expr()
                if s.at(':'): s.next(); s.eat(']'); e=prim('sliceFrom',e,l)
                else: s.eat(']'); e=prim('index',e,l)
            elif s.at('.','('):
                s.eat('.','('); t=s.typ(); s.eat(')'); e=('assert',s.kind(t),e)
                if not s.two: e=prim('(as .%s)'%e[1],e[2])
            elif s.at('.'):
                m=s.peek(1)[1]
                if m=='Value': s.i+=2; e=prim('value',e)
                elif m=='Name': s.i+=2; e=prim('name',e)
                elif m=='Elements': s.i+=2; e=prim('elements',e)
                elif m in('Len','IsEmpty') : s.i+=2; s.eat('(',')'); e=prim('listLen',e); e='(.bin .eq %s (.int 0))'%e if m=='IsEmpty' else e
                elif m=='Get': s.i+=2; a=s.args(); e=prim('listGet',e,a[0])
                elif m=='Text': s.i+=2; s.eat('(',')'); e=prim('scanText',e)
                elif m=='Err': s.i+=2; s.eat('(',')'); e=prim('scanErr',e)
                elif m=='Error': s.i+=2; s.eat('(',')'); e=prim('errorText',e)
                elif m=='Kind' and s.peek(4)[1]=='.' and s.peek(5)[1]=='KindName': s.i+=2; s.eat('(',')','.','KindName','(',')'); e=prim('kindName',e)
                elif m=='Kind' and s.at('.','Kind','(',')','==','reflect','.','Map'): s.i+=8; e=prim('isMap',e)
                elif m in XF: s.i+=2; e=prim('(failure .%s)'%XF[m],e)
                elif e=='(.var .w)' and m in('valueToJSON','valueToToken'):
                    s.i+=2; ts=s.call({'valueToJSON':'JSONWriter.valueToJSON','valueToToken':'ShellWriter.valueToToken'}[m],[e]+s.args()); return ts
                else: raise SystemExit('%s: .%s'%(s.fname,m))
            else: return e
    two=False
    # statements
    def flush(s,l):
        p=s.pre; s.pre=[]; return p+l
    def seq(s,l,ind):
        if not l: return '.skip'
        if len(l)==1: return l[0]
        pad='\n'+'  '*ind
        return '('+(' <|'+pad).join('.seq '+x for x in l[:-1])+' <|'+pad+l[-1]+')'
    def block(s,ind):
        s.eat('{'); s.scopes.append({}); out=s.stmts(ind,lambda: s.at('}')); s.eat('}'); s.scopes.pop()
        return s.seq(out,ind)
    def stmts(s,ind,stop):
        out=[]; s.nls()
        while not stop():
            out+=s.stmt(ind); s.nls()
        return out
    def one(s):
        e=s.expr()
        if isinstance(e,list): raise SystemExit('many results')
        return e
    def simple(s,ind):
        k,v=s.peek(); assert k=='id',(s.fname,k,v)
        u=s.look(v)
        if u and s.ty.get(u)=='strings.Builder' and s.peek(1)[1]=='.':
            s.i+=2; m=s.next()[1]; a=s.args()
            if m=='Reset': assert not a; return ['(.set %s (.str []))'%vn(u)]
            e=a[0] if m=='WriteString' else prim('runeString',a[0]); assert m in('WriteString','WriteRune')
            return s.flush(['(.set %s (.bin .add (.var %s) %s))'%(vn(u),vn(u),e)])
        if v=='traceCallback':
            s.eat('traceCallback','(','&','TraceContext','{'); s.nls(); s.eat('Buffer',':','buffer',','); s.nls(); s.eat('Environment',':','env',','); s.nls(); s.eat('Instruction',':')
            e=s.one(); s.eat(','); s.nls(); s.eat('}',')'); return ['(.trace (.var .traceCallback) %s)'%e]
        xs=[s.next()[1]]
        if s.at('++') or s.at('--'):
            o='add' if s.next()[1]=='++' else 'sub'; x=vn(s.look(xs[0])); return ['(.set %s (.bin .%s (.var %s) (.int 1)))'%(x,o,x)]
        if s.at('['):
            s.next(); i=s.one(); s.eat(']','='); e=s.one(); return s.flush(['(.setAt %s %s %s)'%(vn(s.look(xs[0])),i,e)])
        while s.at(','): s.next(); xs.append(s.next()[1])
        op=s.next()[1]; assert op in('=',':='),(s.fname,op,xs)
        if len(xs)==1 and s.at('json','.','Unmarshal'):
            s.eat('json','.','Unmarshal','(','[',']','byte','('); e=s.one(); s.eat(')',',','&'); y=s.look(s.next()[1]); s.eat(')')
            x=s.declare(xs[0]); return ['(.setMany [%s, %s] %s)'%(vn(y),vn(x),prim('unmarshal',e))]
        if len(xs)==2 and s.peek()[1]=='fn':   # a call of a function value
            s.eat('fn'); a=s.args(); assert len(a)==2 and a[1]=='(.var .buffer)'
            ys=[s.declare(x) for x in xs]
            return ['(.callValue %s (.var %s) %s)'%(es([vn(y) for y in ys]),vn(s.look('fn')),a[0])]
        s.two=len(xs)==2
        e=s.expr(); s.two=False
        if isinstance(e,tuple): e=prim('(as2 .%s)'%e[1],e[2])
        ys=[s.declare(x) if op==':=' else s.look(x) if x!='_' else '_' for x in xs]
        ys=[vn('blank') if y=='_' else vn(y) for y in ys]
        if isinstance(e,list):
            assert len(e)==len(ys)
            # the call is the last statement of s.pre: let it set the variables itself
            c=s.pre.pop(); m=re.match(r'\(\.callFn \[[^\]]*\] ',c); s.tmp-=len(e)
            return s.flush(['(.callFn %s '%es(ys)+c[m.end():]])
        if len(ys)==1: return s.flush(['(.set %s %s)'%(ys[0],e)])
        return s.flush(['(.setMany %s %s)'%(es(ys),e)])
    def cond(s,ind):
        """if [init;] cond"""
        j=s.i; d=0; semi=False
        while not(s.t[j][1]=='{' and d==0):
            if s.t[j][1] in '([': d+=1
            if s.t[j][1] in ')]': d-=1
            semi|=s.t[j][1]==';'; j+=1
        init=[]
        if semi: init=s.simple(ind); s.eat(';')
        c=s.one(); return init+s.flush([]),c
    def stmt(s,ind):
        k,v=s.peek(); pad='\n'+'  '*(ind+1)
        if v=='var':
            s.next(); x=s.next()[1]; t=s.typ().replace('edlisp.',''); u=s.declare(x,t)
            if s.at('='): s.next(); e=s.one(); return s.flush(['(.set %s %s)'%(vn(u),e)])
            return ['(.set %s %s)'%(vn(u),{'[]Value':'.noVals','[]string':'.noStrs','strings.Builder':'(.str [])','[]interface{}':'.noJsons'}[t])]
        if v=='return':
            s.next(); a=[]
            while s.peek()[0]!='nl':
                e=s.expr()
                if isinstance(e,list): a+=['(.var %s)'%vn(t) for t in e]
                else: a.append(e)
                if s.at(','): s.next()
            assert len(a)==len(s.results),(s.fname,a)
            a=[prim('iface',e) if t=='interface{}' and e!='.nil' else e for e,t in zip(a,s.results)]
            return s.flush(['(.ret %s)'%arglist(a)])
        if v=='continue': s.next(); return ['.cont']
        if v=='if':
            s.next(); s.scopes.append({}); pre,c=s.cond(ind); a=s.block(ind+1); b='.skip'
            if s.at('else'):
                s.next()
                b=s.seq(s.stmt(ind+1),ind+1) if s.at('if') else s.block(ind+1)
            s.scopes.pop()
            return pre+['(.if_ %s%s%s%s%s)'%(c,pad,a,pad,b)]
        if v=='switch': return s.switch(ind)
        if v=='for':
            s.next(); s.scopes.append({})
            if s.peek(2)[1] in('Scan',) :
                x=s.look(s.next()[1]); s.eat('.','Scan','(',')'); b=s.block(ind+1); r=['(.forScan %s%s%s)'%(vn(x),pad,b)]
            elif s.peek(3)[1]==':=' and s.peek(4)[1]=='range':
                i=s.next()[1]; s.eat(','); x=s.next()[1]; s.next(); s.next(); e=s.one(); pre=s.flush([])
                i=s.declare(i); x=s.declare(x); b=s.block(ind+1)
                r=pre+['(.range %s %s %s%s%s)'%(vn('blank' if i=='_' else i),vn('blank' if x=='_' else x),e,pad,b)]
            else:
                j=s.i; semi=False
                while s.t[j][1]!='{': semi|=s.t[j][1]==';'; j+=1
                init=[];post='.skip'
                if semi: init=s.simple(ind); s.eat(';')
                c=s.one(); assert not s.pre
                if semi: s.eat(';'); post=s.simple(ind)[0]
                b=s.block(ind+1)
                r=init+['(.while %s %s%s%s)'%(c,post,pad,b)]
            s.scopes.pop(); return r
        return s.simple(ind)
    def switch(s,ind):
        s.eat('switch'); s.scopes.append({}); pre=[]; typed=None; subj=None
        if s.peek(1)[1]==':=' :
            v=s.next()[1]; s.next(); x=s.look(s.next()[1]); s.eat('.','(','type',')'); typed=(v,x)
        elif not s.at('{'): subj=s.one(); pre=s.flush([])
        s.eat('{'); s.nls(); cases=[]; default=None
        stop=lambda: s.at('case') or s.at('default') or s.at('}')
        while not s.at('}'):
            if s.at('default'):
                s.eat('default',':'); s.scopes.append({}); default=s.seq(s.stmts(ind+2,stop),ind+2); s.scopes.pop(); continue
            s.eat('case'); alts=[]
            while not s.at(':'):
                if typed: alts.append(s.kind(s.typ()))
                else: alts.append(s.one())
                if s.at(','): s.next()
            s.eat(':'); assert not s.pre
            s.scopes.append({}); body=[]
            if typed:
                cs=[prim('(isType .%s)'%a,'(.var %s)'%vn(typed[1])) for a in alts]
                if len(alts)==1 and alts[0] not in('null',):
                    j=s.i; u=s.declare(typed[0])
                    body=s.stmts(ind+2,stop)
                    if any(vn(u)+')' in b or vn(u)+' ' in b for b in body): body=['(.set %s %s)'%(vn(u),prim('(as .%s)'%alts[0],'(.var %s)'%vn(typed[1])))]+body
                else: body=s.stmts(ind+2,stop)
            else:
                cs=['(.bin .eq %s %s)'%(subj,a) for a in alts] if subj else alts
                body=s.stmts(ind+2,stop)
            c=cs[0]
            for d in cs[1:]: c='(.bin .or %s %s)'%(c,d)
            s.scopes.pop(); cases.append((c,s.seq(body,ind+2)))
        s.eat('}'); s.scopes.pop()
        assert default is None or True
        t=default or '.skip'
        for c,b in reversed(cases): t='(.if_ %s\n%s%s\n%s%s)'%(c,'  '*(ind+1),b,'  '*(ind+1),t)
        return pre+[t]
def arglist(a):
    t='.nil'
    for x in reversed(a): t='(.cons %s %s)'%(x,t)
    return t
def header(path,go):
    lines=open(path).read().split('\n')
    if '.' in go: r,m=go.split('.'); pat=r'func \((\w+) \*%s\) %s\('%(r,m)
    else: pat=r'func %s\('%go
    i=[k for k,l in enumerate(lines) if re.match(pat,l)][0]
    j=[k for k in range(i,len(lines)) if lines[k]=='}'][0]
    text='\n'.join(lines[i:j+1]); head=lines[i]
    m=re.match(r'func (?:\((\w+) \*(\w+)\) )?\w+\((.*?)\) ?(.*)\{$',head); assert m,head
    params=[];pend=[]
    if m.group(1): params.append((m.group(1),'*'+m.group(2)))
    for p in [x.strip() for x in m.group(3).split(',') if x.strip()]:
        w=p.split(' ')
        if len(w)==1: pend.append(w[0])
        else: params+=[(x,w[1]) for x in pend]+[(w[0],w[1])]; pend=[]
    res=m.group(4).strip(); res=[x.strip() for x in res.strip('()').split(',')] if res else []
    return i+1,j+1,params,res,text[len(head)-1:]
H={}
for lean,f,go in FUNCS:
    H[lean]=header(REPO+f,go); SIG[go]=(lean,H[lean][2],H[lean][3])
out=[];vs={}
for lean,f,go in FUNCS:
    a,b,params,res,body=H[lean]
    p=P(tokens(body),go); p.results=res
    ps=[p.declare(x,t) for x,t in params]
    for x in ps: vn(x)
    t=p.block(1); p.nls(); assert p.peek()[0]=='eof'; assert not p.pre
    vs[lean]=ps
    out.append('/-- %s:%d-%d `%s` -/\ndef pg%s : PgS :=\n  %s\n'%('/repo/'+f,a,b,go,lean[0].upper()+lean[1:],t))
# what fmt does with %v: it calls the method String of the value
out.append('''/-- package fmt: `Sprintf("%v", v)` of a value that has a method `String` is what the method returns. (Not a function of /repo.) -/
def pgVerb : PgS :=
  (.if_ (.call (.isA .list) (.cons (.var .v) .nil)) (.seq (.callFn [.shown] .listString (.cons (.var .v) .nil)) (.ret (.cons (.var .shown) .nil)))
  (.if_ (.call (.isA .number) (.cons (.var .v) .nil)) (.seq (.callFn [.shown] .numberString (.cons (.var .v) .nil)) (.ret (.cons (.var .shown) .nil)))
  (.if_ (.call (.isA .symbol) (.cons (.var .v) .nil)) (.seq (.callFn [.shown] .symbolString (.cons (.var .v) .nil)) (.ret (.cons (.var .shown) .nil)))
  (.seq (.callFn [.shown] .stringString (.cons (.var .v) .nil)) (.ret (.cons (.var .shown) .nil))))))
''')
vs['verb']=['v']; vn('v'); vn('shown'); vn('blank')
names=[x for x,_,_ in FUNCS]+['verb']
res='import Verif.Model.Pg\n/- GENERATED by tools/go2pg.py from /repo: functions as they are written in Go. Do not edit. -/\nnamespace Texted\n\n'
res+='\n'.join(out)
res+='\n/-- The parameters of the functions. -/\ndef PgFn.params : PgFn → List PgVar\n'+'\n'.join('  | .%s => %s'%(n,es([vn(x) for x in vs[n]])) for n in names)+'\n'
res+='\n/-- The bodies of the functions. -/\ndef PgFn.body : PgFn → PgS\n'+'\n'.join('  | .%s => pg%s'%(n,n[0].upper()+n[1:]) for n in names)+'\n\nend Texted\n'
open(OUT+'PgSource.lean','w').write(res)
vt='import Verif.Model.Value\n/- GENERATED by tools/go2pg.py: the variables and the names of the functions in Model/PgSource. -/\nnamespace Texted\n\n/-- The variables of the functions in Model/PgSource (/repo/edlisp: parser, eval.go, error.go, equal.go, list.go, writer). -/\ninductive PgVar where\n'
vt+='\n'.join('  | '+('«%s»'%x if x in KEYWORDS else x) for x in sorted(VARS))+'\n  deriving DecidableEq\n'
vt+='\n/-- The functions in Model/PgSource. -/\ninductive PgFn where\n'+'\n'.join('  | '+x for x in names)+'\n  deriving DecidableEq\n\nend Texted\n'
open(OUT+'PgVar.lean','w').write(vt)
print(len(out),len(VARS))
