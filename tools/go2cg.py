#!/usr/bin/env python3
"""Translates the declarations of the commands, their options and the tools (/repo/cmd/texted/main.go, commands/*.go, tools/*.go) into the
data of Verif/Model/Cg.lean. Writes lean/Verif/Model/CgVar.lean and CgSource.lean. Everything it does not know makes it stop with an error:
nothing is skipped except the texts shown in help (Short, Long, Example, the usage of an option, the descriptions of tools and parameters).
A call with a struct of arguments becomes a call with one argument for each field, in the order of the declaration of the struct."""
import re,os,sys,glob
REPO=os.environ.get('GO2LEAN_REPO','/repo/')
OUT=os.environ.get('GO2LEAN_OUT','/verif/lean/Verif/Model/')
def die(m): raise SystemExit('go2cg: '+m)
TOK=re.compile(r'''[ \t\r\n]+|//[^\n]*|(?P<id>[A-Za-z_][A-Za-z_0-9]*)|(?P<num>\d+)|(?P<str>"(?:\\.|[^"\\])*"|`[^`]*`)|(?P<op>:=|==|!=|&&|\|\||[-+*/<>!=(){}\[\].,;:&%])''')
class P:
    def __init__(s,path,name):
        t=open(REPO+path).read(); m=re.search(r'^func %s\('%name,t,re.M)
        if not m: die(name+' not found in '+path)
        e=t.index('\n}\n',m.start())+3
        s.path,s.name=path,name; s.a=t[:m.start()].count('\n')+1; s.b=t[:e].count('\n')
        s.t=[];i=m.start()
        while i<e:
            k=TOK.match(t,i)
            if not k: die('token '+repr(t[i:i+20]))
            if k.lastgroup: s.t.append((k.lastgroup,k.group()))
            i=k.end()
        s.i=0
    def peek(s): return s.t[s.i][1] if s.i<len(s.t) else ''
    def at(s,*w): return [x[1] for x in s.t[s.i:s.i+len(w)]]==list(w)
    def eat(s,text):
        for w in re.findall(r'"[^"]*"|:=|!=|\w+|\S',text):
            if s.peek()!=w: die('%s %s: expected %s (of %s), found %s'%(s.path,s.name,w,text,s.peek()))
            s.i+=1
    def ident(s):
        k,v=s.t[s.i]; s.i+=1
        if k!='id': die('%s: a name expected, found %s'%(s.name,v))
        return v
    def string(s):
        k,v=s.t[s.i]; s.i+=1
        if k!='str': die('%s: a string expected, found %s'%(s.name,v))
        if v[0]=='`': return v[1:-1]
        if re.search(r'\\[^"\\n]',v): die('escape in '+v)
        return v[1:-1].replace('\\"','"').replace('\\n','\n').replace('\\\\','\\')
    def end(s):
        if s.i!=len(s.t): die('%s: rest %s'%(s.name,s.peek()))
def b(s):
    if re.search(r'[^ -~]|[\\"]',s): die('text '+repr(s))
    return '[]' if s=='' else '(b! "%s")'%s
VARS=set()
def vn(x): VARS.add(x); return '.'+('«%s»'%x if x in KW else x)
KW={'prefix','include','json','show','from','end','at','in'}
ZERO={'bool':'.bool false','string':'.str []','[]string':'.strs []'}
def gotype(p):
    if p.at('[',']'): p.eat('[]'); return '[]'+p.ident()
    return p.ident()
def struct(path,name):
    t=open(REPO+path).read(); m=re.search(r'^type %s struct \{\n(.*?)^\}'%name,t,re.M|re.S)
    return [l.split('//')[0].split() for l in m.group(1).split('\n') if l.split('//')[0].strip()]
def command(path,name):
    p=P(path,name); p.eat('func '+name+'() *cobra.Command {'); vars={}
    while p.at('var'):
        p.eat('var'); many=p.at('(')
        if many: p.eat('(')
        while True:
            x=p.ident(); vars[x]=gotype(p)
            if not many or p.at(')'): break
        if many: p.eat(')')
    for x,t in vars.items():
        if t not in ZERO: die('type '+t)
    p.eat('cmd := & cobra.Command {'); use=None; run=None
    while not p.at('}'):
        f=p.ident(); p.eat(':')
        if f=='Use': use=p.string()
        elif f in ('Short','Long','Example'): p.string()
        elif f in ('Run','RunE'):
            p.eat('func ( cmd * cobra . Command , args [ ] string )')
            if f=='RunE': p.eat('error')
            p.eat('{')
            if f=='RunE': p.eat('return')
            fn=p.ident(); p.eat('(')
            def arg():
                x=p.ident()
                if x=='cmd': return '.cmd'
                if x=='args': return '.operands'
                if x not in vars: die('unknown variable '+x)
                return '.var '+vn(x)
            if p.at('&'):
                p.eat('&'); st=p.ident(); p.eat('{'); given={}
                while not p.at('}'):
                    k=p.ident(); p.eat(':')
                    if k in given: die('field twice '+k)
                    given[k]=arg(); p.eat(',')
                p.eat('}'); fields=struct(path,st); args=[]
                for k,t in fields:
                    if k in given: args.append(given.pop(k))
                    else: args.append('.const (%s)'%ZERO[t])
                if given: die('unknown field %s'%given)
            else:
                args=[]
                while not p.at(')'):
                    args.append(arg())
                    if p.at(','): p.eat(',')
            p.eat(')'); p.eat('}'); run=(fn,args,f=='RunE')
        else: die('field '+f)
        p.eat(',')
    p.eat('}'); regs=[]
    while p.at('cmd'):
        p.eat('cmd.Flags().'); k=p.ident(); p.eat('(')
        m=re.match(r'(StringSlice|String|Bool)(Var)?(P)?$',k)
        if not m: die('option '+k)
        target='none'
        if m.group(2):
            p.eat('&'); x=p.ident(); p.eat(',')
            if {'StringSlice':'[]string','String':'string','Bool':'bool'}[m.group(1)]!=vars[x]: die('type of '+x)
            target='(some %s)'%vn(x)
        n=p.string(); p.eat(','); sh=''
        if m.group(3): sh=p.string(); p.eat(',')
        if m.group(1)=='String': d='.str '+b(p.string())
        elif m.group(1)=='Bool':
            d=p.ident()
            if d not in('true','false'): die('default '+d)
            d='.bool '+d
        else: p.eat('nil'); d='.strs []'
        p.eat(','); p.string(); p.eat(')')
        regs.append('⟨%s, %s, %s, %s⟩'%(target,b(n),b(sh),d))
    p.eat('return cmd }'); p.end()
    lean='cg'+name[3:]
    return '''/-- /repo/%s:%d-%d `%s` -/
def %s : CgCommand where
  use := %s
  vars := [%s]
  options := [%s]
  calls := .%s
  passes := [%s]
  fails := %s
'''%(path,p.a,p.b,name,lean,b(use),', '.join('(%s, %s)'%(vn(x),ZERO[t]) for x,t in vars.items()),',\n    '.join(regs),run[0],', '.join(run[1]),'true' if run[2] else 'false'),run[0]
CMDS={'NewEditCommand':'edit','NewParseCommand':'parse','NewTestCommand':'test','NewDocCommand':'doc','NewMCPCommand':'mcp'}
out=[];fns=[]
for n,f in CMDS.items():
    t,fn=command('commands/%s.go'%f,n); out.append(t); fns.append(fn)
# main
p=P('cmd/texted/main.go','main'); p.eat('func main() { rootCmd := & cobra.Command {'); use=None
while not p.at('}'):
    f=p.ident(); p.eat(':'); v=p.string(); p.eat(',')
    if f=='Use': use=v
    elif f not in('Short','Long'): die('root '+f)
p.eat('}'); kids=[]
while p.at('rootCmd'):
    p.eat('rootCmd.AddCommand(commands.'); k=p.ident(); p.eat('())')
    if k not in CMDS: die('command '+k)
    kids.append('cg'+k[3:])
p.eat('if err := rootCmd.Execute(); err != nil { os.Exit('); st=p.t[p.i][1]; p.i+=1; p.eat(') } }'); p.end()
main='''/-- /repo/cmd/texted/main.go:%d-%d `main` -/
def cgMain : CgProgram where
  use := %s
  commands := [%s]
  onError := %s
'''%(p.a,p.b,b(use),', '.join(kids),st)
# the tools
def tool(path,name):
    p=P(path,name); p.eat('func '+name+'(prefix string) mcp.Tool { name := '); n=p.string(); p.eat('if prefix')
    op=p.peek(); p.i+=1
    if op not in('!=','=='): die('test '+op)
    c=p.string(); p.eat('{ name ='); x=p.ident(); p.eat('+'); y=p.ident(); p.eat('} return mcp.NewTool(name , mcp.WithDescription('); p.ident(); p.eat('),')
    for z in (x,y):
        if z not in('prefix','name'): die('name '+z)
    ps=[]
    while not p.at(')'):
        p.eat('mcp.'); k=p.ident(); p.eat('('); q=p.string(); p.eat(','); req='false'
        ty={'WithString':'.string','WithArray':'.array','WithBoolean':'.boolean'}[k]
        while not p.at(')'):
            p.eat('mcp.'); o=p.ident(); p.eat('(')
            if o=='Required': req='true'
            elif o=='Description': p.string()
            else: die('option '+o)
            p.eat(')'); p.eat(',')
        p.eat(')'); p.eat(','); ps.append('⟨%s, %s, %s⟩'%(b(q),ty,req))
    p.eat(') }'); p.end()
    cond='.%s .pre (.lit %s)'%({'!=':'differ','==':'same'}[op],b(c))
    return '''/-- /repo/%s:%d-%d `%s` -/
def cg%s : CgTool where
  name := %s
  test := %s
  longer := .plus %s %s
  params := [%s]
'''%(path,p.a,p.b,name,name[3:],b(n),cond,{'prefix':'.pre','name':'.name'}[x],{'prefix':'.pre','name':'.name'}[y],', '.join(ps))
TOOLS={'NewEditFileToolWithPrefix':'edit_file','NewTextedEvalToolWithPrefix':'texted_eval','NewTextedDocToolWithPrefix':'texted_doc'}
for n,f in TOOLS.items(): out.append(tool('tools/%s.go'%f,n))
p=P('commands/mcp.go','runMCPServer'); p.eat('func runMCPServer(prefix string) error { s := server.NewMCPServer('); p.string(); p.eat(','); p.string(); p.eat(', server.WithToolCapabilities(false), )')
ent=[];made={};HAND={'EditFileHandler':'.editFile','TextedEvalHandler':'.textedEval','TextedDocHandler':'.textedDoc'}
while not p.at('if'):
    if p.at('s','.'):
        p.eat('s.AddTool('); x=p.ident(); p.eat(', tools.'); h=p.ident(); p.eat(')'); ent.append('(%s, %s)'%(made[x],HAND[h]))
    else:
        x=p.ident(); p.eat(':= tools.'); c=p.ident(); p.eat('(prefix)')
        if c not in TOOLS: die('tool '+c)
        made[x]='cg'+c[3:]
p.eat('if err := server.ServeStdio(s); err != nil { return fmt.Errorf('); p.string(); p.eat(', err) } return nil }'); p.end()
srv='''/-- /repo/commands/mcp.go:%d-%d `runMCPServer`: the tools with their handlers, in the order in which they are added. -/
def cgServer : List (CgTool × CgHandler) := [%s]
'''%(p.a,p.b,', '.join(ent))
res='import Verif.Model.Cg\n/- GENERATED by tools/go2cg.py from /repo: the commands, options and tools as they are declared in Go. Do not edit. -/\nnamespace Texted\n\n'
res+='\n'.join(out)+'\n'+main+'\n'+srv+'\nend Texted\n'
open(OUT+'CgSource.lean','w').write(res)
vt='import Verif.Model.Basic\n/- GENERATED by tools/go2cg.py: the variables behind the options, and the functions that the commands call. -/\nnamespace Texted\n\n/-- The variables of the functions that make the commands (/repo/commands/*.go). -/\ninductive CgVar where\n'
vt+='\n'.join('  | '+('«%s»'%x if x in KW else x) for x in sorted(VARS))+'\n  deriving DecidableEq\n'
vt+='\n/-- The functions that the commands call. -/\ninductive CgFn where\n'+'\n'.join('  | '+x for x in dict.fromkeys(fns))+'\n  deriving DecidableEq\n\nend Texted\n'
open(OUT+'CgVar.lean','w').write(vt)
print(len(out),len(VARS))
