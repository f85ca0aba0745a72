import Verif.Model.TgVar
import Verif.Model.Go
import Verif.Model.Pg
import Verif.Model.Xml
import Verif.Model.Mcp
import Verif.Model.Title
/-
A fourth small Go: the language that the test runner (/repo/edlisp/testing/testing.go, /repo/commands/test.go) and the documentation
(/repo/edlisp/documentation_registry.go, /repo/commands/doc.go, /repo/tools/texted_doc.go) are translated into by tools/go2tg.py
(Model/TgSource). Its functions print, end the program (`os.Exit`), go through maps and sort; what they leave to chance (the order of a map,
the sorting method) is a parameter.

The functions call the parsers, the evaluator and `Equal`, whose own Go texts are the subject of C94, and `xml.Unmarshal`
(Model/Xml): here they are operations with the meaning of the model.

Simplifications: an `int` does not overflow (it counts files, entries or elements of a list); a nil slice and an empty one are the same; a
pointer to a struct is the struct (none of the functions changes one that somebody else holds); the calls come one after the other, so taking
and releasing `registryMutex` is left out (C90 is about the mutex); closing a file has no effect; a trace callback only observes the buffer,
so its calls are run when the evaluation has ended, in order; a loop runs at most `n` rounds and calls go at most `d` deep before a run is
called `spin`; what is printed before a crash is not kept.
-/
namespace Texted

/-- Fields of the structs that are read or set: `TestCase`, `TestResult`, `TraceContext`, `FunctionDoc`, `ParameterDoc`, `ExampleDoc`, `String`,
`Number`, `Symbol`. `inputText` is `Input.Text`, `resultText` is `Result.Text`, `resultLang` is `Result.Lang`, `errorText` is `Error.Text`. -/
inductive TgF where
  | buffer | input | output | result | error | inputText | resultText | resultLang | errorText
  | name | passed | expected | actual
  | instruction
  | summary | description | parameters | examples | seeAlso | category | type | optional
  | value
  deriving DecidableEq

/-- Operations without effects: the Go language, packages fmt, strings, path/filepath and regexp, constructors, package parser, `Equal`. -/
inductive TgP where
  | len | index | append | errorf | sprintf | decimal | quote | fmtG | errorText
  | int | float64
  | field (f : TgF)
  | isA (t : PgT) | as (t : PgT) | listLen | listGet | verb
  | newBuffer | bufferString | point | mark | newEnv | newTestCase | newTestResult
  | writeString | builderString
  | trimSpace | trim | contains | join | title | pathBase | matchString
  | parseString | parseFormat | equal
  | lookup
  | getString | getBool | toolText | toolError
  deriving DecidableEq

mutual
/-- Expressions. -/
inductive TgE where
  | var (x : TgVar)
  | int (n : Int)
  | str (s : Bytes)
  | bool (t : Bool)
  | nil
  | noVals
  | noStrs
  | noResults
  | noDocs
  | noText
  | noGroups
  | noFlags
  | hook
  | registry
  | glob
  | bin (op : GoOp) (a b : TgE)
  | not (a : TgE)
  | call (p : TgP) (args : TgEs)
/-- Lists of expressions. -/
inductive TgEs where
  | nil
  | cons (e : TgE) (es : TgEs)
end

/-- Statements. `openFile`, `readAll` and `unmarshal` are the calls of packages os, io and encoding/xml; `evalTrace` is a call of
`edlisp.EvalWithTrace`; `rangeMap` goes through a map; `sortDocs x f` is `sort.Slice(x, …)` with `x[i].f < x[j].f`; `register` is
`documentationRegistry[k] = d`; `exit` is `os.Exit`. -/
inductive TgS where
  | skip
  | seq (a b : TgS)
  | set (x : TgVar) (e : TgE)
  | setMany (xs : List TgVar) (e : TgE)
  | setField (x : TgVar) (f : TgF) (e : TgE)
  | setAt (x : TgVar) (k e : TgE)
  | openFile (xs : List TgVar) (e : TgE)
  | readAll (xs : List TgVar) (e : TgE)
  | unmarshal (x err : TgVar) (e : TgE)
  | evalTrace (x err : TgVar) (program env : TgE) (buffer : TgVar) (hook : TgE)
  | callFn (xs : List TgVar) (f : TgFn) (args : TgEs)
  | print (e : TgE)
  | exit (e : TgE)
  | if_ (c : TgE) (a b : TgS)
  | while (c : TgE) (post body : TgS)
  | range (i x : TgVar) (e : TgE) (body : TgS)
  | rangeMap (k x : TgVar) (e : TgE) (body : TgS)
  | sortDocs (x : TgVar) (f : TgF)
  | sortStrs (x : TgVar)
  | register (k d : TgE)
  | cont
  | brk
  | ret (es : TgEs)

/-- What a variable can hold. `file` is an open file with what reading it gives; `tagged` is an `Input`, a `Result` or an `Error` of a test
case; `groups` is a `map[string][]FunctionDoc` and `flags` a `map[string]bool`, as their entries in the order in which they came; `docMap` is
the registry; `hook` is the trace callback and `event` what it is called with. -/
inductive TgV where
  | nil
  | int (n : Int)
  | str (s : Bytes)
  | bool (t : Bool)
  | float (x : F64)
  | strs (ss : List Bytes)
  | val (v : Value)
  | vals (vs : List Value)
  | err (e : Bytes)
  | env (e : Env)
  | buffer (b : Buffer)
  | builder (s : Bytes)
  | file (r : Except Bytes Bytes)
  | tagged (text lang : Bytes)
  | test (t : TestCase)
  | result (r : TestResult)
  | results (rs : List TestResult)
  | hook
  | event (ev : TraceEvent)
  | doc (d : FunctionDoc)
  | docs (ds : List FunctionDoc)
  | param (p : ParameterDoc)
  | params (ps : List ParameterDoc)
  | example (x : ExampleDoc)
  | examples (xs : List ExampleDoc)
  | groups (m : List (Bytes × List FunctionDoc))
  | flags (m : List (Bytes × Bool))
  | docMap (m : Registry)
  | request (args : Json)
  | tool (r : ToolResult)
  | tuple (l : List TgV)

/-- What the functions work on: what has been printed, the registry (/repo/edlisp/documentation_registry.go:10), and how many choices have been
made. -/
structure TgW where
  out : Bytes
  reg : Registry
  tick : Nat

/-- What is outside: packages encoding/xml and unicode (`xml`, `title`, and `xmlError`: what `xml.Unmarshal` says about a text that it refuses), the files
(`read`: what comes of opening and reading one), the names in the directory `tests`, and the choices that Go leaves open: `order k n` is the
order in which the `k`-th choice takes `n` things. -/
structure TgX where
  xml : XmlExt
  xmlError : Bytes → Bytes
  read : Bytes → Reading
  names : List Bytes
  title : TitleExt
  order : Nat → Nat → List Nat

/-- The state of a running function: its variables and the world. -/
structure TgSt where
  vars : TgVar → TgV
  w : TgW

/-- `x = v`. -/
def TgSt.set (st : TgSt) (x : TgVar) (v : TgV) : TgSt := { st with vars := fun y => if y = x then v else st.vars y }

/-- `x, y, … = v, w, …`. -/
def TgSt.setAll (st : TgSt) : List TgVar → List TgV → Option TgSt
  | [], [] => some st
  | x :: xs, v :: vs => (st.set x v).setAll xs vs
  | _, _ => none

/-- Whether a value of an interface or function type is nil. -/
def TgV.isNil : TgV → GoR Bool
  | .nil => .ok true
  | .err _ => .ok false
  | .val _ => .ok false
  | .hook => .ok false
  | _ => .stuck

/-- `a == b`. -/
def TgV.eq : TgV → TgV → GoR Bool
  | .int a, .int b => .ok (a = b)
  | .str a, .str b => .ok (a = b)
  | .float a, .float b => .ok (F64.goEq a b)
  | a, .nil => a.isNil
  | _, _ => .stuck

/-- A binary operator other than `&&` and `||`. -/
def GoOp.applyTg : GoOp → TgV → TgV → GoR TgV
  | .eq, a, b => (a.eq b).bind fun t => .ok (.bool t)
  | .ne, a, b => (a.eq b).bind fun t => .ok (.bool (!t))
  | .add, .int a, .int b => .ok (.int (a + b))
  | .sub, .int a, .int b => .ok (.int (a - b))
  | .lt, .int a, .int b => .ok (.bool (a < b))
  | .le, .int a, .int b => .ok (.bool (a ≤ b))
  | .gt, .int a, .int b => .ok (.bool (b < a))
  | .ge, .int a, .int b => .ok (.bool (b ≤ a))
  | .add, .str a, .str b => .ok (.str (a ++ b))
  | _, _, _ => .stuck

/-- The pieces of a message: strings and errors (`%s`, `%w`, `%v`). -/
def tgPieces : List TgV → GoR Bytes
  | [] => .ok []
  | .str s :: r => (tgPieces r).bind fun t => .ok (s ++ t)
  | .err s :: r => (tgPieces r).bind fun t => .ok (s ++ t)
  | _ => .stuck

/-- An error, or nil. -/
def tgError : Option Bytes → TgV
  | some e => .err e
  | none => .nil

/-- `v.Field` (/repo/edlisp/testing/testing.go:16-50, /repo/edlisp/eval.go:12-16, /repo/edlisp/documentation.go:8-60). -/
def TgV.get : TgV → TgF → GoR TgV
  | .test t, .buffer => .ok (.str t.buffer)
  | .test t, .input => .ok (.tagged t.input [])
  | .test t, .output => .ok (.str t.output)
  | .test t, .result => .ok (.tagged t.result t.resultLang)
  | .test t, .error => .ok (.tagged t.error [])
  | .test t, .inputText => .ok (.str t.input)
  | .test t, .resultText => .ok (.str t.result)
  | .test t, .resultLang => .ok (.str t.resultLang)
  | .test t, .errorText => .ok (.str t.error)
  | .result r, .name => .ok (.str r.name)
  | .result r, .passed => .ok (.bool r.passed)
  | .result r, .error => .ok (tgError r.error)
  | .result r, .expected => .ok (.str r.expected)
  | .result r, .actual => .ok (.str r.actual)
  | .event ev, .instruction => .ok (.val ev.1)
  | .event ev, .buffer => .ok (.buffer ev.2)
  | .doc d, .name => .ok (.str d.name)
  | .doc d, .summary => .ok (.str d.summary)
  | .doc d, .description => .ok (.str d.description)
  | .doc d, .parameters => .ok (.params d.parameters)
  | .doc d, .examples => .ok (.examples d.examples)
  | .doc d, .seeAlso => .ok (.strs d.seeAlso)
  | .doc d, .category => .ok (.str d.category)
  | .param p, .name => .ok (.str p.name)
  | .param p, .type => .ok (.str p.type)
  | .param p, .description => .ok (.str p.description)
  | .param p, .optional => .ok (.bool p.optional)
  | .example x, .description => .ok (.str x.description)
  | .example x, .input => .ok (.str x.input)
  | .example x, .buffer => .ok (.str x.buffer)
  | .example x, .output => .ok (.str x.output)
  | .val (.str s), .value => .ok (.str s)
  | .val (.num x), .value => .ok (.float x)
  | .val (.sym s), .name => .ok (.str s)
  | _, _ => .stuck

/-- `v.Field = u`, of a `TestResult`. -/
def TgV.setField : TgV → TgF → TgV → GoR TgV
  | .result r, .name, .str s => .ok (.result { r with name := s })
  | .result r, .passed, .bool t => .ok (.result { r with passed := t })
  | .result r, .error, .err e => .ok (.result { r with error := some e })
  | .result r, .expected, .str s => .ok (.result { r with expected := s })
  | .result r, .actual, .str s => .ok (.result { r with actual := s })
  | _, _, _ => .stuck

/-- `len(v)`. -/
def TgV.len : TgV → GoR TgV
  | .strs l => .ok (.int l.length)
  | .vals l => .ok (.int l.length)
  | .docs l => .ok (.int l.length)
  | .params l => .ok (.int l.length)
  | .examples l => .ok (.int l.length)
  | .docMap l => .ok (.int l.length)
  | _ => .stuck

/-- `m[k]` of a `map[string][]FunctionDoc`. -/
def groupAt (m : List (Bytes × List FunctionDoc)) (k : Bytes) : List FunctionDoc :=
  match m.find? fun p => p.1 = k with
  | some p => p.2
  | none => []

/-- `m[k] = v`: the entry that is there gets the value, or there is a new one. -/
def putAt {α : Type} (k : Bytes) (v : α) : List (Bytes × α) → List (Bytes × α)
  | [] => [(k, v)]
  | p :: m => if p.1 = k then (k, v) :: m else p :: putAt k v m

/-- `v[i]`; an index that is out of range is a run-time panic. -/
def TgV.index : TgV → TgV → GoR TgV
  | .vals l, .int i => (GoR.orPanic (goAt l i)).bind fun v => .ok (.val v)
  | .strs l, .int i => (GoR.orPanic (goAt l i)).bind fun s => .ok (.str s)
  | .groups m, .str k => .ok (.docs (groupAt m k))
  | _, _ => .stuck

/-- `v[k] = u`, of a map. -/
def TgV.setAt : TgV → TgV → TgV → GoR TgV
  | .groups m, .str k, .docs l => .ok (.groups (putAt k l m))
  | .flags m, .str k, .bool t => .ok (.flags (putAt k t m))
  | _, _, _ => .stuck

/-- `append(l, v)`. -/
def TgV.append : TgV → TgV → GoR TgV
  | .strs l, .str s => .ok (.strs (l ++ [s]))
  | .results l, .result r => .ok (.results (l ++ [r]))
  | .docs l, .doc d => .ok (.docs (l ++ [d]))
  | _, _ => .stuck

/-- `v.(T)`: a run-time panic unless the value has the type. -/
def tgAs (t : PgT) (v : Value) : GoR TgV := if t.isValue v then .ok (.val v) else .panic

/-- The element of a list, or nil (`List.Get`, /repo/edlisp/list.go:87-92). -/
def tgGot : Option Value → TgV
  | some v => .val v
  | none => .nil

/-- The results of a parser. -/
def tgParsed : Res Bytes (List Value) → GoR TgV
  | .ok p => .ok (.tuple [.vals p, .nil])
  | .err e => .ok (.tuple [.vals [], .err e])
  | .panic => .panic

/-- The entry of a name in the registry, and whether there is one. -/
def tgFound : Option FunctionDoc → TgV
  | some d => .tuple [.doc d, .bool true]
  | none => .tuple [.doc ⟨[], [], [], [], [], [], []⟩, .bool false]

/-- `strings.Trim(s, set)`, for a set of ASCII characters. -/
def trimSet (s set : Bytes) : Bytes := ((s.dropWhile fun c => set.contains c).reverse.dropWhile fun c => set.contains c).reverse

section
variable [Ext]

/-- `regexp.MatchString(pattern, s)`. -/
def tgMatch (s : Bytes) : Except Bytes Regex → TgV
  | .ok re => .tuple [.bool (re.find s).isSome, .nil]
  | .error e => .tuple [.bool false, .err e]

/-- The operations without effects. -/
def TgP.apply (x : TgX) : TgP → List TgV → GoR TgV
  | .len, [v] => v.len
  | .index, [v, i] => v.index i
  | .append, [l, v] => l.append v
  | .errorf, l => (tgPieces l).bind fun s => .ok (.err s)
  | .sprintf, l => (tgPieces l).bind fun s => .ok (.str s)
  | .decimal, [.int n] => .ok (.str (intDec n))
  | .quote, [.str s] => .ok (.str (Texted.quote s))
  | .fmtG, [.float r] => .ok (.str (Texted.fmtG r))
  | .errorText, [.err e] => .ok (.str e)
  | .int, [.float r] => .ok (.int r.toInt)
  | .float64, [.int n] => .ok (.float (F64.ofInt n))
  | .field f, [v] => v.get f
  | .isA t, [.val v] => .ok (.bool (t.isValue v))
  | .isA _, [.nil] => .panic
  | .as t, [.val v] => tgAs t v
  | .listLen, [.val (.list l)] => .ok (.int l.length)
  | .listGet, [.val (.list l), .int i] => .ok (tgGot (goAt l i))
  | .verb, [.val v] => .ok (.str v.toStr)
  | .newBuffer, [.str s] => .ok (.buffer (Texted.newBuffer s))
  | .bufferString, [.buffer b] => .ok (.str b.content)
  | .point, [.buffer b] => .ok (.int b.point)
  | .mark, [.buffer b] => .ok (.int b.mark)
  | .newEnv, [] => .ok (.env defaultEnv)
  | .newTestCase, [.str b, .tagged i _, .str o, .tagged r lang, .tagged e _] => .ok (.test ⟨b, i, o, r, lang, e⟩)
  | .newTestResult, [.str n, .bool p, .nil, .str e, .str a] => .ok (.result ⟨n, p, none, e, a⟩)
  | .newTestResult, [.str n, .bool p, .err m, .str e, .str a] => .ok (.result ⟨n, p, some m, e, a⟩)
  | .writeString, [.builder s, .str t] => .ok (.builder (s ++ t))
  | .builderString, [.builder s] => .ok (.str s)
  | .trimSpace, [.str s] => .ok (.str (Texted.trimSpace s))
  | .trim, [.str s, .str t] => .ok (.str (trimSet s t))
  | .contains, [.str s, .str t] => .ok (.bool (containsSub s t))
  | .join, [.strs l, .str s] => .ok (.str (joinWith s l))
  | .title, [.str s] => .ok (.str (strTitle x.title s))
  | .pathBase, [.str s] => .ok (.str (Texted.pathBase s))
  | .matchString, [.str p, .str s] => .ok (tgMatch s (Ext.compile p))
  | .parseString, [.str s] => tgParsed (Texted.parseString s)
  | .parseFormat, [.str f, .str s] => tgParsed (Texted.parseFormat f s)
  | .equal, [.val a, .val b] => .ok (.bool (goEqual a b))
  | .equal, [.nil, .val _] => .ok (.bool false)
  | .lookup, [.docMap m, .str k] => .ok (tgFound (m.lookup k))
  | .getString, [.request j, .str k, .str d] => .ok (.str (Texted.getString j k d))
  | .getBool, [.request j, .str k, .bool d] => .ok (.bool (Texted.getBool j k d))
  | .toolText, [.str s] => .ok (.tool (.text s))
  | .toolError, [.str s] => .ok (.tool (.error s))
  | _, _ => .stuck

/-- What `&&` and `||` do with their left operand: whether the right one is evaluated. -/
def tgShort (stop : Bool) (a : TgV) (rest : GoR TgV) : GoR TgV :=
  match a with
  | .bool t => if t = stop then .ok (.bool stop) else rest.bind fun v => match v with
    | .bool u => .ok (.bool u)
    | _ => .stuck
  | _ => .stuck

/-- `!v`. -/
def TgV.not : TgV → GoR TgV
  | .bool t => .ok (.bool (!t))
  | _ => .stuck

mutual
/-- The value of an expression (the Go language). `glob` is the list that `filepath.Glob("tests/*.xml")` returns; the error it returns is nil
(the pattern is well formed). -/
def TgE.eval (x : TgX) (st : TgSt) : TgE → GoR TgV
  | .var y => .ok (st.vars y)
  | .int n => .ok (.int n)
  | .str s => .ok (.str s)
  | .bool t => .ok (.bool t)
  | .nil => .ok .nil
  | .noVals => .ok (.vals [])
  | .noStrs => .ok (.strs [])
  | .noResults => .ok (.results [])
  | .noDocs => .ok (.docs [])
  | .noText => .ok (.builder [])
  | .noGroups => .ok (.groups [])
  | .noFlags => .ok (.flags [])
  | .hook => .ok .hook
  | .registry => .ok (.docMap st.w.reg)
  | .glob => .ok (.tuple [.strs (globTests x.names), .nil])
  | .bin .or a b => (a.eval x st).bind fun v => tgShort true v (b.eval x st)
  | .bin .and a b => (a.eval x st).bind fun v => tgShort false v (b.eval x st)
  | .bin op a b => (a.eval x st).bind fun v => (b.eval x st).bind fun w => op.applyTg v w
  | .not a => (a.eval x st).bind TgV.not
  | .call p args => (args.eval x st).bind (p.apply x)
/-- The values of a list of expressions, from left to right. -/
def TgEs.eval (x : TgX) (st : TgSt) : TgEs → GoR (List TgV)
  | .nil => .ok []
  | .cons e es => (e.eval x st).bind fun v => (es.eval x st).bind fun vs => .ok (v :: vs)
end

/-- What running a statement can end in: it goes on, it goes on with the next round of the loop (`continue`) or behind the loop (`break`),
the function returns, the program ends with an exit status, it panics, the statement has no meaning (Go's compiler would refuse it), or it
has not ended within the rounds and calls given. -/
inductive TgOut where
  | next (st : TgSt)
  | cont (st : TgSt)
  | brk (st : TgSt)
  | ret (vs : List TgV) (w : TgW)
  | exit (code : Int) (w : TgW)
  | panic
  | stuck
  | spin

/-- First one statement, then the next one. -/
def TgOut.andThen : TgOut → (TgSt → TgOut) → TgOut
  | .next st, k => k st
  | o, _ => o

/-- The end of a round of a loop. -/
def TgOut.round : TgOut → (TgSt → TgOut) → TgOut
  | .next st, k => k st
  | .cont st, k => k st
  | .brk st, _ => .next st
  | o, _ => o

/-- Evaluate an expression, then go on with its value. -/
def GoR.runTg {α : Type} : GoR α → (α → TgOut) → TgOut
  | .ok a, k => k a
  | .panic, _ => .panic
  | .stuck, _ => .stuck

/-- `if` on a condition that has been evaluated. -/
def tgIf (v : TgV) (a b : TgOut) : TgOut :=
  match v with
  | .bool t => if t then a else b
  | _ => .stuck

/-- The elements that `range` goes through. -/
def TgV.items : TgV → GoR (List TgV)
  | .strs l => .ok (l.map .str)
  | .results l => .ok (l.map .result)
  | .docs l => .ok (l.map .doc)
  | .params l => .ok (l.map .param)
  | .examples l => .ok (l.map .example)
  | _ => .stuck

/-- `for i, x := range l { body }`; `k` is the first index. -/
def tgRange (body : TgSt → TgOut) (i x : TgVar) : Nat → List TgV → TgSt → TgOut
  | _, [], st => .next st
  | k, v :: vs, st => (body ((st.set i (.int k)).set x v)).round (tgRange body i x (k + 1) vs)

/-- The things of `l` in the order `idx`. -/
def inOrder {α : Type} (l : List α) (idx : List Nat) : List α := idx.filterMap fun i => l[i]?

/-- The entries of a map. -/
def TgV.entries : TgV → GoR (List (Bytes × TgV))
  | .docMap m => .ok (m.map fun d => (d.name, .doc d))
  | .groups m => .ok (m.map fun p => (p.1, .docs p.2))
  | .flags m => .ok (m.map fun p => (p.1, .bool p.2))
  | _ => .stuck

/-- `for k, x := range m { body }`, of a map, its entries in the order in which they are taken. -/
def tgEntries (body : TgSt → TgOut) (k x : TgVar) : List (Bytes × TgV) → TgSt → TgOut
  | [], st => .next st
  | p :: ps, st => (body ((st.set k (.str p.1)).set x p.2)).round (tgEntries body k x ps)

/-- `for c { body; post }`, at most `n` rounds. -/
def tgLoop (c : TgSt → GoR TgV) (body post : TgSt → TgOut) : Nat → TgSt → TgOut
  | 0, _ => .spin
  | n + 1, st => (c st).runTg fun v => tgIf v ((body st).round fun st => (post st).andThen (tgLoop c body post n)) (.next st)

/-- The results of a call go into the variables. -/
def TgSt.bindAll (st : TgSt) (xs : List TgVar) (vs : List TgV) : TgOut :=
  match st.setAll xs vs with
  | some st => .next st
  | none => .stuck

/-- `x, y = e`, with an operation that has several results. -/
def tgMany (st : TgSt) (xs : List TgVar) : TgV → TgOut
  | .tuple vs => st.bindAll xs vs
  | _ => .stuck

/-- A call of a function ended: its results go into the variables. -/
def TgOut.results (o : TgOut) (st : TgSt) (xs : List TgVar) : TgOut :=
  match o with
  | .ret vs w => ({ st with w := w } : TgSt).bindAll xs vs
  | .exit c w => .exit c w
  | .panic => .panic
  | .spin => .spin
  | _ => .stuck

/-- `os.Open(name)`. -/
def tgOpen : Reading → List TgV
  | .cannotOpen e => [.nil, .err e]
  | .cannotRead e => [.file (.error e), .nil]
  | .content s => [.file (.ok s), .nil]

/-- `io.ReadAll(file)` (what was read before a failure is not represented). -/
def tgReadAll : Except Bytes Bytes → List TgV
  | .ok s => [.str s, .nil]
  | .error e => [.str [], .err e]

/-- `xml.Unmarshal(data, &wrapper)`, `wrapper` a struct of the fields of a `TestCase` under the name `testcase`
(/repo/edlisp/testing/testing.go:62-71): the struct and the error (what was stored before a failure is not represented). -/
def tgUnmarshal (x : TgX) (s : Bytes) : List TgV :=
  match unmarshalCase x.xml s with
  | some t => [.test t, .nil]
  | none => [.test {}, .err (x.xmlError s)]

/-- The calls of the trace callback. -/
def tgHook (call : List TgV → TgW → TgOut) : List TraceEvent → TgW → (TgW → TgOut) → TgOut
  | [], w, k => k w
  | ev :: evs, w, k =>
    match call [.event ev] w with
    | .ret _ w => tgHook call evs w k
    | .exit c w => .exit c w
    | .panic => .panic
    | .spin => .spin
    | _ => .stuck

/-- The results of `edlisp.EvalWithTrace`, and the buffer. -/
def tgEvaluated (st : TgSt) (y err b : TgVar) : Res ExecutionError Value × Buffer → TgOut
  | (.ok v, b') => st.bindAll [y, err, b] [.val v, .nil, .buffer b']
  | (.err e, b') => st.bindAll [y, err, b] [.nil, .err e.message, .buffer b']
  | (.panic, _) => .panic

/-- `edlisp.EvalWithTrace(program, env, buffer, hook)`. -/
def tgEval (call : List TgV → TgW → TgOut) (st : TgSt) (y err b : TgVar) (program env hook : TgV) : TgOut :=
  match program, env, st.vars b, hook with
  | .vals p, .env e, .buffer b', .nil => tgEvaluated st y err b (Texted.eval e p b')
  | .vals p, .env e, .buffer b', .hook =>
    let r := evalWithTrace e p b'
    tgHook call r.2.2 st.w fun w => tgEvaluated { st with w := w } y err b (r.1, r.2.1)
  | _, _, _, _ => .stuck

/-- Insertion of a thing into a list that is in ascending order of the names `key`, in front of the first one that is not less. -/
def insertBy {α : Type} (key : α → Bytes) (a : α) : List α → List α
  | [] => [a]
  | m :: r => if key m < key a then m :: insertBy key a r else a :: m :: r

/-- The list in ascending order; things with the same name stay in the order in which they were. -/
def sortBy {α : Type} (key : α → Bytes) : List α → List α
  | [] => []
  | a :: r => insertBy key a (sortBy key r)

/-- `sort.Slice(docs, …)` by a field that is a string: any order of things with the same name can come out. -/
def tgSortDocs (x : TgX) (st : TgSt) (y : TgVar) : TgF → TgOut
  | .name => match st.vars y with
    | .docs l => .next { st.set y (.docs (sortBy FunctionDoc.name (inOrder l (x.order st.w.tick l.length)))) with w := { st.w with tick := st.w.tick + 1 } }
    | _ => .stuck
  | _ => .stuck

/-- `sort.Strings(l)`. -/
def tgSortStrs (st : TgSt) (y : TgVar) : TgOut :=
  match st.vars y with
  | .strs l => .next (st.set y (.strs (sortBy id l)))
  | _ => .stuck

/-- `documentationRegistry[k] = d`; an entry is kept under its own name. -/
def tgRegister (st : TgSt) : TgV → TgV → TgOut
  | .str k, .doc d => if k = d.name then .next { st with w := { st.w with reg := st.w.reg.register d } } else .stuck
  | _, _ => .stuck

/-- `fmt.Printf`, `fmt.Println`. -/
def tgPrint (st : TgSt) : TgV → TgOut
  | .str s => .next { st with w := { st.w with out := st.w.out ++ s } }
  | _ => .stuck

/-- `os.Exit(c)`. -/
def tgExit (st : TgSt) : TgV → TgOut
  | .int c => .exit c st.w
  | _ => .stuck

/-- Running a statement; a loop may run at most `n` rounds; `call` is what calls of functions do. -/
def TgS.exec (x : TgX) (n : Nat) (call : TgFn → List TgV → TgW → TgOut) : TgS → TgSt → TgOut
  | .skip, st => .next st
  | .seq a b, st => (a.exec x n call st).andThen fun st => b.exec x n call st
  | .set y e, st => (e.eval x st).runTg fun v => .next (st.set y v)
  | .setMany ys e, st => (e.eval x st).runTg (tgMany st ys)
  | .setField y f e, st => (e.eval x st).runTg fun v => ((st.vars y).setField f v).runTg fun v => .next (st.set y v)
  | .setAt y k e, st => (k.eval x st).runTg fun k => (e.eval x st).runTg fun v => ((st.vars y).setAt k v).runTg fun v => .next (st.set y v)
  | .openFile ys e, st => (e.eval x st).runTg fun v => match v with
    | .str f => st.bindAll ys (tgOpen (x.read f))
    | _ => .stuck
  | .readAll ys e, st => (e.eval x st).runTg fun v => match v with
    | .file r => st.bindAll ys (tgReadAll r)
    | _ => .stuck
  | .unmarshal y err e, st => (e.eval x st).runTg fun v => match v with
    | .str s => st.bindAll [y, err] (tgUnmarshal x s)
    | _ => .stuck
  | .evalTrace y err p e b h, st => (p.eval x st).runTg fun p => (e.eval x st).runTg fun e => (h.eval x st).runTg fun h =>
      tgEval (call .traceHook) st y err b p e h
  | .callFn ys f args, st => (args.eval x st).runTg fun vs => (call f vs st.w).results st ys
  | .print e, st => (e.eval x st).runTg (tgPrint st)
  | .exit e, st => (e.eval x st).runTg (tgExit st)
  | .if_ c a b, st => (c.eval x st).runTg fun v => tgIf v (a.exec x n call st) (b.exec x n call st)
  | .while c post body, st => tgLoop (fun st => c.eval x st) (fun st => body.exec x n call st) (fun st => post.exec x n call st) n st
  | .range i y e body, st => (e.eval x st).runTg fun v => v.items.runTg fun l => tgRange (fun st => body.exec x n call st) i y 0 l st
  | .rangeMap k y e body, st => (e.eval x st).runTg fun v => v.entries.runTg fun l =>
      tgEntries (fun st => body.exec x n call st) k y (inOrder l (x.order st.w.tick l.length)) { st with w := { st.w with tick := st.w.tick + 1 } }
  | .sortDocs y f, st => tgSortDocs x st y f
  | .sortStrs y, st => tgSortStrs st y
  | .register k d, st => (k.eval x st).runTg fun k => (d.eval x st).runTg fun d => tgRegister st k d
  | .cont, st => .cont st
  | .brk, st => .brk st
  | .ret es, st => (es.eval x st).runTg fun vs => .ret vs st.w

end
end Texted
