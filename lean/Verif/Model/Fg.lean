import Verif.Model.FgVar
import Verif.Model.Go
import Verif.Model.EditCmd
import Verif.Model.Mcp
/-
A third small Go, with functions that use the operating system: the language that /repo/texted.go, /repo/commands/edit.go,
/repo/commands/parse.go, /repo/edlisp/writer, /repo/tools/edit_file.go and /repo/tools/texted_eval.go are translated into by
tools/go2fg.py (Model/FgSource). What a function does is a `Proc` (Model/Proc): a tree of actions and replies, so that everything said
about crashes, failures and interleavings of a `Proc` is about the Go text.

The functions call the parsers, the evaluator and the conversions of the writers, whose own Go texts are the subject of C94: here they are
operations with the meaning of the model (`parseString`, `parseJsonString`, `eval`, `shellString`, `valueToJson`).

Simplifications: an `int` does not overflow (it counts arguments or rounds, or is a length); a nil slice and an empty one are the same; a
pointer to a struct of arguments is its fields, each one a variable; a buffer and a `strings.Builder` belong to one variable (none of the
functions copies such a pointer); what `os.ReadFile` returns beside an error is empty; a `for` without a condition runs at most `n` rounds and
calls go at most `d` deep before a run is called `spin`.
-/
namespace Texted

/-- The writers of /repo/edlisp/writer (`&ShellWriter{}`, `&SExpWriter{}`, `&JSONWriter{}`). -/
inductive FgW where
  | shell | sexp | json
  deriving DecidableEq

/-- Fields of an `EditResult` (/repo/texted.go:11-15). -/
inductive FgField where
  | filename | success | error
  deriving DecidableEq

/-- An `EditResult`, field by field. -/
structure FgResult where
  filename : Bytes
  success : Bool
  error : Option Bytes
  deriving DecidableEq

/-- Operations without effects: the Go language, package fmt, constructors, and the accessors of a request that cannot fail. -/
inductive FgP where
  | len | index | append | errorf | sprintf | decimal
  | newBuffer | bufferString | builderString | newList | sexpText | newEnv
  | newEditResult | field (f : FgField)
  | getString | getBool | toolText | toolError
  | isWriter (k : FgW)
  deriving DecidableEq

/-- Operations that act, that may crash, or that have several results. -/
inductive FgOp where
  | readFile | writeFile | readStdin | print | fprint | encode
  | parseString | parseJSONString | parseReader | parseJSONReader | eval
  | valueToShellString | valueToJSON
  | flagString | flagStrings | requireString | requireStrings
  deriving DecidableEq

mutual
/-- Expressions. -/
inductive FgE where
  | var (x : FgVar)
  | int (n : Int)
  | str (s : Bytes)
  | bool (t : Bool)
  | nil
  | noVals
  | noStrs
  | noResults
  | noText
  | stdin
  | stdout
  | writer (k : FgW)
  | bin (op : GoOp) (a b : FgE)
  | not (a : FgE)
  | call (p : FgP) (args : FgEs)
/-- Lists of expressions. -/
inductive FgEs where
  | nil
  | cons (e : FgE) (es : FgEs)
end

/-- Statements. `forever` is `for { … }`. -/
inductive FgS where
  | skip
  | seq (a b : FgS)
  | set (x : FgVar) (e : FgE)
  | setField (x : FgVar) (f : FgField) (e : FgE)
  | op (xs : List FgVar) (o : FgOp) (args : FgEs)
  | callFn (xs : List FgVar) (f : FgFn) (args : FgEs)
  | if_ (c : FgE) (a b : FgS)
  | range (i x : FgVar) (e : FgE) (body : FgS)
  | forever (body : FgS)
  | cont
  | brk
  | ret (es : FgEs)

/-- What a variable can hold. `builder` is a `strings.Builder`; `cmd` is the parsed command line as far as it is read through `cmd.Flags()`:
the values of `--script` and of `--expression`; `request` is a tool call with its arguments. -/
inductive FgV where
  | nil
  | int (n : Int)
  | str (s : Bytes)
  | bool (t : Bool)
  | strs (ss : List Bytes)
  | val (v : Value)
  | vals (vs : List Value)
  | err (e : Bytes)
  | env
  | buffer (b : Buffer)
  | builder (s : Bytes)
  | stdin
  | stdout
  | writer (k : FgW)
  | json (j : Json)
  | result (r : FgResult)
  | results (rs : List FgResult)
  | cmd (script : Bytes) (expressions : List Bytes)
  | request (args : Json)
  | tool (r : ToolResult)

/-- The variables of a running function. -/
abbrev FgSt := FgVar → FgV

/-- `x = v`. -/
def fgSet (st : FgSt) (x : FgVar) (v : FgV) : FgSt := fun y => if y = x then v else st y

/-- `x, y, … = v, w, …`. -/
def fgSetAll (st : FgSt) : List FgVar → List FgV → Option FgSt
  | [], [] => some st
  | x :: xs, v :: vs => fgSetAll (fgSet st x v) xs vs
  | _, _ => none

/-- `a == b`. -/
def FgV.eq : FgV → FgV → GoR Bool
  | .int a, .int b => .ok (a = b)
  | .str a, .str b => .ok (a = b)
  | .err _, .nil => .ok false
  | .nil, .nil => .ok true
  | _, _ => .stuck

/-- A binary operator other than `&&` and `||`. -/
def GoOp.applyFg : GoOp → FgV → FgV → GoR FgV
  | .eq, a, b => (a.eq b).bind fun t => .ok (.bool t)
  | .ne, a, b => (a.eq b).bind fun t => .ok (.bool (!t))
  | .add, .int a, .int b => .ok (.int (a + b))
  | .gt, .int a, .int b => .ok (.bool (b < a))
  | .ge, .int a, .int b => .ok (.bool (b ≤ a))
  | .add, .str a, .str b => .ok (.str (a ++ b))
  | _, _, _ => .stuck

/-- The pieces of a message: strings and errors (`%s`, `%w`, `%v`). -/
def fgPieces : List FgV → GoR Bytes
  | [] => .ok []
  | .str s :: r => (fgPieces r).bind fun t => .ok (s ++ t)
  | .err s :: r => (fgPieces r).bind fun t => .ok (s ++ t)
  | _ => .stuck

/-- An error, or nil. -/
def fgError : Option Bytes → FgV
  | some e => .err e
  | none => .nil

/-- `r.Filename`, `r.Success`, `r.Error`. -/
def FgResult.get (r : FgResult) : FgField → FgV
  | .filename => .str r.filename
  | .success => .bool r.success
  | .error => fgError r.error

/-- `r.Success = v`, `r.Error = v`. -/
def FgV.setField : FgV → FgField → FgV → GoR FgV
  | .result r, .success, .bool t => .ok (.result { r with success := t })
  | .result r, .error, .err e => .ok (.result { r with error := some e })
  | .result r, .error, .nil => .ok (.result { r with error := none })
  | _, _, _ => .stuck

/-- `len(v)`. -/
def FgV.len : FgV → GoR FgV
  | .str s => .ok (.int s.length)
  | .strs l => .ok (.int l.length)
  | _ => .stuck

/-- `v[i]`; an index that is out of range is a run-time panic. -/
def FgV.index : FgV → FgV → GoR FgV
  | .strs l, .int i => (GoR.orPanic (goAt l i)).bind fun s => .ok (.str s)
  | _, _ => .stuck

/-- `append(l, v)`. -/
def FgV.append : FgV → FgV → GoR FgV
  | .strs l, .str s => .ok (.strs (l ++ [s]))
  | .results l, .result r => .ok (.results (l ++ [r]))
  | _, _ => .stuck

section
variable [Ext]

/-- The operations without effects. -/
def FgP.apply : FgP → List FgV → GoR FgV
  | .len, [v] => v.len
  | .index, [v, i] => v.index i
  | .append, [l, v] => l.append v
  | .errorf, l => (fgPieces l).bind fun s => .ok (.err s)
  | .sprintf, l => (fgPieces l).bind fun s => .ok (.str s)
  | .decimal, [.int n] => .ok (.str (intDec n))
  | .newBuffer, [.str s] => .ok (.buffer (Texted.newBuffer s))
  | .bufferString, [.buffer b] => .ok (.str b.content)
  | .builderString, [.builder s] => .ok (.str s)
  | .newList, [.val v] => .ok (.val (.list [v]))
  | .sexpText, [.val v] => .ok (.str v.toStr)
  | .newEnv, [] => .ok .env
  | .newEditResult, [.str f] => .ok (.result ⟨f, false, none⟩)
  | .field f, [.result r] => .ok (r.get f)
  | .getString, [.request j, .str k, .str d] => .ok (.str (Texted.getString j k d))
  | .getBool, [.request j, .str k, .bool d] => .ok (.bool (Texted.getBool j k d))
  | .toolText, [.str s] => .ok (.tool (.text s))
  | .toolError, [.str s] => .ok (.tool (.error s))
  | .isWriter k, [.writer k'] => .ok (.bool (k = k'))
  | _, _ => .stuck

/-- What `&&` and `||` do with their left operand: whether the right one is evaluated. -/
def fgShort (stop : Bool) (a : FgV) (rest : GoR FgV) : GoR FgV :=
  match a with
  | .bool t => if t = stop then .ok (.bool stop) else rest.bind fun v => match v with
    | .bool u => .ok (.bool u)
    | _ => .stuck
  | _ => .stuck

/-- `!v`. -/
def FgV.not : FgV → GoR FgV
  | .bool t => .ok (.bool (!t))
  | _ => .stuck

mutual
/-- The value of an expression (the Go language). -/
def FgE.eval (st : FgSt) : FgE → GoR FgV
  | .var x => .ok (st x)
  | .int n => .ok (.int n)
  | .str s => .ok (.str s)
  | .bool t => .ok (.bool t)
  | .nil => .ok .nil
  | .noVals => .ok (.vals [])
  | .noStrs => .ok (.strs [])
  | .noResults => .ok (.results [])
  | .noText => .ok (.builder [])
  | .stdin => .ok .stdin
  | .stdout => .ok .stdout
  | .writer k => .ok (.writer k)
  | .bin .or a b => (a.eval st).bind fun v => fgShort true v (b.eval st)
  | .bin .and a b => (a.eval st).bind fun v => fgShort false v (b.eval st)
  | .bin op a b => (a.eval st).bind fun v => (b.eval st).bind fun w => op.applyFg v w
  | .not a => (a.eval st).bind FgV.not
  | .call p args => (args.eval st).bind p.apply
/-- The values of a list of expressions, from left to right. -/
def FgEs.eval (st : FgSt) : FgEs → GoR (List FgV)
  | .nil => .ok []
  | .cons e es => (e.eval st).bind fun v => (es.eval st).bind fun vs => .ok (v :: vs)
end

/-- `data, err` of a read. -/
def fgData : Except Bytes Bytes → List FgV
  | .ok d => [.str d, .nil]
  | .error e => [.str [], .err e]

/-- The `err` of a write. -/
def fgErr : Except Bytes Bytes → FgV
  | .ok _ => .nil
  | .error e => .err e

/-- The results of a parser. -/
def fgParsed : Res Bytes (List Value) → Proc (Option (List FgV))
  | .ok p => .ret (some [.vals p, .nil])
  | .err e => .ret (some [.vals [], .err e])
  | .panic => .panic

/-- The results of a parser of standard input: a read that fails is the parser's error (what was read before is not represented). -/
def fgParsedFrom (parse : Bytes → Res Bytes (List Value)) : Except Bytes Bytes → Proc (Option (List FgV))
  | .ok d => fgParsed (parse d)
  | .error e => .ret (some [.vals [], .err e])

/-- `value, err := edlisp.Eval(program, env, buffer)`, and the buffer afterwards. -/
def fgEvaluated : Res ExecutionError Value × Buffer → Proc (Option (List FgV))
  | (.ok v, b) => .ret (some [.val v, .nil, .buffer b])
  | (.err e, b) => .ret (some [.nil, .err e.message, .buffer b])
  | (.panic, _) => .panic

/-- `fmt.Fprint(w, text)`: the number of bytes (not represented), the error, and the writer afterwards. A `strings.Builder` never fails. -/
def fgFprint : FgV → Bytes → Proc (Option (List FgV))
  | .stdout, t => .act (.print t) fun r => .ret (some [.nil, fgErr r, .stdout])
  | .builder s, t => .ret (some [.nil, .nil, .builder (s ++ t)])
  | _, _ => .ret none

/-- `json.NewEncoder(w).Encode(j)`: the error, and the writer afterwards. -/
def fgEncode (w : FgV) (j : Json) : Proc (Option (List FgV)) :=
  match jsonPrint j with
  | some t => (fgFprint w (t ++ [nl])).bind fun r => .ret (r.map List.tail)
  | none => .ret (some [.err jsonUnsupported, w])

/-- The results of a function that returns a text. -/
def fgText : Except Bytes Bytes → List FgV
  | .ok t => [.str t, .nil]
  | .error e => [.str [], .err e]

/-- The results of `RequireStringSlice`. -/
def fgStrings : Except Bytes (List Bytes) → List FgV
  | .ok l => [.strs l, .nil]
  | .error e => [.strs [], .err e]

/-- The operations that act; `none` is an operation on values it has no meaning for. -/
def FgOp.run : FgOp → List FgV → Proc (Option (List FgV))
  | .readFile, [.str f] => .act (.read f) fun r => .ret (some (fgData r))
  | .writeFile, [.str f, .str d] => .act (.write f d) fun r => .ret (some [fgErr r])
  | .readStdin, [] => .act .stdin fun r => .ret (some (fgData r))
  | .print, [.str t] => .act (.print t) fun r => .ret (some [.nil, fgErr r])
  | .fprint, [w, .str t] => fgFprint w t
  | .encode, [w, .json j] => fgEncode w j
  | .parseString, [.str s] => fgParsed (Texted.parseString s)
  | .parseJSONString, [.str s] => fgParsed (Res.ofExcept (parseJsonString s))
  | .parseReader, [.stdin] => .act .stdin (fgParsedFrom Texted.parseString)
  | .parseJSONReader, [.stdin] => .act .stdin (fgParsedFrom fun s => Res.ofExcept (parseJsonReader s))
  | .eval, [.vals p, .env, .buffer b] => fgEvaluated (Texted.eval defaultEnv p b)
  | .valueToShellString, [.val v] => .ret (some (fgText (shellString v)))
  | .valueToJSON, [.val v] => .ret (some [.json (valueToJson v), .nil])
  | .flagString, [.cmd s _, .str k] => .ret (if k = b! "script" then some [.str s, .nil] else none)
  | .flagStrings, [.cmd _ es, .str k] => .ret (if k = b! "expression" then some [.strs es, .nil] else none)
  | .requireString, [.request j, .str k] => .ret (some (fgText (Texted.requireString j k)))
  | .requireStrings, [.request j, .str k] => .ret (some (fgStrings (Texted.requireStringSlice j k)))
  | _, _ => .ret none

/-- What running a statement can end in: it goes on, it goes on with the next round of the loop (`continue`) or behind the loop (`break`),
the function returns, the statement has no meaning (Go's compiler would refuse it), or it has not ended within the rounds and calls given. (A
crash is the `panic` of `Proc`.) -/
inductive FgOut where
  | next (st : FgSt)
  | cont (st : FgSt)
  | brk (st : FgSt)
  | ret (vs : List FgV)
  | stuck
  | spin

/-- First one statement, then the next one. -/
def FgOut.andThen : FgOut → (FgSt → Proc FgOut) → Proc FgOut
  | .next st, k => k st
  | o, _ => .ret o

/-- The end of a round of a loop. -/
def FgOut.round : FgOut → (FgSt → Proc FgOut) → Proc FgOut
  | .next st, k => k st
  | .cont st, k => k st
  | .brk st, _ => .ret (.next st)
  | o, _ => .ret o

/-- Evaluate an expression, then go on with its value. -/
def GoR.runFg {α : Type} : GoR α → (α → Proc FgOut) → Proc FgOut
  | .ok a, k => k a
  | .panic, _ => .panic
  | .stuck, _ => .ret .stuck

/-- `if` on a condition that has been evaluated. -/
def fgIf (v : FgV) (a b : Proc FgOut) : Proc FgOut :=
  match v with
  | .bool t => if t then a else b
  | _ => .ret .stuck

/-- The elements that `range` goes through. -/
def FgV.items : FgV → GoR (List FgV)
  | .vals l => .ok (l.map .val)
  | .strs l => .ok (l.map .str)
  | .results l => .ok (l.map .result)
  | _ => .stuck

/-- `for i, x := range l { body }`; `k` is the first index. -/
def fgRange (body : FgSt → Proc FgOut) (i x : FgVar) : Nat → List FgV → FgSt → Proc FgOut
  | _, [], st => .ret (.next st)
  | k, v :: vs, st => (body (fgSet (fgSet st i (.int k)) x v)).bind fun o => o.round (fgRange body i x (k + 1) vs)

/-- `for { body }`, at most `n` rounds. -/
def fgForever (body : FgSt → Proc FgOut) : Nat → FgSt → Proc FgOut
  | 0, _ => .ret .spin
  | n + 1, st => (body st).bind fun o => o.round (fgForever body n)

/-- `x, y, … = results`. -/
def fgBind (st : FgSt) (xs : List FgVar) (vs : List FgV) : FgOut :=
  match fgSetAll st xs vs with
  | some st => .next st
  | none => .stuck

/-- An operation ended: its results go into the variables. -/
def fgGot (st : FgSt) (xs : List FgVar) : Option (List FgV) → FgOut
  | some vs => fgBind st xs vs
  | none => .stuck

/-- A call of a function ended: its results go into the variables. -/
def FgOut.results (o : FgOut) (st : FgSt) (xs : List FgVar) : FgOut :=
  match o with
  | .ret vs => fgBind st xs vs
  | .spin => .spin
  | _ => .stuck

/-- Running a statement; `for { … }` may run at most `n` rounds; `call` is what calls of functions do. -/
def FgS.exec (n : Nat) (call : FgFn → List FgV → Proc FgOut) : FgS → FgSt → Proc FgOut
  | .skip, st => .ret (.next st)
  | .seq a b, st => (a.exec n call st).bind fun o => o.andThen fun st => b.exec n call st
  | .set x e, st => (e.eval st).runFg fun v => .ret (.next (fgSet st x v))
  | .setField x f e, st => (e.eval st).runFg fun v => ((st x).setField f v).runFg fun v => .ret (.next (fgSet st x v))
  | .op xs o args, st => (args.eval st).runFg fun vs => (o.run vs).bind fun r => .ret (fgGot st xs r)
  | .callFn xs f args, st => (args.eval st).runFg fun vs => (call f vs).bind fun o => .ret (o.results st xs)
  | .if_ c a b, st => (c.eval st).runFg fun v => fgIf v (a.exec n call st) (b.exec n call st)
  | .range i x e body, st => (e.eval st).runFg fun v => v.items.runFg fun l => fgRange (fun st => body.exec n call st) i x 0 l st
  | .forever body, st => fgForever (fun st => body.exec n call st) n st
  | .cont, st => .ret (.cont st)
  | .brk, st => .ret (.brk st)
  | .ret es, st => (es.eval st).runFg fun vs => .ret (.ret vs)

end
end Texted
