import Verif.Model.PgVar
import Verif.Model.Go
import Verif.Model.Writer
import Verif.Model.Eval
/-
A second small Go, with functions that call each other: the language that the parser (/repo/edlisp/parser/linebased.go, json.go), the
evaluator (eval.go, error.go), `Equal` (equal.go), the `String` methods and the writers are translated into by tools/go2pg.py
(Model/PgSource).

Simplifications: a nil slice and an empty one are the same; a `strings.Builder` is a string; an io.Reader is the bytes it gives; there is
one buffer; callbacks only observe; memory and stack are unlimited. A loop may go on for ever and a function may call itself for ever:
`n` is the number of rounds a loop may take and `d` the depth of calls before a run is called `spin`.
-/
namespace Texted

/-- The types that the functions ask for (type switches, type assertions and `IsA`). -/
inductive PgT where
  | number | string | symbol | list
  | array | goString | float | bool | null
  deriving DecidableEq

/-- The fields of an `ExecutionError` that its method `Error` reads (/repo/edlisp/error.go:9-42). -/
inductive PgX where
  | error | instruction | index | point | mark

/-- Operations that are not functions of the translated files: the Go language, the standard library, methods of values
(`Len`, `Get`: their own Go texts are translated too, see `C94_methods`). -/
inductive PgP where
  | len | index | sliceFrom | append | make
  | runeString | int | float64
  | errorf | errorText | quote | decimal | fmtG | fmtF0 | typeName | verb
  | isA (t : PgT) | isType (t : PgT) | as (t : PgT) | as2 (t : PgT) | iface | isMap | reflectValueOf
  | newString | newNumber | newSymbol | newList
  | name | value | elements | kindName | listLen | listGet
  | executionError | failure (x : PgX)
  | hasPrefix | hasSuffix | trimSpace | trimLeft | join
  | unquote | parseFloat | lookup
  | newReader | newScanner | scanText | scanErr
  | unmarshal

mutual
/-- Expressions. -/
inductive PgE where
  | var (x : PgVar)
  | int (n : Int)
  | str (s : Bytes)
  | rune (c : Char)
  | bool (t : Bool)
  | nil
  | noVals
  | noStrs
  | noJsons
  | buf (f : GoField)
  | bin (op : GoOp) (a b : PgE)
  | not (a : PgE)
  | call (p : PgP) (args : PgEs)
/-- Lists of expressions. -/
inductive PgEs where
  | nil
  | cons (e : PgE) (es : PgEs)
end

/-- Statements. -/
inductive PgS where
  | skip
  | seq (a b : PgS)
  | set (x : PgVar) (e : PgE)
  | setMany (xs : List PgVar) (e : PgE)
  | setAt (x : PgVar) (i e : PgE)
  | callFn (xs : List PgVar) (f : PgFn) (args : PgEs)
  | callValue (xs : List PgVar) (f args : PgE)
  | trace (f e : PgE)
  | if_ (c : PgE) (a b : PgS)
  | while (c : PgE) (post body : PgS)
  | range (i x : PgVar) (e : PgE) (body : PgS)
  | forScan (x : PgVar) (body : PgS)
  | cont
  | ret (es : PgEs)

/-- What a variable can hold. `slots` is a slice made by `make` whose elements are nil until they are set; `scanner` is a
`bufio.Scanner` with the bytes not yet read, the line it read last and its error; `hook` is a trace callback. -/
inductive PgV where
  | nil
  | int (n : Int)
  | str (s : Bytes)
  | rune (c : Char)
  | bool (t : Bool)
  | float (x : F64)
  | val (v : Value)
  | vals (vs : List Value)
  | strs (ss : List Bytes)
  | slots (l : List (Option Value))
  | err (e : Bytes)
  | xerr (e : ExecutionError)
  | fn (f : Builtin)
  | env (e : Env)
  | buffer
  | hook
  | writer
  | json (j : Json)
  | jsons (l : List Json)
  | scanner (rest text : Bytes) (err : Option Bytes)
  | tuple (l : List PgV)

/-- What the functions work on: the buffer, the calls of the trace callback so far, and what package encoding/json says about a text that
is no JSON array (the text of that error is a parameter). -/
structure PgW where
  buf : Buffer
  events : List TraceEvent
  jsonError : Bytes → Bytes

/-- The state of a running function: its variables and the world. -/
structure PgSt where
  vars : PgVar → PgV
  w : PgW

/-- `x = v`. -/
def PgSt.set (st : PgSt) (x : PgVar) (v : PgV) : PgSt := { st with vars := fun y => if y = x then v else st.vars y }

/-- `x, y, … = v, w, …`. -/
def PgSt.setAll (st : PgSt) : List PgVar → List PgV → Option PgSt
  | [], [] => some st
  | x :: xs, v :: vs => (st.set x v).setAll xs vs
  | _, _ => none

/-- Whether a value of an interface or function type is nil. -/
def PgV.isNil : PgV → GoR Bool
  | .nil => .ok true
  | .err _ => .ok false
  | .xerr _ => .ok false
  | .val _ => .ok false
  | .hook => .ok false
  | _ => .stuck

/-- `a == b`. -/
def PgV.eq : PgV → PgV → GoR Bool
  | .int a, .int b => .ok (a = b)
  | .str a, .str b => .ok (a = b)
  | .rune a, .rune b => .ok (a = b)
  | .float a, .float b => .ok (F64.goEq a b)
  | a, .nil => a.isNil
  | _, _ => .stuck

/-- A binary operator other than `&&` and `||`. -/
def GoOp.applyPg : GoOp → PgV → PgV → GoR PgV
  | .eq, a, b => (a.eq b).bind fun t => .ok (.bool t)
  | .ne, a, b => (a.eq b).bind fun t => .ok (.bool (!t))
  | .add, .int a, .int b => .ok (.int (wrap64 (a + b)))
  | .sub, .int a, .int b => .ok (.int (wrap64 (a - b)))
  | .lt, .int a, .int b => .ok (.bool (a < b))
  | .gt, .int a, .int b => .ok (.bool (b < a))
  | .ge, .int a, .int b => .ok (.bool (b ≤ a))
  | .add, .str a, .str b => .ok (.str (a ++ b))
  | _, _, _ => .stuck

/-- `len(v)`. -/
def PgV.len : PgV → GoR PgV
  | .str s => .ok (.int s.length)
  | .vals l => .ok (.int l.length)
  | .strs l => .ok (.int l.length)
  | .jsons l => .ok (.int l.length)
  | _ => .stuck

/-- `v[i]`; an index that is out of range is a run-time panic. -/
def PgV.index : PgV → PgV → GoR PgV
  | .vals l, .int i => (GoR.orPanic (goAt l i)).bind fun v => .ok (.val v)
  | .strs l, .int i => (GoR.orPanic (goAt l i)).bind fun s => .ok (.str s)
  | .jsons l, .int i => (GoR.orPanic (goAt l i)).bind fun j => .ok (.json j)
  | _, _ => .stuck

/-- `v[l:]`. -/
def PgV.sliceFrom : PgV → PgV → GoR PgV
  | .jsons l, .int i => if 0 ≤ i ∧ i ≤ l.length then .ok (.jsons (l.drop i.toNat)) else .panic
  | _, _ => .stuck

/-- A Go value of one of the types that package encoding/json uses, as an `interface{}`. -/
def PgV.toJson : PgV → GoR Json
  | .json j => .ok j
  | .jsons l => .ok (.arr l)
  | .str s => .ok (.str s)
  | .float x => .ok (.num x)
  | _ => .stuck

/-- `append(l, v)`. -/
def PgV.append : PgV → PgV → GoR PgV
  | .vals l, .val v => .ok (.vals (l ++ [v]))
  | .strs l, .str s => .ok (.strs (l ++ [s]))
  | .jsons l, v => v.toJson.bind fun j => .ok (.jsons (l ++ [j]))
  | _, _ => .stuck

/-- `IsA(v, The…Kind)` (/repo/edlisp/types.go:16-18) and the type `*Number`, …, of a value. -/
def PgT.isValue : PgT → Value → Bool
  | .number, .num _ => true
  | .string, .str _ => true
  | .symbol, .sym _ => true
  | .list, .list _ => true
  | _, _ => false

/-- The type of a decoded JSON value. -/
def PgT.isJson : PgT → Json → Bool
  | .array, .arr _ => true
  | .goString, .str _ => true
  | .float, .num _ => true
  | .bool, .bool _ => true
  | .null, .null => true
  | _, _ => false

/-- The case of a type switch. -/
def PgT.holds (t : PgT) : PgV → GoR Bool
  | .val v => .ok (t.isValue v)
  | .json j => .ok (t.isJson j)
  | _ => .stuck

/-- The value with the type it was found to have. -/
def PgV.unpack : PgV → PgV
  | .json (.arr l) => .jsons l
  | .json (.str s) => .str s
  | .json (.num x) => .float x
  | v => v

/-- `v.(T)`: a run-time panic unless the value has the type. -/
def PgT.assert (t : PgT) (v : PgV) : GoR PgV := (t.holds v).bind fun b => if b then .ok v.unpack else .panic

/-- `x, ok := v.(T)`; x is the zero value if not. -/
def PgT.assert2 (t : PgT) (v : PgV) : GoR PgV :=
  (t.holds v).bind fun b => .ok (.tuple (if b then [v.unpack, .bool true] else [if t = .goString then .str [] else .nil, .bool false]))

/-- The pieces of a message: strings and errors (`%w`, `%s`). -/
def pgPieces : List PgV → GoR Bytes
  | [] => .ok []
  | .str s :: r => (pgPieces r).bind fun t => .ok (s ++ t)
  | .err s :: r => (pgPieces r).bind fun t => .ok (s ++ t)
  | _ => .stuck

/-- `KindName` (/repo/edlisp/number.go, string.go, symbol.go, list.go). -/
def Value.kindName : Value → Bytes
  | .num _ => b! "number"
  | .str _ => b! "string"
  | .sym _ => b! "symbol"
  | .list _ => b! "list"

/-- The fields of an `ExecutionError` (/repo/edlisp/error.go:9-42). -/
def ExecutionError.get (e : ExecutionError) : PgX → PgV
  | .error => .err e.originalError
  | .instruction => .val e.currentInstruction
  | .index => .int e.instructionIndex
  | .point => .int e.point
  | .mark => .int e.mark

/-- `scanner.Scan()` with `bufio.ScanLines`: `none` at the end of the input, otherwise the line without its newline, the rest; a line that
does not fit the buffer is an error (see `maxToken`). -/
def scanNext (rest : Bytes) : Option (Except Bytes (Bytes × Bytes)) :=
  if rest = [] then none
  else
    let line := rest.takeWhile (· ≠ nl)
    if maxToken ≤ line.length then some (.error (b! "bufio.Scanner: token too long"))
    else some (.ok (dropCR line, rest.drop (line.length + 1)))

/-- `json.Unmarshal([]byte(s), &rawValues)` with `rawValues` of type `[]interface{}`: the value and the error. `null` makes it nil. -/
def pgUnmarshal (say : Bytes → Bytes) (s : Bytes) : PgV :=
  match jsonText s with
  | some (.arr l) => .tuple [.jsons l, .nil]
  | some .null => .tuple [.jsons [], .nil]
  | _ => .tuple [.jsons [], .err (say s)]

/-- `reflect.ValueOf(v).Kind() == reflect.Map`. -/
def Json.isObj : Json → Bool
  | .obj _ => true
  | _ => false

/-- The element of a list, or nil (`List.Get`, /repo/edlisp/list.go:87-92). -/
def pgGot : Option Value → PgV
  | some v => .val v
  | none => .nil

/-- The results of `strconv.Unquote`. -/
def pgUnquoted : Option Bytes → List PgV
  | some t => [.str t, .nil]
  | none => [.str [], .err (b! "invalid syntax")]

/-- The results of `strconv.ParseFloat` (the text of the error is not used). -/
def pgNumber : Option F64 → List PgV
  | some x => [.float x, .nil]
  | none => [.nil, .err (b! "no number")]

/-- The results of a lookup in a map of functions. -/
def pgFunction : Option Builtin → List PgV
  | some f => [.fn f, .bool true]
  | none => [.nil, .bool false]

/-- An error, or nil. -/
def pgError : Option Bytes → PgV
  | some m => .err m
  | none => .nil

section
variable [Ext]

/-- The operations. -/
def PgP.apply (say : Bytes → Bytes) : PgP → List PgV → GoR PgV
  | .len, [v] => v.len
  | .index, [v, i] => v.index i
  | .sliceFrom, [v, i] => v.sliceFrom i
  | .append, [l, v] => l.append v
  | .make, [.int n] => if n < 0 then .panic else .ok (.slots (List.replicate n.toNat none))
  | .runeString, [.rune c] => .ok (.str (encodeRune c))
  | .int, [.float x] => .ok (.int x.toInt)
  | .float64, [.int n] => .ok (.float (F64.ofInt n))
  | .errorf, l => (pgPieces l).bind fun s => .ok (.err s)
  | .errorText, [.err e] => .ok (.str e)
  | .quote, [.str s] => .ok (.str (Texted.quote s))
  | .decimal, [.int n] => .ok (.str (intDec n))
  | .fmtG, [.float x] => .ok (.str (Texted.fmtG x))
  | .fmtF0, [.float x] => .ok (.str (F64.fmtF0 x))
  | .typeName, [.json j] => .ok (.str j.typeName)
  | .typeName, [.val v] => .ok (.str v.goType)
  | .verb, [.json j] => .ok (.str j.verb)
  | .isA t, [.val v] => .ok (.bool (t.isValue v))
  | .isA _, [.nil] => .panic
  | .isType t, [v] => (t.holds v).bind fun b => .ok (.bool b)
  | .as t, [v] => t.assert v
  | .as2 t, [v] => t.assert2 v
  | .iface, [v] => v.toJson.bind fun j => .ok (.json j)
  | .isMap, [.json j] => .ok (.bool j.isObj)
  | .reflectValueOf, [v] => .ok v
  | .newString, [.str s] => .ok (.val (.str s))
  | .newNumber, [.float x] => .ok (.val (.num x))
  | .newSymbol, [.str s] => .ok (.val (.sym s))
  | .newList, [.vals l] => .ok (.val (.list l))
  | .name, [.val (.sym s)] => .ok (.str s)
  | .value, [.val (.str s)] => .ok (.str s)
  | .value, [.val (.num x)] => .ok (.float x)
  | .elements, [.val (.list l)] => .ok (.vals l)
  | .kindName, [.val v] => .ok (.str v.kindName)
  | .listLen, [.val (.list l)] => .ok (.int l.length)
  | .listGet, [.val (.list l), .int i] => .ok (pgGot (goAt l i))
  | .executionError, [.err e, .vals p, .val v, .int i, .str c, .int point, .int mark, .str m, .int s, .int t] =>
      .ok (.xerr ⟨e, p, v, i.toNat, c, point, mark, m, s, t⟩)
  | .failure x, [.xerr e] => .ok (e.get x)
  | .hasPrefix, [.str s, .str t] => .ok (.bool (Texted.hasPrefix s t))
  | .hasSuffix, [.str s, .str t] => .ok (.bool (Texted.hasSuffix s t))
  | .trimSpace, [.str s] => .ok (.str (Texted.trimSpace s))
  | .trimLeft, [.str s] => .ok (.str (Texted.trimLeft s))
  | .join, [.strs l, .str s] => .ok (.str (joinWith s l))
  | .unquote, [.str s] => .ok (.tuple (pgUnquoted (Texted.unquote s)))
  | .parseFloat, [.str s] => .ok (.tuple (pgNumber (Texted.parseFloat s)))
  | .lookup, [.env e, .str s] => .ok (.tuple (pgFunction (e s)))
  | .newReader, [.str s] => .ok (.str s)
  | .newScanner, [.str s] => .ok (.scanner s [] none)
  | .scanText, [.scanner _ t _] => .ok (.str t)
  | .scanErr, [.scanner _ _ e] => .ok (pgError e)
  | .unmarshal, [.str s] => .ok (pgUnmarshal say s)
  | _, _ => .stuck

/-- What `&&` and `||` do with their left operand: whether the right one is evaluated. -/
def pgShort (stop : Bool) (a : PgV) (rest : GoR PgV) : GoR PgV :=
  match a with
  | .bool t => if t = stop then .ok (.bool stop) else rest.bind fun v => match v with
    | .bool u => .ok (.bool u)
    | _ => .stuck
  | _ => .stuck

/-- `!v`. -/
def PgV.not : PgV → GoR PgV
  | .bool t => .ok (.bool (!t))
  | _ => .stuck

/-- The fields of the buffer (/repo/edlisp/eval.go:28-70). -/
def Buffer.pgField (b : Buffer) : GoField → PgV
  | .content => .str b.content
  | .point => .int b.point
  | .mark => .int b.mark
  | .lastMatch => .str b.lastMatch
  | .lastStart => .int b.lastStart
  | .lastEnd => .int b.lastEnd

mutual
/-- The value of an expression (the Go language). -/
def PgE.eval (st : PgSt) : PgE → GoR PgV
  | .var x => .ok (st.vars x)
  | .int n => .ok (.int n)
  | .str s => .ok (.str s)
  | .rune c => .ok (.rune c)
  | .bool t => .ok (.bool t)
  | .nil => .ok .nil
  | .noVals => .ok (.vals [])
  | .noStrs => .ok (.strs [])
  | .noJsons => .ok (.jsons [])
  | .buf f => .ok (st.w.buf.pgField f)
  | .bin .or a b => (a.eval st).bind fun v => pgShort true v (b.eval st)
  | .bin .and a b => (a.eval st).bind fun v => pgShort false v (b.eval st)
  | .bin op a b => (a.eval st).bind fun v => (b.eval st).bind fun w => op.applyPg v w
  | .not a => (a.eval st).bind PgV.not
  | .call p args => (args.eval st).bind (p.apply st.w.jsonError)
/-- The values of a list of expressions, from left to right. -/
def PgEs.eval (st : PgSt) : PgEs → GoR (List PgV)
  | .nil => .ok []
  | .cons e es => (e.eval st).bind fun v => (es.eval st).bind fun vs => .ok (v :: vs)
end

/-- What running a statement can end in: it goes on, it goes on with the next round of the loop (`continue`), the function returns, the
program panics, the statement has no meaning (Go's compiler would refuse it), or it has not ended within the rounds and calls given. -/
inductive PgOut where
  | next (st : PgSt)
  | cont (st : PgSt)
  | ret (vs : List PgV) (w : PgW)
  | panic
  | stuck
  | spin

/-- First one statement, then the next one. -/
def PgOut.andThen : PgOut → (PgSt → PgOut) → PgOut
  | .next st, k => k st
  | o, _ => o

/-- The end of a round of a loop. -/
def PgOut.round : PgOut → (PgSt → PgOut) → PgOut
  | .next st, k => k st
  | .cont st, k => k st
  | o, _ => o

/-- Evaluate an expression, then go on with its value. -/
def GoR.runPg {α : Type} : GoR α → (α → PgOut) → PgOut
  | .ok a, k => k a
  | .panic, _ => .panic
  | .stuck, _ => .stuck

/-- `if` on a condition that has been evaluated. -/
def pgIf (v : PgV) (a b : PgOut) : PgOut :=
  match v with
  | .bool t => if t then a else b
  | _ => .stuck

/-- `for cond { body }` (the post statement is part of `body`): at most `n` evaluations of the condition. -/
def pgLoop (cond : PgSt → GoR PgV) (body : PgSt → PgOut) (post : PgSt → PgOut) : Nat → PgSt → PgOut
  | 0, _ => .spin
  | n + 1, st => (cond st).runPg fun v => pgIf v ((body st).round fun st => (post st).andThen (pgLoop cond body post n)) (.next st)

/-- The elements that `range` goes through: those of a slice, or the runes of a string. -/
def PgV.items : PgV → GoR (List PgV)
  | .vals l => .ok (l.map .val)
  | .strs l => .ok (l.map .str)
  | .jsons l => .ok (l.map .json)
  | .str s => .ok ((decodeAll s).map .rune)
  | _ => .stuck

/-- `for i, x := range l { body }`; `k` is the first index. (The index of a rune would be the number of its first byte; no function
translated asks for it.) -/
def pgRange (body : PgSt → PgOut) (i x : PgVar) : Nat → List PgV → PgSt → PgOut
  | _, [], st => .next st
  | k, v :: vs, st => (body ((st.set i (.int k)).set x v)).round (pgRange body i x (k + 1) vs)

/-- `for scanner.Scan() { body }`, at most `n` calls of `Scan`. -/
def pgScan (body : PgSt → PgOut) (x : PgVar) : Nat → PgSt → PgOut
  | 0, _ => .spin
  | n + 1, st =>
    match st.vars x with
    | .scanner rest text _ =>
      match scanNext rest with
      | none => .next st
      | some (.error e) => .next (st.set x (.scanner rest text (some e)))
      | some (.ok (line, more)) => (body (st.set x (.scanner more line none))).round (pgScan body x n)
    | _ => .stuck

/-- `x, y, … = results`. -/
def PgSt.bindAll (st : PgSt) (xs : List PgVar) (vs : List PgV) : PgOut :=
  match st.setAll xs vs with
  | some st => .next st
  | none => .stuck

/-- A call of a function ended: its results go into the variables. -/
def PgOut.results (o : PgOut) (st : PgSt) (xs : List PgVar) : PgOut :=
  match o with
  | .ret vs w => ({ st with w := w } : PgSt).bindAll xs vs
  | .panic => .panic
  | .spin => .spin
  | _ => .stuck

/-- What a built-in returned, as Go values. -/
def pgReturn (w : PgW) (r : Res Bytes Value × Buffer) : PgOut :=
  match r with
  | (.ok v, b) => .ret [.val v, .nil] { w with buf := b }
  | (.err e, b) => .ret [.nil, .err e] { w with buf := b }
  | (.panic, _) => .panic

/-- The slice, if every element has been set. -/
def pgFilled : List (Option Value) → Option (List Value)
  | [] => some []
  | some v :: r => match pgFilled r with
    | some vs => some (v :: vs)
    | none => none
  | none :: _ => none

/-- `f(args, buffer)` for a function value. -/
def pgApply (st : PgSt) (f args : PgV) : PgOut :=
  match f, args with
  | .fn g, .slots l => match pgFilled l with
    | some vs => pgReturn st.w (g vs st.w.buf)
    | none => .stuck
  | _, _ => .stuck

/-- `args[i] = v`. -/
def PgV.setAt (x i v : PgV) : GoR PgV :=
  match x, i, v with
  | .slots l, .int i, .val v => if 0 ≤ i ∧ i < l.length then .ok (.slots (l.set i.toNat (some v))) else .panic
  | _, _, _ => .stuck

/-- `x, y = e` where the operation gives several results. -/
def pgMany (st : PgSt) (xs : List PgVar) (v : PgV) : PgOut :=
  match v with
  | .tuple vs => st.bindAll xs vs
  | _ => .stuck

/-- `traceCallback(&TraceContext{…})` (/repo/edlisp/eval.go:104-110): the callback sees the instruction and the buffer. -/
def pgTrace (st : PgSt) (f v : PgV) : PgOut :=
  match f, v with
  | .hook, .val v => .next { st with w := { st.w with events := st.w.events ++ [(v, st.w.buf)] } }
  | _, _ => .stuck

/-- Running a statement; a loop may evaluate its condition at most `n` times; `call` is what calls of functions do. -/
def PgS.exec (n : Nat) (call : PgFn → List PgV → PgW → PgOut) : PgS → PgSt → PgOut
  | .skip, st => .next st
  | .seq a b, st => (a.exec n call st).andThen fun st => b.exec n call st
  | .set x e, st => (e.eval st).runPg fun v => .next (st.set x v)
  | .setMany xs e, st => (e.eval st).runPg (pgMany st xs)
  | .setAt x i e, st => (i.eval st).runPg fun i => (e.eval st).runPg fun v => ((st.vars x).setAt i v).runPg fun l => .next (st.set x l)
  | .callFn xs f args, st => (args.eval st).runPg fun vs => (call f vs st.w).results st xs
  | .callValue xs f args, st => (f.eval st).runPg fun f => (args.eval st).runPg fun a => (pgApply st f a).results st xs
  | .trace f e, st => (f.eval st).runPg fun f => (e.eval st).runPg fun v => pgTrace st f v
  | .if_ c a b, st => (c.eval st).runPg fun v => pgIf v (a.exec n call st) (b.exec n call st)
  | .while c post body, st => pgLoop (fun st => c.eval st) (fun st => body.exec n call st) (fun st => post.exec n call st) n st
  | .range i x e body, st => (e.eval st).runPg fun v => v.items.runPg fun l => pgRange (fun st => body.exec n call st) i x 0 l st
  | .forScan x body, st => pgScan (fun st => body.exec n call st) x n st
  | .cont, st => .cont st
  | .ret es, st => (es.eval st).runPg fun vs => .ret vs st.w

end
end Texted
