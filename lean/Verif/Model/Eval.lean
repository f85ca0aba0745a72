import Verif.Model.Builtins
import Verif.Model.Quote
/-
The evaluator (/repo/edlisp/eval.go:88-159), the execution error (/repo/edlisp/error.go) and Equal.
-/
namespace Texted

/-- /repo/edlisp/eval.go:22-25 `Environment`: a map from names to built-ins. -/
abbrev Env := Bytes → Option Builtin

mutual
/-- /repo/edlisp/eval.go:117-159 `evalExpression`. `undefined-function %q` quotes the name. -/
def evalExpr [Ext] (env : Env) : Value → Buffer → Res Bytes Value × Buffer
  | .str s, b => (.ok (.str s), b)
  | .num x, b => (.ok (.num x), b)
  | .sym _, b => (.err b! "unknown expression type", b)
  | .list [], b => (.err b! "empty list", b)
  | .list (.sym f :: args), b =>
    match env f with
    | none => (.err (b! "undefined-function " ++ quote f), b)
    | some fn =>
      match evalArgs env args b with
      | (.ok vs, b') => fn vs b'
      | (.err e, b') => (.err e, b')
      | (.panic, b') => (.panic, b')
  | .list (_ :: _), b => (.err b! "first element of list must be a symbol", b)
/-- The argument loop (/repo/edlisp/eval.go:142-149): left to right, stopping at the first error. -/
def evalArgs [Ext] (env : Env) : List Value → Buffer → Res Bytes (List Value) × Buffer
  | [], b => (.ok [], b)
  | a :: as, b =>
    match evalExpr env a b with
    | (.ok v, b') =>
      match evalArgs env as b' with
      | (.ok vs, b'') => (.ok (v :: vs), b'')
      | (.err e, b'') => (.err e, b'')
      | (.panic, b'') => (.panic, b'')
    | (.err e, b') => (.err e, b')
    | (.panic, b') => (.panic, b')
end

/-- /repo/edlisp/error.go:9-42 `ExecutionError` (the `Environment` pointer is omitted: it is the constant
environment of the run). -/
structure ExecutionError where
  originalError : Bytes
  program : List Value
  currentInstruction : Value
  instructionIndex : Nat
  bufferContents : Bytes
  point : Int
  mark : Int
  lastSearchMatch : Bytes
  lastSearchStart : Int
  lastSearchEnd : Int
  deriving Repr, DecidableEq

/-- /repo/edlisp/error.go:78-92 `NewExecutionError`. -/
def newExecutionError (msg : Bytes) (program : List Value) (i : Nat) (instr : Value) (b : Buffer) : ExecutionError :=
  { originalError := msg, program := program, currentInstruction := instr, instructionIndex := i,
    bufferContents := b.content, point := b.point, mark := b.mark,
    lastSearchMatch := b.lastMatch, lastSearchStart := b.lastStart, lastSearchEnd := b.lastEnd }

/-- /repo/edlisp/error.go:45-70 `ExecutionError.Error`. -/
def ExecutionError.message [Ext] (e : ExecutionError) : Bytes :=
  e.originalError ++ b! " (at instruction " ++ natDec e.instructionIndex ++ b! ": " ++ e.currentInstruction.toStr
    ++ b! ", point=" ++ intDec e.point ++ b! ", mark=" ++ intDec e.mark ++ b! ")"

/-- One trace callback: the instruction and the buffer as it is at the time of the call
(/repo/edlisp/eval.go:12-16). -/
abbrev TraceEvent := Value × Buffer

/-- The loop of `EvalWithTrace` (/repo/edlisp/eval.go:97-111) from instruction `i` on, with `result` the value
so far. Returns result, buffer and the trace callbacks made, in order. Callbacks are assumed to only observe. -/
def evalLoop [Ext] (env : Env) (whole : List Value) : Nat → Value → List Value → Buffer →
    Res ExecutionError Value × Buffer × List TraceEvent
  | _, result, [], b => (.ok result, b, [])
  | i, _, e :: es, b =>
    match evalExpr env e b with
    | (.ok v, b') =>
      let r := evalLoop env whole (i + 1) v es b'
      (r.1, r.2.1, (e, b') :: r.2.2)
    | (.err msg, b') => (.err (newExecutionError msg whole i e b'), b', [])
    | (.panic, b') => (.panic, b', [])

/-- /repo/edlisp/eval.go:94-114 `EvalWithTrace`. -/
def evalWithTrace [Ext] (env : Env) (program : List Value) (b : Buffer) :
    Res ExecutionError Value × Buffer × List TraceEvent :=
  evalLoop env program 0 (.str []) program b

/-- The loop without a callback: `traceCallback == nil` (/repo/edlisp/eval.go:89-91,104). -/
def evalLoopNoTrace [Ext] (env : Env) (whole : List Value) : Nat → Value → List Value → Buffer →
    Res ExecutionError Value × Buffer
  | _, result, [], b => (.ok result, b)
  | i, _, e :: es, b =>
    match evalExpr env e b with
    | (.ok v, b') => evalLoopNoTrace env whole (i + 1) v es b'
    | (.err msg, b') => (.err (newExecutionError msg whole i e b'), b')
    | (.panic, b') => (.panic, b')

/-- /repo/edlisp/eval.go:89-91 `Eval`. -/
def eval [Ext] (env : Env) (program : List Value) (b : Buffer) : Res ExecutionError Value × Buffer :=
  evalLoopNoTrace env program 0 (.str []) program b

/-- Lookup in a table of functions (Go map lookup; names in the table are distinct). -/
def tableLookup (t : List (Bytes × Builtin)) (name : Bytes) : Option Builtin :=
  match t with
  | [] => none
  | (n, f) :: rest => if n = name then some f else tableLookup rest name

/-- /repo/edlisp/eval.go:162-220 `NewDefaultEnvironment`. -/
def defaultEnv [Ext] : Env := tableLookup builtinTable

mutual
/-- /repo/edlisp/equal.go:5-57 `Equal` (nil cannot occur). Numbers compare with Go's float `==`. -/
def goEqual : Value → Value → Bool
  | .str a, .str b => a == b
  | .num a, .num b => F64.goEq a b
  | .sym a, .sym b => a == b
  | .list a, .list b => goEquals a b
  | _, _ => false
/-- Length check and element loop (/repo/edlisp/equal.go:41-51). -/
def goEquals : List Value → List Value → Bool
  | [], [] => true
  | x :: xs, y :: ys => goEqual x y && goEquals xs ys
  | _, _ => false
end

end Texted
