import Verif.Model.Eval
/-
The evaluator as a Go program uses it that embeds texted: functions of its own in the environment, and a trace callback. Such functions can keep
data of their own and can change the environment while a script runs (`env.Functions` is a map, `TraceContext` has a pointer to the environment), and
a callback gets a pointer to the buffer. All this is the host state `σ`, of any type. (/repo/edlisp/eval.go:8-25, 88-159)

Simplified: the functions and the callback end, and the functions return values, not the nil interface.
-/
namespace Texted

/-- /repo/edlisp/eval.go:9 `BuiltinFn`, as a Go function value that can also use things outside its arguments. -/
abbrev HostFn (σ : Type) := List Value → Buffer → σ → Res Bytes Value × Buffer × σ

/-- /repo/edlisp/eval.go:22-25 `Environment`, read out of the host state: which functions there are may change. -/
abbrev HostEnv (σ : Type) := σ → Bytes → Option (HostFn σ)

/-- /repo/edlisp/eval.go:12-19 `TraceCallback` (`none`: nil). It gets the instruction, the buffer and the environment. -/
abbrev HostCallback (σ : Type) := Option (Value → Buffer → σ → Buffer × σ)

mutual
/-- /repo/edlisp/eval.go:117-159 `evalExpression`: the function is looked up before the arguments are evaluated. -/
def hostExpr [Ext] {σ : Type} (env : HostEnv σ) : Value → Buffer → σ → Res Bytes Value × Buffer × σ
  | .str s, b, st => (.ok (.str s), b, st)
  | .num x, b, st => (.ok (.num x), b, st)
  | .sym _, b, st => (.err b! "unknown expression type", b, st)
  | .list [], b, st => (.err b! "empty list", b, st)
  | .list (.sym f :: args), b, st =>
    match env st f with
    | none => (.err (b! "undefined-function " ++ quote f), b, st)
    | some fn =>
      match hostArgs env args b st with
      | (.ok vs, b', st') => fn vs b' st'
      | (.err e, b', st') => (.err e, b', st')
      | (.panic, b', st') => (.panic, b', st')
  | .list (_ :: _), b, st => (.err b! "first element of list must be a symbol", b, st)
/-- The argument loop (/repo/edlisp/eval.go:142-149). -/
def hostArgs [Ext] {σ : Type} (env : HostEnv σ) : List Value → Buffer → σ → Res Bytes (List Value) × Buffer × σ
  | [], b, st => (.ok [], b, st)
  | a :: as, b, st =>
    match hostExpr env a b st with
    | (.ok v, b', st') =>
      match hostArgs env as b' st' with
      | (.ok vs, b'', st'') => (.ok (v :: vs), b'', st'')
      | (.err e, b'', st'') => (.err e, b'', st'')
      | (.panic, b'', st'') => (.panic, b'', st'')
    | (.err e, b', st') => (.err e, b', st')
    | (.panic, b', st') => (.panic, b', st')
end

/-- `if traceCallback != nil { traceCallback(…) }` (/repo/edlisp/eval.go:104-110). -/
def callBack {σ : Type} (cb : HostCallback σ) (e : Value) (b : Buffer) (st : σ) : Buffer × σ :=
  match cb with
  | none => (b, st)
  | some f => f e b st

/-- The loop of `EvalWithTrace` (/repo/edlisp/eval.go:97-111). -/
def hostLoop [Ext] {σ : Type} (env : HostEnv σ) (cb : HostCallback σ) (whole : List Value) : Nat → Value → List Value → Buffer → σ →
    Res ExecutionError Value × Buffer × σ
  | _, result, [], b, st => (.ok result, b, st)
  | i, _, e :: es, b, st =>
    match hostExpr env e b st with
    | (.ok v, b', st') => hostLoop env cb whole (i + 1) v es (callBack cb e b' st').1 (callBack cb e b' st').2
    | (.err msg, b', st') => (.err (newExecutionError msg whole i e b'), b', st')
    | (.panic, b', st') => (.panic, b', st')

/-- /repo/edlisp/eval.go:94-114 `EvalWithTrace`; with `none` also `Eval` (:89-91). -/
def hostEval [Ext] {σ : Type} (env : HostEnv σ) (cb : HostCallback σ) (program : List Value) (b : Buffer) (st : σ) :
    Res ExecutionError Value × Buffer × σ :=
  hostLoop env cb program 0 (.str []) program b st

/-- A function that uses nothing but its arguments and the buffer, such as the built-in ones. -/
def Builtin.hosted {σ : Type} (fn : Builtin) : HostFn σ := fun args b st => ((fn args b).1, (fn args b).2, st)

end Texted
