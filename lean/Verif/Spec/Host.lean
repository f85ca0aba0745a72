import Verif.Model.Host
import Verif.Spec.Eval
/-
Specification of evaluation for programs that embed texted.
-/
namespace Texted
namespace Spec

variable [Ext] {σ : Type}

mutual
/-- Evaluating `e` in the buffer `b` and the host state `st` gives `r` and leaves `b'` and `st'`. -/
inductive HostEvals (env : HostEnv σ) : Value → Buffer → σ → Res Bytes Value → Buffer → σ → Prop
  | str (s b st) : HostEvals env (.str s) b st (.ok (.str s)) b st
  | num (x b st) : HostEvals env (.num x) b st (.ok (.num x)) b st
  | sym (s b st) : HostEvals env (.sym s) b st (.err b! "unknown expression type") b st
  | empty (b st) : HostEvals env (.list []) b st (.err b! "empty list") b st
  | head (v vs b st) (h : ∀ f, v ≠ .sym f) : HostEvals env (.list (v :: vs)) b st (.err b! "first element of list must be a symbol") b st
  | unknown (f args b st) (h : env st f = none) : HostEvals env (.list (.sym f :: args)) b st (.err (b! "undefined-function " ++ quote f)) b st
  /-- The function is the one of that name *before* the arguments are evaluated. -/
  | call (f fn args b st vs b' st') (h : env st f = some fn) (ha : HostEvalsArgs env args b st (.ok vs) b' st') :
      HostEvals env (.list (.sym f :: args)) b st (fn vs b' st').1 (fn vs b' st').2.1 (fn vs b' st').2.2
  | argErr (f fn args b st e b' st') (h : env st f = some fn) (ha : HostEvalsArgs env args b st (.err e) b' st') :
      HostEvals env (.list (.sym f :: args)) b st (.err e) b' st'
  | argPanic (f fn args b st b' st') (h : env st f = some fn) (ha : HostEvalsArgs env args b st .panic b' st') :
      HostEvals env (.list (.sym f :: args)) b st .panic b' st'
/-- Arguments from left to right, each in the buffer and the host state its predecessor left. -/
inductive HostEvalsArgs (env : HostEnv σ) : List Value → Buffer → σ → Res Bytes (List Value) → Buffer → σ → Prop
  | nil (b st) : HostEvalsArgs env [] b st (.ok []) b st
  | cons (a as b st v b' st' vs b'' st'') (h : HostEvals env a b st (.ok v) b' st') (h' : HostEvalsArgs env as b' st' (.ok vs) b'' st'') :
      HostEvalsArgs env (a :: as) b st (.ok (v :: vs)) b'' st''
  | err (a as b st e b' st') (h : HostEvals env a b st (.err e) b' st') : HostEvalsArgs env (a :: as) b st (.err e) b' st'
  | panic (a as b st b' st') (h : HostEvals env a b st .panic b' st') : HostEvalsArgs env (a :: as) b st .panic b' st'
  | restErr (a as b st v b' st' e b'' st'') (h : HostEvals env a b st (.ok v) b' st') (h' : HostEvalsArgs env as b' st' (.err e) b'' st'') :
      HostEvalsArgs env (a :: as) b st (.err e) b'' st''
  | restPanic (a as b st v b' st' b'' st'') (h : HostEvals env a b st (.ok v) b' st') (h' : HostEvalsArgs env as b' st' .panic b'' st'') :
      HostEvalsArgs env (a :: as) b st .panic b'' st''
end

/-- Running a program from instruction `i` on: an instruction, the callback on what it left, the next instruction. -/
inductive HostRuns (env : HostEnv σ) (cb : Value → Buffer → σ → Buffer × σ) : Nat → Value → List Value → Buffer → σ →
    Res (Nat × Value × Bytes) Value → Buffer → σ → Prop
  | done (i v b st) : HostRuns env cb i v [] b st (.ok v) b st
  | next (i v e es b st u b' st' r b'' st'') (h : HostEvals env e b st (.ok u) b' st')
      (h' : HostRuns env cb (i + 1) u es (cb e b' st').1 (cb e b' st').2 r b'' st'') : HostRuns env cb i v (e :: es) b st r b'' st''
  /-- The number of the failing instruction, the instruction and what it failed with. No callback is made. -/
  | fails (i v e es b st m b' st') (h : HostEvals env e b st (.err m) b' st') : HostRuns env cb i v (e :: es) b st (.err (i, e, m)) b' st'
  | panics (i v e es b st b' st') (h : HostEvals env e b st .panic b' st') : HostRuns env cb i v (e :: es) b st .panic b' st'

/-- What `EvalWithTrace` reports for a failing instruction. -/
def reported (program : List Value) (b' : Buffer) : Res (Nat × Value × Bytes) Value → Res ExecutionError Value
  | .ok v => .ok v
  | .err (i, e, m) => .err
    { originalError := m, program := program, currentInstruction := e, instructionIndex := i,
      bufferContents := b'.content, point := b'.point, mark := b'.mark, lastSearchMatch := b'.lastMatch,
      lastSearchStart := b'.lastStart, lastSearchEnd := b'.lastEnd }
  | .panic => .panic

/-- The environment with functions that use nothing but arguments and buffer. -/
def hosted (env : Env) : HostEnv σ := fun _ f => (env f).map Builtin.hosted

/-- The names of the functions the program calls. -/
def NamesIn (program : List Value) (f : Bytes) : Prop := ∃ e ∈ program, f ∈ postorder e

/-- Something that holds of the buffer and the host state, and that the function keeps true whatever its arguments are. -/
def Keeps (P : Buffer → σ → Prop) (fn : HostFn σ) : Prop := ∀ args b st, P b st → P (fn args b st).2.1 (fn args b st).2.2

end Spec
end Texted
