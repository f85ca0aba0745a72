import Verif.Spec.Host
import Verif.Props.Evaluator
import Verif.Props.Frame
/-
C89: programs that embed texted, with functions of their own and trace callbacks.
-/
namespace Texted
open Spec
variable [Ext] {σ : Type}

/-! ### The evaluator and its specification -/

mutual
theorem hostExpr_evals (env : HostEnv σ) : ∀ (e : Value) (b : Buffer) (st : σ),
    HostEvals env e b st (hostExpr env e b st).1 (hostExpr env e b st).2.1 (hostExpr env e b st).2.2
  | .str s, b, st => .str s b st
  | .num x, b, st => .num x b st
  | .sym s, b, st => .sym s b st
  | .list [], b, st => .empty b st
  | .list (.str s :: args), b, st => .head _ _ b st (by simp)
  | .list (.num s :: args), b, st => .head _ _ b st (by simp)
  | .list (.list s :: args), b, st => .head _ _ b st (by simp)
  | .list (.sym f :: args), b, st => by
    have ih := hostArgs_evals env args b st
    simp only [hostExpr]
    cases hf : env st f with
    | none => exact .unknown f args b st hf
    | some fn =>
      cases ha : hostArgs env args b st with
      | mk r bs =>
        obtain ⟨b', st'⟩ := bs
        rw [ha] at ih
        cases r with
        | ok vs => exact .call f fn args b st vs b' st' hf ih
        | err e => exact .argErr f fn args b st e b' st' hf ih
        | panic => exact .argPanic f fn args b st b' st' hf ih
theorem hostArgs_evals (env : HostEnv σ) : ∀ (as : List Value) (b : Buffer) (st : σ),
    HostEvalsArgs env as b st (hostArgs env as b st).1 (hostArgs env as b st).2.1 (hostArgs env as b st).2.2
  | [], b, st => .nil b st
  | a :: as, b, st => by
    have ih := hostExpr_evals env a b st
    have ih' := fun b' st' => hostArgs_evals env as b' st'
    simp only [hostArgs]
    cases ha : hostExpr env a b st with
    | mk r bs =>
      obtain ⟨b', st'⟩ := bs
      rw [ha] at ih
      cases r with
      | ok v =>
        have ih' := ih' b' st'
        cases hr : hostArgs env as b' st' with
        | mk r' bs' =>
          obtain ⟨b'', st''⟩ := bs'
          rw [hr] at ih'
          cases r' with
          | ok vs => simp only [hr]; exact .cons a as b st v b' st' vs b'' st'' ih ih'
          | err e => simp only [hr]; exact .restErr a as b st v b' st' e b'' st'' ih ih'
          | panic => simp only [hr]; exact .restPanic a as b st v b' st' b'' st'' ih ih'
      | err e => exact .err a as b st e b' st' ih
      | panic => exact .panic a as b st b' st' ih
end

mutual
theorem hostExpr_of_evals (env : HostEnv σ) {e : Value} {b : Buffer} {st : σ} {r : Res Bytes Value} {b' : Buffer} {st' : σ} :
    HostEvals env e b st r b' st' → hostExpr env e b st = (r, b', st')
  | .str s b st => rfl
  | .num x b st => rfl
  | .sym s b st => rfl
  | .empty b st => rfl
  | .head v vs b st h => by
    cases v with
    | sym f => exact absurd rfl (h f)
    | str f => rfl
    | num f => rfl
    | list f => rfl
  | .unknown f args b st h => by simp [hostExpr, h]
  | .call f fn args b st vs b' st' h ha => by simp [hostExpr, h, hostArgs_of_evals env ha]
  | .argErr f fn args b st e b' st' h ha => by simp [hostExpr, h, hostArgs_of_evals env ha]
  | .argPanic f fn args b st b' st' h ha => by simp [hostExpr, h, hostArgs_of_evals env ha]
theorem hostArgs_of_evals (env : HostEnv σ) {as : List Value} {b : Buffer} {st : σ} {r : Res Bytes (List Value)} {b' : Buffer} {st' : σ} :
    HostEvalsArgs env as b st r b' st' → hostArgs env as b st = (r, b', st')
  | .nil b st => rfl
  | .cons a as b st v b' st' vs b'' st'' h h' => by simp [hostArgs, hostExpr_of_evals env h, hostArgs_of_evals env h']
  | .err a as b st e b' st' h => by simp [hostArgs, hostExpr_of_evals env h]
  | .panic a as b st b' st' h => by simp [hostArgs, hostExpr_of_evals env h]
  | .restErr a as b st v b' st' e b'' st'' h h' => by simp [hostArgs, hostExpr_of_evals env h, hostArgs_of_evals env h']
  | .restPanic a as b st v b' st' b'' st'' h h' => by simp [hostArgs, hostExpr_of_evals env h, hostArgs_of_evals env h']
end

theorem hostEvals_iff (env : HostEnv σ) (e : Value) (b : Buffer) (st : σ) (r : Res Bytes Value) (b' : Buffer) (st' : σ) :
    hostExpr env e b st = (r, b', st') ↔ HostEvals env e b st r b' st' := by
  constructor
  · intro h
    have := hostExpr_evals env e b st
    rwa [h] at this
  · exact hostExpr_of_evals env

theorem hostLoop_runs (env : HostEnv σ) (cb : HostCallback σ) (whole : List Value) : ∀ (es : List Value) (i : Nat) (v : Value) (b : Buffer) (st : σ),
    ∃ r, HostRuns env (callBack cb) i v es b st r (hostLoop env cb whole i v es b st).2.1 (hostLoop env cb whole i v es b st).2.2 ∧
      (hostLoop env cb whole i v es b st).1 = reported whole (hostLoop env cb whole i v es b st).2.1 r := by
  intro es
  induction es with
  | nil => intro i v b st; exact ⟨.ok v, .done i v b st, rfl⟩
  | cons e es ih =>
    intro i v b st
    have he := hostExpr_evals env e b st
    simp only [hostLoop]
    cases h : hostExpr env e b st with
    | mk r bs =>
      obtain ⟨b', st'⟩ := bs
      rw [h] at he
      cases r with
      | ok u =>
        obtain ⟨r, h1, h2⟩ := ih (i + 1) u (callBack cb e b' st').1 (callBack cb e b' st').2
        exact ⟨r, .next _ _ _ _ _ _ _ _ _ _ _ _ he h1, h2⟩
      | err m => exact ⟨.err (i, e, m), .fails _ _ _ _ _ _ _ _ _ he, rfl⟩
      | panic => exact ⟨.panic, .panics _ _ _ _ _ _ _ _ he, rfl⟩

theorem hostLoop_of_runs (env : HostEnv σ) (cb : HostCallback σ) (whole : List Value) {i : Nat} {v : Value} {es : List Value} {b : Buffer} {st : σ}
    {r : Res (Nat × Value × Bytes) Value} {b' : Buffer} {st' : σ} (h : HostRuns env (callBack cb) i v es b st r b' st') :
    hostLoop env cb whole i v es b st = (reported whole b' r, b', st') := by
  induction h with
  | done => rfl
  | next i v e es b st u b' st' r b'' st'' he _ ih => simp only [hostLoop, hostExpr_of_evals env he]; exact ih
  | fails i v e es b st m b' st' he => simp only [hostLoop, hostExpr_of_evals env he]; rfl
  | panics i v e es b st b' st' he => simp only [hostLoop, hostExpr_of_evals env he]; rfl

/-- C89. `EvalWithTrace` for every environment and callback of the embedding program: instructions one after the other, the callback on the buffer each of
them left, the next instruction on what the callback left; no callback after a failing instruction, and the error describes that instruction and the
buffer it left. -/
theorem C89_runs (env : HostEnv σ) (cb : HostCallback σ) (program : List Value) (b : Buffer) (st : σ) (res : Res ExecutionError Value) (b' : Buffer) (st' : σ) :
    hostEval env cb program b st = (res, b', st') ↔
      ∃ r, HostRuns env (fun e b st => match cb with | none => (b, st) | some f => f e b st) 0 (.str []) program b st r b' st' ∧ res = reported program b' r := by
  have hcb : (fun e b st => match cb with | none => (b, st) | some f => f e b st) = callBack cb := by
    funext e b st
    cases cb <;> rfl
  rw [hcb]
  constructor
  · intro h
    obtain ⟨r, h1, h2⟩ := hostLoop_runs env cb program program 0 (.str []) b st
    unfold hostEval at h
    rw [h] at h1 h2
    exact ⟨r, h1, h2⟩
  · rintro ⟨r, h1, rfl⟩
    exact hostLoop_of_runs env cb program h1

/-- C89. A call uses the function its name had when the call began, even if evaluating the arguments registers another one under that name. -/
theorem C89_redefinition (env : HostEnv σ) (f : Bytes) (old new : HostFn σ) (args : List Value) (b : Buffer) (st : σ) (vs : List Value) (b' : Buffer) (st' : σ)
    (h : env st f = some old) (ha : hostArgs env args b st = (.ok vs, b', st')) (_hn : env st' f = some new) :
    hostExpr env (.list (.sym f :: args)) b st = old vs b' st' := by
  simp [hostExpr, h, ha]

/-! ### Functions without state of their own -/

mutual
theorem hosted_expr (env : Env) : ∀ (e : Value) (b : Buffer) (st : σ), hostExpr (hosted env) e b st = ((evalExpr env e b).1, (evalExpr env e b).2, st)
  | .str s, b, st => rfl
  | .num x, b, st => rfl
  | .sym s, b, st => rfl
  | .list [], b, st => rfl
  | .list (.str s :: args), b, st => rfl
  | .list (.num s :: args), b, st => rfl
  | .list (.list s :: args), b, st => rfl
  | .list (.sym f :: args), b, st => by
    simp only [hostExpr, evalExpr, hosted_args env args b st]
    cases hf : env f with
    | none => simp [hosted, hf]
    | some fn =>
      simp only [hosted, hf, Option.map_some]
      cases ha : evalArgs env args b with
      | mk r b' => cases r <;> rfl
theorem hosted_args (env : Env) : ∀ (as : List Value) (b : Buffer) (st : σ), hostArgs (hosted env) as b st = ((evalArgs env as b).1, (evalArgs env as b).2, st)
  | [], b, st => rfl
  | a :: as, b, st => by
    simp only [hostArgs, evalArgs, hosted_expr env a b st]
    cases ha : evalExpr env a b with
    | mk r b' =>
      cases r with
      | ok v =>
        simp only [hosted_args env as b' st]
        cases hr : evalArgs env as b' with
        | mk r' b'' => cases r' <;> rfl
      | err m => rfl
      | panic => rfl
end

theorem observed_loop (env : Env) (watch : Value → Buffer → σ → σ) (whole : List Value) : ∀ (es : List Value) (i : Nat) (v : Value) (b : Buffer) (st : σ),
    hostLoop (hosted env) (some fun e b st => (b, watch e b st)) whole i v es b st =
      ((evalLoop env whole i v es b).1, (evalLoop env whole i v es b).2.1, (evalLoop env whole i v es b).2.2.foldl (fun st ev => watch ev.1 ev.2 st) st) := by
  intro es
  induction es with
  | nil => intro i v b st; rfl
  | cons e es ih =>
    intro i v b st
    simp only [hostLoop, evalLoop, hosted_expr]
    cases h : evalExpr env e b with
    | mk r b' =>
      cases r with
      | ok u => simp only [callBack, ih]; rfl
      | err m => rfl
      | panic => rfl

/-- C89. A callback that only looks at the buffer changes neither the result nor the buffer, and it sees the instructions and buffers of C27, one
after the other. -/
theorem C89_observer (env : Env) (watch : Value → Buffer → σ → σ) (program : List Value) (b : Buffer) (st : σ) :
    hostEval (hosted env) (some fun e b st => (b, watch e b st)) program b st =
      ((eval env program b).1, (eval env program b).2, (evalWithTrace env program b).2.2.foldl (fun st ev => watch ev.1 ev.2 st) st) := by
  rw [hostEval, observed_loop, ← C27_trace_is_transparent]
  rfl

theorem hosted_loop (env : Env) (whole : List Value) : ∀ (es : List Value) (i : Nat) (v : Value) (b : Buffer) (st : σ),
    hostLoop (hosted env) none whole i v es b st = ((evalLoopNoTrace env whole i v es b).1, (evalLoopNoTrace env whole i v es b).2, st) := by
  intro es
  induction es with
  | nil => intro i v b st; rfl
  | cons e es ih =>
    intro i v b st
    simp only [hostLoop, evalLoopNoTrace, hosted_expr]
    cases h : evalExpr env e b with
    | mk r b' => cases r <;> simp [callBack, ih]

/-- C89. With functions that use nothing but their arguments and the buffer, and no callback, `Eval` is the evaluator of C25 and C26, and the embedding
program's own data stay as they are. -/
theorem C89_no_state (env : Env) (program : List Value) (b : Buffer) (st : σ) :
    hostEval (hosted env) none program b st = ((eval env program b).1, (eval env program b).2, st) :=
  hosted_loop env program program 0 (.str []) b st

/-! ### Which functions matter -/

mutual
theorem agree_expr {env env' : Env} : ∀ (e : Value), (∀ f ∈ postorder e, env f = env' f) → ∀ b, evalExpr env e b = evalExpr env' e b
  | .str s, _, b => rfl
  | .num x, _, b => rfl
  | .sym s, _, b => rfl
  | .list [], _, b => rfl
  | .list (.str s :: args), _, b => rfl
  | .list (.num s :: args), _, b => rfl
  | .list (.list s :: args), _, b => rfl
  | .list (.sym f :: args), h, b => by
    simp only [postorder, List.mem_append, List.mem_singleton] at h
    simp only [evalExpr, h f (.inr rfl), agree_args args (fun g hg => h g (.inl hg)) b]
theorem agree_args {env env' : Env} : ∀ (as : List Value), (∀ f ∈ postorders as, env f = env' f) → ∀ b, evalArgs env as b = evalArgs env' as b
  | [], _, b => rfl
  | a :: as, h, b => by
    simp only [postorders, List.mem_append] at h
    simp only [evalArgs, agree_expr a (fun g hg => h g (.inl hg)) b, agree_args as (fun g hg => h g (.inr hg))]
end

/-- C89. A program depends only on the functions it names: registering, replacing or removing others makes no difference. -/
theorem C89_only_names (env env' : Env) (program : List Value) (h : ∀ f, NamesIn program f → env f = env' f) (b : Buffer) :
    eval env program b = eval env' program b := by
  have key : ∀ (es : List Value) (i : Nat) (v : Value) (b : Buffer), (∀ e ∈ es, ∀ f ∈ postorder e, env f = env' f) →
      evalLoopNoTrace env program i v es b = evalLoopNoTrace env' program i v es b := by
    intro es
    induction es with
    | nil => intro i v b _; rfl
    | cons e es ih =>
      intro i v b he
      simp only [evalLoopNoTrace, agree_expr e (he e List.mem_cons_self) b]
      cases evalExpr env' e b with
      | mk r b' =>
        cases r with
        | ok u => exact ih _ _ _ fun e' h' => he e' (List.mem_cons_of_mem _ h')
        | err m => rfl
        | panic => rfl
  exact key program 0 (.str []) b fun e he f hf => h f ⟨e, he, hf⟩

mutual
theorem defined_expr {env : Env} : ∀ (e : Value) {b b' : Buffer} {v : Value}, evalExpr env e b = (.ok v, b') → ∀ f ∈ postorder e, env f ≠ none
  | .str s, _, _, _, _ => by simp [postorder]
  | .num x, _, _, _, _ => by simp [postorder]
  | .sym s, _, _, _, _ => by simp [postorder]
  | .list [], _, _, _, _ => by simp [postorder]
  | .list (.str s :: args), _, _, _, _ => by simp [postorder]
  | .list (.num s :: args), _, _, _, _ => by simp [postorder]
  | .list (.list s :: args), _, _, _, _ => by simp [postorder]
  | .list (.sym f :: args), b, b', v, h => by
    simp only [postorder, List.mem_append, List.mem_singleton]
    simp only [evalExpr] at h
    cases hf : env f with
    | none => simp [hf] at h
    | some fn =>
      rw [hf] at h
      cases ha : evalArgs env args b with
      | mk r b1 =>
        rw [ha] at h
        cases r with
        | ok vs =>
          rintro g (hg | rfl)
          · exact defined_args args ha g hg
          · simp [hf]
        | err m => simp at h
        | panic => simp at h
theorem defined_args {env : Env} : ∀ (as : List Value) {b b' : Buffer} {vs : List Value}, evalArgs env as b = (.ok vs, b') → ∀ f ∈ postorders as, env f ≠ none
  | [], _, _, _, _ => by simp [postorders]
  | a :: as, b, b', vs, h => by
    simp only [postorders, List.mem_append]
    simp only [evalArgs] at h
    cases ha : evalExpr env a b with
    | mk r b1 =>
      rw [ha] at h
      cases r with
      | ok v =>
        simp only at h
        cases hr : evalArgs env as b1 with
        | mk r' b2 =>
          rw [hr] at h
          cases r' with
          | ok us =>
            rintro g (hg | hg)
            · exact defined_expr a ha g hg
            · exact defined_args as hr g hg
          | err m => simp at h
          | panic => simp at h
      | err m => simp at h
      | panic => simp at h
end

/-- C89. A program that names a function that is not registered does not succeed: removing a function from the environment is enough to rule out that it is
ever called. -/
theorem C89_missing (env : Env) (program : List Value) (f : Bytes) (hf : NamesIn program f) (h : env f = none) (b : Buffer) (v : Value) (b' : Buffer) :
    eval env program b ≠ (.ok v, b') := by
  have key : ∀ (es : List Value) (i : Nat) (u : Value) (b : Buffer), evalLoopNoTrace env program i u es b = (.ok v, b') →
      ∀ e ∈ es, ∀ f ∈ postorder e, env f ≠ none := by
    intro es
    induction es with
    | nil => intro i u b _; simp
    | cons e es ih =>
      intro i u b hr
      simp only [evalLoopNoTrace] at hr
      cases he : evalExpr env e b with
      | mk r b1 =>
        rw [he] at hr
        cases r with
        | ok w =>
          intro e' he'
          rcases List.mem_cons.1 he' with rfl | hm
          · exact defined_expr _ he
          · exact ih _ _ _ hr e' hm
        | err m => simp at hr
        | panic => simp at hr
  intro hr
  obtain ⟨e, he, hm⟩ := hf
  exact key program 0 (.str []) b hr e he f hm h

/-! ### What scripts cannot do -/

mutual
theorem keeps_expr {P : Buffer → σ → Prop} {env : HostEnv σ} : ∀ (e : Value), (∀ st f fn, f ∈ postorder e → env st f = some fn → Keeps P fn) →
    ∀ b st, P b st → P (hostExpr env e b st).2.1 (hostExpr env e b st).2.2
  | .str s, _, b, st, h => h
  | .num x, _, b, st, h => h
  | .sym s, _, b, st, h => h
  | .list [], _, b, st, h => h
  | .list (.str s :: args), _, b, st, h => h
  | .list (.num s :: args), _, b, st, h => h
  | .list (.list s :: args), _, b, st, h => h
  | .list (.sym f :: args), hk, b, st, h => by
    simp only [postorder, List.mem_append, List.mem_singleton] at hk
    have ih := keeps_args (P := P) (env := env) args (fun st g fn hg => hk st g fn (.inl hg)) b st h
    simp only [hostExpr]
    cases hf : env st f with
    | none => exact h
    | some fn =>
      cases ha : hostArgs env args b st with
      | mk r bs =>
        obtain ⟨b', st'⟩ := bs
        rw [ha] at ih
        cases r with
        | ok vs => exact hk st f fn (.inr rfl) hf vs b' st' ih
        | err e => exact ih
        | panic => exact ih
theorem keeps_args {P : Buffer → σ → Prop} {env : HostEnv σ} : ∀ (as : List Value), (∀ st f fn, f ∈ postorders as → env st f = some fn → Keeps P fn) →
    ∀ b st, P b st → P (hostArgs env as b st).2.1 (hostArgs env as b st).2.2
  | [], _, b, st, h => h
  | a :: as, hk, b, st, h => by
    simp only [postorders, List.mem_append] at hk
    have ih := keeps_expr (P := P) (env := env) a (fun st g fn hg => hk st g fn (.inl hg)) b st h
    have ih' := fun b' st' => keeps_args (P := P) (env := env) as (fun st g fn hg => hk st g fn (.inr hg)) b' st'
    simp only [hostArgs]
    cases ha : hostExpr env a b st with
    | mk r bs =>
      obtain ⟨b', st'⟩ := bs
      rw [ha] at ih
      cases r with
      | ok v =>
        have ih' := ih' b' st' ih
        cases hr : hostArgs env as b' st' with
        | mk r' bs' =>
          obtain ⟨b'', st''⟩ := bs'
          rw [hr] at ih'
          simp only [hr]
          cases r' <;> exact ih'
      | err e => exact ih
      | panic => exact ih
end

/-- C89. What every function that the program names keeps true, and the callback too, no program can make false: not by nesting calls, not by failing
halfway. -/
theorem C89_invariant (P : Buffer → σ → Prop) (env : HostEnv σ) (cb : HostCallback σ) (program : List Value)
    (hf : ∀ st f fn, NamesIn program f → env st f = some fn → Keeps P fn)
    (hc : ∀ g, cb = some g → ∀ e b st, P b st → P (g e b st).1 (g e b st).2) (b : Buffer) (st : σ) (h : P b st) :
    P (hostEval env cb program b st).2.1 (hostEval env cb program b st).2.2 := by
  have hcb : ∀ e b st, P b st → P (callBack cb e b st).1 (callBack cb e b st).2 := by
    intro e b st h
    cases cb with
    | none => exact h
    | some g => exact hc g rfl e b st h
  have key : ∀ (es : List Value) (i : Nat) (v : Value) (b : Buffer) (st : σ), (∀ e ∈ es, e ∈ program) → P b st →
      P (hostLoop env cb program i v es b st).2.1 (hostLoop env cb program i v es b st).2.2 := by
    intro es
    induction es with
    | nil => intro i v b st _ h; exact h
    | cons e es ih =>
      intro i v b st hes h
      have he := keeps_expr (P := P) (env := env) e (fun st f fn hm => hf st f fn ⟨e, hes e List.mem_cons_self, hm⟩) b st h
      simp only [hostLoop]
      cases hx : hostExpr env e b st with
      | mk r bs =>
        obtain ⟨b', st'⟩ := bs
        rw [hx] at he
        cases r with
        | ok u => exact ih _ _ _ _ (fun e' h' => hes e' (List.mem_cons_of_mem _ h')) (hcb e b' st' he)
        | err m => exact he
        | panic => exact he
  exact key program 0 (.str []) b st (fun _ h => h) h

/-- C89. If only built-in functions that edit nothing are registered (any others are left out), no program whatsoever changes the text. -/
theorem C89_read_only (env : Env) (h : ∀ f fn, env f = some fn → f ∉ editNames ∧ defaultEnv f = some fn) (program : List Value) (b : Buffer) :
    (eval env program b).2.content = b.content := by
  have := C89_invariant (σ := Unit) (fun b' _ => b'.content = b.content) (hosted env) none program (by
    intro st f fn _ hfn args b1 st1 h1
    unfold hosted at hfn
    cases he : env f with
    | none => simp [he] at hfn
    | some g =>
      simp only [he, Option.map_some, Option.some.injEq] at hfn
      subst hfn
      obtain ⟨hn, hd⟩ := h f g he
      have h2 := C23_text_unchanged f hn args b1
      unfold call at h2
      rw [hd] at h2
      exact h2.trans h1) (by intro g hg; cases hg) b () rfl
  rw [C89_no_state] at this
  exact this

/-! ### A concrete embedding program -/

/-- The built-in functions and, in the place of one of them, functions of the program's own: `tick` counts its calls in the host state and returns the
count; once it was called three times, `insert` inserts its text twice. -/
def tickEnv : HostEnv Nat := fun n f =>
  if f = b! "tick" then some fun _ b n => (.ok (.str (natDec n)), b, n + 1)
  else if f = b! "insert" ∧ 3 ≤ n then some fun args b n => (.ok (.str []), ((builtinInsert args (builtinInsert args b).2).2), n)
  else (defaultEnv f).map Builtin.hosted

/-- A callback that ends the line after every instruction. -/
def lineCallback : HostCallback Nat := some fun _ b n => (b.insert [nl], n)

/-- `(insert (tick)) (insert (tick)) (insert (tick)) (insert (tick))`: the third call of `insert` began before the third `tick`. -/
example : (hostEval tickEnv lineCallback (List.replicate 4 (.list [.sym b! "insert", .list [.sym b! "tick"]])) (newBuffer []) 0).2.1.content =
    b! "0\n1\n2\n33\n" ∧
    (hostEval tickEnv lineCallback (List.replicate 4 (.list [.sym b! "insert", .list [.sym b! "tick"]])) (newBuffer []) 0).2.2 = 4 := ⟨rfl, rfl⟩

/-- The hypotheses of C89_redefinition, at the third `insert`. -/
example : tickEnv 2 b! "insert" = some builtinInsert.hosted ∧
    hostArgs tickEnv [.list [.sym b! "tick"]] (newBuffer []) 2 = (.ok [.str b! "2"], newBuffer [], 3) ∧ (tickEnv 3 b! "insert").isSome := ⟨rfl, rfl, rfl⟩

/-- Only `point` and `goto-char` registered. -/
def lookOnly : Env := fun f => if f = b! "point" then some builtinPoint else if f = b! "goto-char" then some builtinGotoChar else none

example : ∀ f fn, lookOnly f = some fn → f ∉ editNames ∧ defaultEnv f = some fn := by
  intro f fn h
  unfold lookOnly at h
  split at h
  · rename_i hf; subst hf; cases h; exact ⟨by decide, rfl⟩
  · split at h
    · rename_i hf; subst hf; cases h; exact ⟨by decide, rfl⟩
    · cases h

example : NamesIn [.list [.sym b! "goto-char", .list [.sym b! "buffer-size"]]] b! "buffer-size" ∧ lookOnly b! "buffer-size" = none :=
  ⟨⟨_, List.mem_cons_self, by decide⟩, rfl⟩

/-- C89_only_names: the two environments differ, but not for the names in this program. -/
example : (∀ f, NamesIn [.list [.sym b! "goto-char", .num (F64.ofInt 2)], .list [.sym b! "point"]] f → lookOnly f = defaultEnv f) ∧
    (lookOnly b! "insert").isNone ∧ (defaultEnv b! "insert").isSome := by
  refine ⟨?_, rfl, rfl⟩
  rintro f ⟨e, he, hf⟩
  simp only [List.mem_cons, List.not_mem_nil, or_false] at he
  rcases he with rfl | rfl <;> simp [postorder, postorders] at hf <;> subst hf <;> rfl

end Texted
