import Verif.Spec.Eval
import Verif.Spec.Text
/- C25–C27: the evaluator. -/
namespace Texted
variable [Ext]

/-! ### C26 -/

mutual
theorem evals_evalExpr (env : Env) : ∀ (e : Value) (b : Buffer), Evals env e b (evalExpr env e b).1 (evalExpr env e b).2
  | .str s, b => .str s b
  | .num x, b => .num x b
  | .sym s, b => .sym s b
  | .list [], b => .empty b
  | .list (.str s :: args), b => .head _ _ b (by simp)
  | .list (.num s :: args), b => .head _ _ b (by simp)
  | .list (.list s :: args), b => .head _ _ b (by simp)
  | .list (.sym f :: args), b => by
    have ih := evals_evalArgs env args b
    simp only [evalExpr]
    cases hf : env f with
    | none => exact .unknown f args b hf
    | some fn =>
      cases ha : evalArgs env args b with
      | mk r b' =>
        rw [ha] at ih
        cases r with
        | ok vs => exact .call f fn args b vs b' hf ih
        | err e => exact .argErr f fn args b e b' hf ih
        | panic => exact .argPanic f fn args b b' hf ih
theorem evals_evalArgs (env : Env) : ∀ (as : List Value) (b : Buffer), EvalsArgs env as b (evalArgs env as b).1 (evalArgs env as b).2
  | [], b => .nil b
  | a :: as, b => by
    have ih := evals_evalExpr env a b
    have ih' := fun b' => evals_evalArgs env as b'
    simp only [evalArgs]
    cases ha : evalExpr env a b with
    | mk r b' =>
      rw [ha] at ih
      cases r with
      | ok v =>
        have ih' := ih' b'
        cases hr : evalArgs env as b' with
        | mk r' b'' =>
          rw [hr] at ih'
          cases r' with
          | ok vs => simp only [hr]; exact .cons a as b v b' vs b'' ih ih'
          | err e => simp only [hr]; exact .restErr a as b v b' e b'' ih ih'
          | panic => simp only [hr]; exact .restPanic a as b v b' b'' ih ih'
      | err e => exact .err a as b e b' ih
      | panic => exact .panic a as b b' ih
end

mutual
theorem evalExpr_of_evals (env : Env) {e : Value} {b : Buffer} {r : Res Bytes Value} {b' : Buffer} :
    Evals env e b r b' → evalExpr env e b = (r, b')
  | .str s b => rfl
  | .num x b => rfl
  | .sym s b => rfl
  | .empty b => rfl
  | .head v vs b h => by
    cases v with
    | sym f => exact absurd rfl (h f)
    | str f => rfl
    | num f => rfl
    | list f => rfl
  | .unknown f args b h => by simp [evalExpr, h]
  | .call f fn args b vs b' h ha => by simp [evalExpr, h, evalArgs_of_evals env ha]
  | .argErr f fn args b e b' h ha => by simp [evalExpr, h, evalArgs_of_evals env ha]
  | .argPanic f fn args b b' h ha => by simp [evalExpr, h, evalArgs_of_evals env ha]
theorem evalArgs_of_evals (env : Env) {as : List Value} {b : Buffer} {r : Res Bytes (List Value)} {b' : Buffer} :
    EvalsArgs env as b r b' → evalArgs env as b = (r, b')
  | .nil b => rfl
  | .cons a as b v b' vs b'' h h' => by simp [evalArgs, evalExpr_of_evals env h, evalArgs_of_evals env h']
  | .err a as b e b' h => by simp [evalArgs, evalExpr_of_evals env h]
  | .panic a as b b' h => by simp [evalArgs, evalExpr_of_evals env h]
  | .restErr a as b v b' e b'' h h' => by simp [evalArgs, evalExpr_of_evals env h, evalArgs_of_evals env h']
  | .restPanic a as b v b' b'' h h' => by simp [evalArgs, evalExpr_of_evals env h, evalArgs_of_evals env h']
end

/-- The evaluator computes exactly the big-step relation of `Spec/Eval.lean` (arguments left to right, each once,
each on the buffer its predecessor left; the call last; an unknown function fails first), for every environment,
expression and buffer, at every nesting depth. -/
theorem C26_big_step (env : Env) (e : Value) (b : Buffer) (r : Res Bytes Value) (b' : Buffer) :
    evalExpr env e b = (r, b') ↔ Evals env e b r b' := by
  constructor
  · intro h
    have := evals_evalExpr env e b
    rwa [h] at this
  · exact evalExpr_of_evals env

/-- The same for whole argument lists. -/
theorem C26_big_step_args (env : Env) (as : List Value) (b : Buffer) (r : Res Bytes (List Value)) (b' : Buffer) :
    evalArgs env as b = (r, b') ↔ EvalsArgs env as b r b' := by
  constructor
  · intro h
    have := evals_evalArgs env as b
    rwa [h] at this
  · exact evalArgs_of_evals env

/-- An environment in which every function appends its name to the buffer. -/
def loggingEnv : Env := fun f => some fun _ b => (okEmpty, { b with content := b.content ++ f ++ [32] })

mutual
theorem postorder_expr : ∀ (e : Value) (b : Buffer), WellFormed e →
    ∃ v, evalExpr loggingEnv e b = (.ok v, { b with content := b.content ++ (postorder e).flatMap (· ++ [32]) })
  | .str s, b, _ => ⟨.str s, by simp [evalExpr, postorder]⟩
  | .num x, b, _ => ⟨.num x, by simp [evalExpr, postorder]⟩
  | .sym s, b, h => by simp [WellFormed] at h
  | .list [], b, h => by simp [WellFormed] at h
  | .list (.str s :: args), b, h => by simp [WellFormed] at h
  | .list (.num s :: args), b, h => by simp [WellFormed] at h
  | .list (.list s :: args), b, h => by simp [WellFormed] at h
  | .list (.sym f :: args), b, h => by
    obtain ⟨vs, hv⟩ := postorder_args args b (by simpa [WellFormed] using h)
    refine ⟨.str [], ?_⟩
    simp [evalExpr, loggingEnv, hv, postorder, okEmpty, List.append_assoc]
theorem postorder_args : ∀ (as : List Value) (b : Buffer), WellFormeds as →
    ∃ vs, evalArgs loggingEnv as b = (.ok vs, { b with content := b.content ++ (postorders as).flatMap (· ++ [32]) })
  | [], b, _ => ⟨[], by simp [evalArgs, postorders]⟩
  | a :: as, b, h => by
    simp only [WellFormeds] at h
    obtain ⟨v, hv⟩ := postorder_expr a b h.1
    obtain ⟨vs, hvs⟩ := postorder_args as { b with content := b.content ++ (postorder a).flatMap (· ++ [32]) } h.2
    exact ⟨v :: vs, by simp [evalArgs, hv, hvs, postorders, List.append_assoc]⟩
end

/-- Seen from outside: with functions that log their name, evaluating a nested call logs every function exactly
once, inner calls before outer ones and left before right. -/
theorem C26_evaluation_order (e : Value) (b : Buffer) (h : WellFormed e) :
    (evalExpr loggingEnv e b).2.content = b.content ++ (postorder e).flatMap (· ++ [32]) := by
  obtain ⟨v, hv⟩ := postorder_expr e b h
  rw [hv]

/-- An unknown function fails before any argument is evaluated: nothing changes. -/
theorem C26_unknown_function_first (env : Env) (f : Bytes) (args : List Value) (b : Buffer) (h : env f = none) :
    evalExpr env (.list (.sym f :: args)) b = (.err (b! "undefined-function " ++ quote f), b) :=
  (C26_big_step env _ b _ _).2 (.unknown f args b h)

example : (eval defaultEnv [.list [.sym b! "insert", .list [.sym b! "buffer-substring", .list [.sym b! "point-min"],
    .list [.sym b! "point-max"]]]] (newBuffer b! "ab")).2.content = b! "abab" := rfl

example : let e := Value.list [.sym b! "f", .list [.sym b! "g", .str b! "x"], .list [.sym b! "h", .list [.sym b! "k"]]]
    WellFormed e ∧ postorder e = [b! "g", b! "k", b! "h", b! "f"] := ⟨by simp [WellFormed, WellFormeds], rfl⟩

/-! ### C25 -/

/-- Give the error of a partial run the whole program and the right index. -/
def ExecutionError.within (e : ExecutionError) (offset : Nat) (whole : List Value) : ExecutionError :=
  { e with program := whole, instructionIndex := e.instructionIndex + offset }

theorem loop_within (env : Env) (w w' : List Value) (k : Nat) (es : List Value) : ∀ (i : Nat) (v : Value) (b : Buffer),
    evalLoopNoTrace env w (i + k) v es b =
      match evalLoopNoTrace env w' i v es b with
      | (.ok v, b') => (.ok v, b')
      | (.err e, b') => (.err (e.within k w), b')
      | (.panic, b') => (.panic, b') := by
  induction es with
  | nil => intro i v b; rfl
  | cons e es ih =>
    intro i v b
    simp only [evalLoopNoTrace]
    cases h : evalExpr env e b with
    | mk r b' =>
      cases r with
      | ok v' =>
        simp only
        rw [show i + k + 1 = (i + 1) + k by omega, ih]
      | err msg => rfl
      | panic => rfl

theorem loop_append (env : Env) (w : List Value) (q : List Value) (p : List Value) : ∀ (i : Nat) (v : Value) (b : Buffer),
    evalLoopNoTrace env w i v (p ++ q) b =
      match evalLoopNoTrace env w i v p b with
      | (.ok v', b') => evalLoopNoTrace env w (i + p.length) v' q b'
      | (.err e, b') => (.err e, b')
      | (.panic, b') => (.panic, b') := by
  induction p with
  | nil => intro i v b; simp [evalLoopNoTrace]
  | cons e es ih =>
    intro i v b
    simp only [List.cons_append, evalLoopNoTrace]
    cases h : evalExpr env e b with
    | mk r b' =>
      cases r with
      | ok v' =>
        simp only [ih, List.length_cons]
        rw [show i + 1 + es.length = i + (es.length + 1) by omega]
      | err msg => rfl
      | panic => rfl

theorem loop_value (env : Env) (w : List Value) (q : List Value) (hq : q ≠ []) (i : Nat) (v v' : Value) (b : Buffer) :
    evalLoopNoTrace env w i v q b = evalLoopNoTrace env w i v' q b := by
  cases q with
  | nil => exact absurd rfl hq
  | cons e es => rfl

/-- Running `p` followed by a non-empty `q` is running `p` and then, only if it succeeded, running `q` on the
resulting buffer; an error is the error of the part it happened in, with the index counted from the start of the
whole program. -/
theorem C25_sequential (env : Env) (p q : List Value) (hq : q ≠ []) (b : Buffer) :
    eval env (p ++ q) b =
      match eval env p b with
      | (.ok _, b') =>
        match eval env q b' with
        | (.ok v, b'') => (.ok v, b'')
        | (.err e, b'') => (.err { e with program := p ++ q, instructionIndex := e.instructionIndex + p.length }, b'')
        | (.panic, b'') => (.panic, b'')
      | (.err e, b') => (.err { e with program := p ++ q }, b')
      | (.panic, b') => (.panic, b') := by
  simp only [eval, loop_append]
  have h0 := loop_within env (p ++ q) p 0 p 0 (.str []) b
  simp only [Nat.add_zero] at h0
  rw [h0]
  cases h : evalLoopNoTrace env p 0 (.str []) p b with
  | mk r b' =>
    cases r with
    | ok v =>
      simp only
      rw [loop_value env (p ++ q) q hq _ v (.str []), loop_within env (p ++ q) q p.length q 0]
      rfl
    | err e => rfl
    | panic => rfl

/-- The empty program succeeds with the empty string and changes nothing. -/
theorem C25_empty (env : Env) (b : Buffer) : eval env [] b = (.ok (.str []), b) := rfl

/-- A one-instruction program. -/
theorem eval_single (env : Env) (e : Value) (b : Buffer) :
    eval env [e] b =
      match evalExpr env e b with
      | (.ok v, b') => (.ok v, b')
      | (.err msg, b') => (.err (newExecutionError msg [e] 0 e b'), b')
      | (.panic, b') => (.panic, b') := by
  simp only [eval, evalLoopNoTrace]
  cases h : evalExpr env e b with
  | mk r b' => cases r <;> rfl

/-- The script fails exactly when all instructions before some instruction succeed and that one fails; the error
reports that instruction, its 0-based index, the program, and text, point, mark and recorded match at that moment,
and the final buffer is the buffer at that moment (effects of earlier instructions stay). -/
theorem C25_first_error (env : Env) (prog : List Value) (b b' : Buffer) (err : ExecutionError) :
    eval env prog b = (.err err, b') ↔
      ∃ (i : Nat) (instr v : Value) (bi : Buffer) (msg : Bytes), prog[i]? = some instr ∧ eval env (prog.take i) b = (.ok v, bi) ∧
        Evals env instr bi (.err msg) b' ∧
        err = { originalError := msg, program := prog, currentInstruction := instr, instructionIndex := i,
                bufferContents := b'.content, point := b'.point, mark := b'.mark, lastSearchMatch := b'.lastMatch,
                lastSearchStart := b'.lastStart, lastSearchEnd := b'.lastEnd } := by
  have key : ∀ (es : List Value) (i0 : Nat) (v0 : Value) (b : Buffer),
      evalLoopNoTrace env prog i0 v0 es b = (.err err, b') ↔
        ∃ (i : Nat) (instr v : Value) (bi : Buffer) (msg : Bytes), es[i]? = some instr ∧
          evalLoopNoTrace env prog i0 v0 (es.take i) b = (.ok v, bi) ∧ Evals env instr bi (.err msg) b' ∧
          err = newExecutionError msg prog (i0 + i) instr b' := by
    intro es
    induction es with
    | nil => intro i0 v0 b; simp [evalLoopNoTrace]
    | cons e es ih =>
      intro i0 v0 b
      simp only [evalLoopNoTrace]
      cases hr : evalExpr env e b with
      | mk r b1 =>
        cases r with
        | ok v1 =>
          simp only [ih]
          constructor
          · rintro ⟨i, instr, v, bi, msg, h1, h2, h3, h4⟩
            exact ⟨i + 1, instr, v, bi, msg, by simpa using h1, by simp [evalLoopNoTrace, hr, h2], h3,
              by rw [h4]; congr 1; omega⟩
          · rintro ⟨i, instr, v, bi, msg, h1, h2, h3, h4⟩
            cases i with
            | zero =>
              simp only [List.getElem?_cons_zero, Option.some.injEq] at h1
              subst h1
              simp only [List.take_zero, evalLoopNoTrace, Prod.mk.injEq] at h2
              obtain ⟨-, rfl⟩ := h2
              rw [← C26_big_step, hr] at h3
              simp at h3
            | succ i =>
              simp only [List.getElem?_cons_succ] at h1
              simp only [List.take_succ_cons, evalLoopNoTrace, hr] at h2
              exact ⟨i, instr, v, bi, msg, h1, h2, h3, by rw [h4]; congr 1; omega⟩
        | err msg =>
          simp only [Prod.mk.injEq, Res.err.injEq]
          constructor
          · rintro ⟨rfl, rfl⟩
            exact ⟨0, e, v0, b, msg, rfl, rfl, (C26_big_step env e b _ _).1 hr, rfl⟩
          · rintro ⟨i, instr, v, bi, msg', h1, h2, h3, h4⟩
            cases i with
            | zero =>
              simp only [List.getElem?_cons_zero, Option.some.injEq] at h1
              subst h1
              simp only [List.take_zero, evalLoopNoTrace, Prod.mk.injEq] at h2
              obtain ⟨-, rfl⟩ := h2
              rw [← C26_big_step, hr] at h3
              simp only [Prod.mk.injEq, Res.err.injEq] at h3
              obtain ⟨rfl, rfl⟩ := h3
              exact ⟨h4.symm, rfl⟩
            | succ i =>
              simp only [List.take_succ_cons, evalLoopNoTrace, hr] at h2
              simp at h2
        | panic =>
          simp only [Prod.mk.injEq, reduceCtorEq, false_and, false_iff]
          rintro ⟨i, instr, v, bi, msg', h1, h2, h3, h4⟩
          cases i with
          | zero =>
            simp only [List.getElem?_cons_zero, Option.some.injEq] at h1
            subst h1
            simp only [List.take_zero, evalLoopNoTrace, Prod.mk.injEq] at h2
            obtain ⟨-, rfl⟩ := h2
            rw [← C26_big_step, hr] at h3
            simp at h3
          | succ i =>
            simp only [List.take_succ_cons, evalLoopNoTrace, hr] at h2
            simp at h2
  have hk := key prog 0 (.str []) b
  simp only [eval]
  rw [hk]
  constructor
  · rintro ⟨i, instr, v, bi, msg, h1, h2, h3, h4⟩
    have h0 := loop_within env prog (prog.take i) 0 (prog.take i) 0 (.str []) b
    simp only [Nat.add_zero] at h0
    rw [h2] at h0
    refine ⟨i, instr, v, bi, msg, h1, ?_, h3, ?_⟩
    · revert h0
      cases evalLoopNoTrace env (prog.take i) 0 (.str []) (prog.take i) b with
      | mk r b1 => cases r <;> simp; exact fun h1 h2 => ⟨h1.symm, h2.symm⟩
    · rw [h4, Nat.zero_add]; rfl
  · rintro ⟨i, instr, v, bi, msg, h1, h2, h3, h4⟩
    have h0 := loop_within env prog (prog.take i) 0 (prog.take i) 0 (.str []) b
    simp only [Nat.add_zero, h2] at h0
    exact ⟨i, instr, v, bi, msg, h1, h0, h3, by rw [h4, Nat.zero_add]; rfl⟩

/-- The script succeeds exactly when every instruction does; its value is the value of the last one. -/
theorem C25_success (env : Env) (p : List Value) (e : Value) (b b' : Buffer) (v : Value) :
    eval env (p ++ [e]) b = (.ok v, b') ↔
      ∃ u b1, eval env p b = (.ok u, b1) ∧ Evals env e b1 (.ok v) b' := by
  rw [C25_sequential env p [e] (by simp)]
  constructor
  · intro h
    cases hp : eval env p b with
    | mk r b1 =>
      rw [hp] at h
      cases r with
      | ok u =>
        refine ⟨u, b1, rfl, ?_⟩
        rw [← C26_big_step]
        simp only [eval_single] at h
        cases he : evalExpr env e b1 with
        | mk r' b2 =>
          rw [he] at h
          cases r' with
          | ok v' => simpa using h
          | err m => simp at h
          | panic => simp at h
      | err m => simp at h
      | panic => simp at h
  · rintro ⟨u, b1, h1, h2⟩
    rw [← C26_big_step] at h2
    simp [h1, eval_single, h2]

/-- The text of the error names the cause, the index and the instruction, point and mark. -/
theorem C25_error_text (e : ExecutionError) :
    e.message = e.originalError ++ b! " (at instruction " ++ natDec e.instructionIndex ++ b! ": " ++
      e.currentInstruction.toStr ++ b! ", point=" ++ intDec e.point ++ b! ", mark=" ++ intDec e.mark ++ b! ")" := rfl

example : ∃ err, eval defaultEnv [.list [.sym b! "insert", .str b! "x"], .list [.sym b! "search-forward", .str b! "q"],
      .list [.sym b! "insert", .str b! "y"]] (newBuffer b! "ab") = (.err err, { newBuffer b! "xab" with point := 2 }) ∧
    err.instructionIndex = 1 ∧ err.originalError = b! "search failed" := ⟨_, rfl, rfl, rfl⟩

/-! ### C27 -/

theorem trace_loop (env : Env) (w : List Value) (es : List Value) : ∀ (i : Nat) (v : Value) (b : Buffer),
    ((evalLoop env w i v es b).1, (evalLoop env w i v es b).2.1) = evalLoopNoTrace env w i v es b := by
  induction es with
  | nil => intro i v b; rfl
  | cons e es ih =>
    intro i v b
    simp only [evalLoop, evalLoopNoTrace]
    cases h : evalExpr env e b with
    | mk r b' =>
      cases r with
      | ok v' => simp only [← ih]
      | err m => rfl
      | panic => rfl

/-- Tracing does not change the result or the buffer. -/
theorem C27_trace_is_transparent (env : Env) (prog : List Value) (b : Buffer) :
    ((evalWithTrace env prog b).1, (evalWithTrace env prog b).2.1) = eval env prog b :=
  trace_loop env prog prog 0 (.str []) b

theorem trace_events (env : Env) (w w' : List Value) (es : List Value) : ∀ (i0 : Nat) (v : Value) (b : Buffer) (i : Nat) (ev : TraceEvent),
    (evalLoop env w i0 v es b).2.2[i]? = some ev ↔
      es[i]? = some ev.1 ∧ ∃ u, evalLoopNoTrace env w' i0 v (es.take (i + 1)) b = (.ok u, ev.2) := by
  induction es with
  | nil => intro i0 v b i ev; simp [evalLoop]
  | cons e es ih =>
    intro i0 v b i ev
    simp only [evalLoop, List.take_succ_cons, evalLoopNoTrace]
    cases h : evalExpr env e b with
    | mk r b' =>
      cases r with
      | ok v' =>
        cases i with
        | zero =>
          simp only [List.getElem?_cons_zero, Option.some.injEq, List.take_zero, evalLoopNoTrace]
          constructor
          · rintro rfl; exact ⟨rfl, v', rfl⟩
          · rintro ⟨rfl, u, h⟩
            simp only [Prod.mk.injEq] at h
            rw [h.2]
        | succ i =>
          simp only [List.getElem?_cons_succ]
          exact ih (i0 + 1) v' b' i ev
      | err m => simp
      | panic => simp

/-- The i-th callback is made exactly when the i-th instruction was executed successfully, with that instruction
and the buffer as it is right after it. -/
theorem C27_trace_events (env : Env) (prog : List Value) (b : Buffer) (i : Nat) (instr : Value) (bi : Buffer) :
    (evalWithTrace env prog b).2.2[i]? = some (instr, bi) ↔
      prog[i]? = some instr ∧ ∃ u, eval env (prog.take (i + 1)) b = (.ok u, bi) :=
  trace_events env prog (prog.take (i + 1)) prog 0 (.str []) b i (instr, bi)

/-- There are no other callbacks: as many as instructions on success, as many as the index of the failing
instruction on failure. -/
theorem C27_trace_length (env : Env) (prog : List Value) (b : Buffer) :
    match (evalWithTrace env prog b).1 with
    | .ok _ => (evalWithTrace env prog b).2.2.length = prog.length
    | .err e => (evalWithTrace env prog b).2.2.length = e.instructionIndex
    | .panic => (evalWithTrace env prog b).2.2.length < prog.length := by
  have key : ∀ (es : List Value) (i : Nat) (v : Value) (b : Buffer),
      match (evalLoop env prog i v es b).1 with
      | .ok _ => (evalLoop env prog i v es b).2.2.length = es.length
      | .err e => (evalLoop env prog i v es b).2.2.length + i = e.instructionIndex
      | .panic => (evalLoop env prog i v es b).2.2.length < es.length := by
    intro es
    induction es with
    | nil => intro i v b; rfl
    | cons e es ih =>
      intro i v b
      simp only [evalLoop]
      cases h : evalExpr env e b with
      | mk r b' =>
        cases r with
        | ok v' =>
          have := ih (i + 1) v' b'
          simp only [List.length_cons]
          revert this
          cases (evalLoop env prog (i + 1) v' es b').1 <;> simp only <;> omega
        | err m => simp [newExecutionError]
        | panic => simp
  have := key prog 0 (.str []) b
  simp only [Nat.add_zero] at this
  exact this

example : (evalWithTrace defaultEnv [.list [.sym b! "insert", .str b! "x"], .list [.sym b! "point"]] (newBuffer [])).2.2.length = 2 := rfl

end Texted
