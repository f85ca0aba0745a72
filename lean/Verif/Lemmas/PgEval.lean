import Verif.Lemmas.PgTokens
/-
`evalExpression`, `EvalWithTrace`, `Eval` (/repo/edlisp/eval.go) as they are written in Go.
-/
set_option linter.unusedSectionVars false
namespace Texted
variable [Ext] {n d : Nat} {w : PgW}

theorem Value.parts_pos (v : Value) : 0 < v.parts := by cases v <;> simp [Value.parts]

theorem Value.partsAll_length : ∀ l : List Value, l.length ≤ Value.partsAll l
  | [] => Nat.le_refl _
  | v :: vs => by
    have := Value.partsAll_length vs
    have := v.parts_pos
    rw [List.length_cons, Value.partsAll]; omega

theorem pgFilled_some (l : List Value) : pgFilled (l.map some) = some l := by
  induction l with
  | nil => rfl
  | cons a l ih => rw [List.map_cons, pgFilled, ih]

theorem setAt_next (done : List Value) (r : Nat) (v : Value) : (PgV.slots (done.map some ++ List.replicate (r + 1) none)).setAt (.int done.length) (.val v) =
    .ok (.slots ((done ++ [v]).map some ++ List.replicate r none)) := by
  show (if 0 ≤ (done.length : Int) ∧ (done.length : Int) < ((done.map some ++ List.replicate (r + 1) none : List (Option Value)).length : Int) then _ else _) = _
  rw [if_pos ⟨by omega, by simp⟩, Int.toNat_natCast]
  congr 2
  rw [List.set_append_right _ _ (by simp)]
  simp [List.replicate_succ]

/-- The loop of `evalExpression` over the arguments (/repo/edlisp/eval.go:142-149) and what follows it: the condition, the body, the step, the rest. -/
def argsParts : PgE × PgS × PgS × PgS := match pgEvalExpression with
  | .if_ _ _ (.if_ _ _ (.if_ _ (.seq _ (.seq _ (.seq _ (.seq _ (.seq _ (.seq _ (.seq _ (.seq _ (.seq _ (.seq _ (.seq (.while c p b) r))))))))))) _)) => (c, b, p, r)
  | _ => (.nil, .skip, .skip, .skip)

/-- The loop, `m` rounds. -/
def argsRun (n d m : Nat) (st : PgSt) : PgOut :=
  pgLoop (fun st => argsParts.1.eval st) (fun st => argsParts.2.1.exec n (pgRun n d) st) (fun st => argsParts.2.2.1.exec n (pgRun n d) st) m st

/-- The variables of the loop: the arguments `done` have been evaluated. -/
structure ArgsAt (env : Env) (fn : Builtin) (l : List Value) (done : List Value) (r : Nat) (st : PgSt) : Prop where
  list : st.vars .list = .val (.list l)
  env : st.vars .env = .env env
  buffer : st.vars .buffer = .buffer
  fn : st.vars .fn = .fn fn
  i : st.vars .i = .int (done.length + 1 : Nat)
  args : st.vars .args = .slots (done.map some ++ List.replicate r none)

mutual
theorem expr_pg (env : Env) : ∀ (v : Value) (n d : Nat) (w : PgW), v.parts < 4611686018427387904 → v.parts ≤ n → v.parts < d →
    pgRun n d .evalExpression [.val v, .env env, .buffer] w = pgReturn w (evalExpr env v w.buf)
  | .str s, n, d, w, _, _, hd => by
    obtain ⟨d, rfl⟩ : ∃ e, d = e + 1 := ⟨d - 1, by omega⟩
    rw [pgRun_succ _ _ _ _ _ _ rfl]
    simp only [PgFn.body, pgEvalExpression]
    pg [PgT.isValue]
    rfl
  | .num s, n, d, w, _, _, hd => by
    obtain ⟨d, rfl⟩ : ∃ e, d = e + 1 := ⟨d - 1, by omega⟩
    rw [pgRun_succ _ _ _ _ _ _ rfl]
    simp only [PgFn.body, pgEvalExpression]
    pg [PgT.isValue]
    rfl
  | .sym s, n, d, w, _, _, hd => by
    obtain ⟨d, rfl⟩ : ∃ e, d = e + 1 := ⟨d - 1, by omega⟩
    rw [pgRun_succ _ _ _ _ _ _ rfl]
    simp only [PgFn.body, pgEvalExpression]
    pg [PgT.isValue, List.append_nil]
    rfl
  | .list [], n, d, w, _, _, hd => by
    obtain ⟨d, rfl⟩ : ∃ e, d = e + 1 := ⟨d - 1, by omega⟩
    rw [pgRun_succ _ _ _ _ _ _ rfl]
    simp only [PgFn.body, pgEvalExpression]
    pg [PgT.isValue, PgT.assert, PgT.holds, PgV.unpack, List.length_nil, List.append_nil, Int.natCast_zero]
    rfl
  | .list (.str s :: args), n, d, w, _, _, hd => by
    obtain ⟨d, rfl⟩ : ∃ e, d = e + 1 := ⟨d - 1, by omega⟩
    rw [pgRun_succ _ _ _ _ _ _ rfl]
    simp only [PgFn.body, pgEvalExpression]
    have hz : decide (((Value.str s :: args).length : Int) = 0) = false := by simp; omega
    pg [PgT.isValue, PgT.assert, PgT.holds, PgV.unpack, hz, List.append_nil, show goAt (Value.str s :: args) 0 = some (.str s) from rfl, pgGot]
    rfl
  | .list (.num s :: args), n, d, w, _, _, hd => by
    obtain ⟨d, rfl⟩ : ∃ e, d = e + 1 := ⟨d - 1, by omega⟩
    rw [pgRun_succ _ _ _ _ _ _ rfl]
    simp only [PgFn.body, pgEvalExpression]
    have hz : decide (((Value.num s :: args).length : Int) = 0) = false := by simp; omega
    pg [PgT.isValue, PgT.assert, PgT.holds, PgV.unpack, hz, List.append_nil, show goAt (Value.num s :: args) 0 = some (.num s) from rfl, pgGot]
    rfl
  | .list (.list s :: args), n, d, w, _, _, hd => by
    obtain ⟨d, rfl⟩ : ∃ e, d = e + 1 := ⟨d - 1, by omega⟩
    rw [pgRun_succ _ _ _ _ _ _ rfl]
    simp only [PgFn.body, pgEvalExpression]
    have hz : decide (((Value.list s :: args).length : Int) = 0) = false := by simp; omega
    pg [PgT.isValue, PgT.assert, PgT.holds, PgV.unpack, hz, List.append_nil, show goAt (Value.list s :: args) 0 = some (.list s) from rfl, pgGot]
    rfl
  | .list (.sym f :: args), n, d, w, hs, hn, hd => by
    rw [Value.parts, Value.partsAll, Value.parts] at hs hn hd
    obtain ⟨d, rfl⟩ : ∃ e, d = e + 1 := ⟨d - 1, by omega⟩
    have hlen := Value.partsAll_length args
    rw [pgRun_succ _ _ _ _ _ _ rfl]
    simp only [PgFn.body, pgEvalExpression]
    have hz : decide (((Value.sym f :: args).length : Int) = 0) = false := by simp; omega
    cases hf : env f with
    | none =>
      pg [PgT.isValue, PgT.assert, PgT.holds, PgV.unpack, hz, List.append_nil, show goAt (Value.sym f :: args) 0 = some (.sym f) from rfl, pgGot, hf, pgFunction]
      rw [evalExpr, hf]
      rfl
    | some fn =>
      have hsub : wrap64 (((Value.sym f :: args).length : Int) - 1) = (args.length : Int) := by
        rw [List.length_cons, wrap64_eq (by omega) (by omega)]; omega
      have hneg : ¬ ((args.length : Int) < 0) := by omega
      pg [PgT.isValue, PgT.assert, PgT.holds, PgV.unpack, hz, List.append_nil, show goAt (Value.sym f :: args) 0 = some (.sym f) from rfl, pgGot, hf, pgFunction, hsub, hneg,
        Int.toNat_natCast, pgexec_while]
      rw [evalExpr, hf]
      dsimp only
      have hg := args_pg env fn (.sym f :: args) args n d n w [] ((((((((((((({ vars := fun _ => .nil, w := w } : PgSt).set .expr (.val (.list (.sym f :: args)))).set .env (.env env)).set .buffer .buffer).set .list (.val (.list (.sym f :: args)))).set
        .firstElem (.val (.sym f))).set .symbol (.val (.sym f))).set .fnName (.str f)).set .fn (.fn fn)).set .exists (.bool true)).set .args (.slots (List.replicate args.length none))).set .i (.int 1)))
        (by rw [List.length_cons]; omega) (by omega) (by omega) (by omega) (by omega) rfl (by simp)
        ⟨by pg [], by pg [], by pg [], by pg [], by pg []; rfl, by pg []; rfl⟩ rfl
      rcases he : evalArgs env args w.buf with ⟨r, b⟩
      cases r with
      | ok vs =>
        obtain ⟨st', e₁, e₂, e₃, e₄⟩ := hg.1 vs b he
        refine (congrArg (fun o : PgOut => o.andThen _) e₁).trans ?_
        pg [e₂, e₃]
        rw [List.nil_append] at e₃
        have happ : pgApply st' (.fn fn) (.slots (vs.map some)) = pgReturn st'.w (fn vs st'.w.buf) := by
          rw [pgApply, pgFilled_some]
        rw [List.nil_append, happ, e₄]
        rcases fn vs b with ⟨r, b'⟩
        cases r with
        | ok v => simp only [pgReturn]; pg []
        | err e => simp only [pgReturn]; pg []
        | panic => simp only [pgReturn]; pg []
      | err e =>
        refine (congrArg (fun o : PgOut => o.andThen _) (hg.2.1 e b he)).trans ?_
        rfl
      | panic =>
        refine (congrArg (fun o : PgOut => o.andThen _) (hg.2.2 b he)).trans ?_
        rfl
theorem args_pg (env : Env) (fn : Builtin) (l : List Value) : ∀ (rest : List Value) (n d m : Nat) (w : PgW) (done : List Value) (st : PgSt), l.length < 4611686018427387904 →
    Value.partsAll rest < 4611686018427387904 → Value.partsAll rest ≤ n → Value.partsAll rest < d → rest.length < m → l.drop (done.length + 1) = rest → l ≠ [] →
    ArgsAt env fn l done rest.length st → st.w = w →
    (∀ vs b, evalArgs env rest w.buf = (.ok vs, b) → ∃ st', argsRun n d m st = .next st' ∧ st'.vars .fn = .fn fn ∧ st'.vars .args = .slots ((done ++ vs).map some) ∧ st'.w = { w with buf := b }) ∧
    (∀ e b, evalArgs env rest w.buf = (.err e, b) → argsRun n d m st = .ret [.nil, .err e] { w with buf := b }) ∧
    (∀ b, evalArgs env rest w.buf = (.panic, b) → argsRun n d m st = .panic)
  | [], n, d, m, w, done, st, hl, hs, hn, hd, hm, hdrop, hne, h, hw => by
    obtain ⟨m, rfl⟩ : ∃ e, m = e + 1 := ⟨m - 1, by rw [List.length_nil] at hm; omega⟩
    obtain ⟨h₁, h₂, h₃, h₄, h₅, h₆⟩ := h
    have hlen : l.length ≤ done.length + 1 := List.drop_eq_nil_iff.mp hdrop
    have hc : decide (((done.length + 1 : Nat) : Int) < (l.length : Int)) = false := by simp; omega
    have hrun : argsRun n d (m + 1) st = .next st := by
      simp only [argsRun, pgLoop, argsParts, pgEvalExpression]
      pg [h₁, h₅, hc]
    rw [hrun]
    refine ⟨fun vs b hv => ⟨st, rfl, h₄, ?_, ?_⟩, fun e b he => ?_, fun b he => ?_⟩
    · rw [evalArgs] at hv
      rw [h₆, ← Res.ok.inj (Prod.mk.inj hv).1, List.append_nil]
      simp
    · rw [evalArgs] at hv
      rw [hw, ← (Prod.mk.inj hv).2]
    · rw [evalArgs] at he; exact nomatch (Prod.mk.inj he).1
    · rw [evalArgs] at he; exact nomatch (Prod.mk.inj he).1
  | a :: as, n, d, m, w, done, st, hl, hs, hn, hd, hm, hdrop, hne, h, hw => by
    rw [List.length_cons] at hm
    rw [Value.partsAll] at hs hn hd
    have hpos := a.parts_pos
    obtain ⟨m, rfl⟩ : ∃ e, m = e + 1 := ⟨m - 1, by omega⟩
    obtain ⟨h₁, h₂, h₃, h₄, h₅, h₆⟩ := h
    have hlt := lt_of_drop hdrop
    have hc : decide (((done.length + 1 : Nat) : Int) < (l.length : Int)) = true := by simp; omega
    have hat : goAt l ((done.length + 1 : Nat) : Int) = some a := goAt_drop hdrop
    have hx := expr_pg env a n d w (by omega) (by omega) (by omega)
    have hsub : wrap64 (((done.length + 1 : Nat) : Int) - 1) = (done.length : Int) := by rw [wrap64_eq (by omega) (by omega)]; omega
    have hadd : wrap64 (((done.length + 1 : Nat) : Int) + 1) = ((done.length + 1 + 1 : Nat) : Int) := by rw [wrap64_eq (by omega) (by omega)]; omega
    rw [evalArgs.eq_def]
    dsimp only
    rcases he : evalExpr env a w.buf with ⟨r, b⟩
    rw [he] at hx
    cases r with
    | ok v =>
      simp only [pgReturn] at hx
      have hset := setAt_next done as.length v
      rw [List.length_cons] at h₆
      have hrun : ∃ st', argsRun n d (m + 1) st = argsRun n d m st' ∧ ArgsAt env fn l (done ++ [v]) as.length st' ∧ st'.w = { w with buf := b } := by
        simp only [argsRun, pgLoop, argsParts, pgEvalExpression]
        pg [h₁, h₂, h₃, h₅, hc, hat, pgGot, hw, hx, hsub, h₆, hset, hadd]
        exact ⟨_, rfl, ⟨by pg [h₁], by pg [h₂], by pg [h₃], by pg [h₄], by pg [List.length_append, List.length_cons, List.length_nil], by pg []⟩, rfl⟩
      obtain ⟨st', e₁, e₂, e₃⟩ := hrun
      have hd' : l.drop ((done ++ [v]).length + 1) = as := by
        rw [List.length_append]; exact drop_succ_of hdrop
      have hg := args_pg env fn l as n d m { w with buf := b } (done ++ [v]) st' hl (by omega) (by omega) (by omega) (by omega) hd' hne e₂ e₃
      rw [e₁]
      dsimp only at hg ⊢
      rcases hr : evalArgs env as b with ⟨r', b'⟩
      rw [hr] at hg
      cases r' with
      | ok vs =>
        refine ⟨fun vs' b'' hv => ?_, fun e b'' he => (nomatch (Prod.mk.inj he).1), fun b'' he => (nomatch (Prod.mk.inj he).1)⟩
        obtain ⟨st'', k₁, k₂, k₃, k₄⟩ := hg.1 vs b' rfl
        refine ⟨st'', k₁, k₂, ?_, ?_⟩
        · rw [k₃, ← Res.ok.inj (Prod.mk.inj hv).1, List.append_assoc]; rfl
        · rw [k₄, ← (Prod.mk.inj hv).2]
      | err e =>
        refine ⟨fun vs' b'' hv => (nomatch (Prod.mk.inj hv).1), fun e' b'' he => ?_, fun b'' he => nomatch (Prod.mk.inj he).1⟩
        rw [← Res.err.inj (Prod.mk.inj he).1, ← (Prod.mk.inj he).2]
        exact hg.2.1 e b' rfl
      | panic =>
        exact ⟨fun vs' b'' hv => (nomatch (Prod.mk.inj hv).1), fun e' b'' he => (nomatch (Prod.mk.inj he).1), fun b'' he => hg.2.2 b' rfl⟩
    | err e =>
      simp only [pgReturn] at hx
      have hrun : argsRun n d (m + 1) st = .ret [.nil, .err e] { w with buf := b } := by
        simp only [argsRun, pgLoop, argsParts, pgEvalExpression]
        pg [h₁, h₂, h₃, h₅, hc, hat, pgGot, hw, hx]
      refine ⟨fun vs' b'' hv => (nomatch (Prod.mk.inj hv).1), fun e' b'' he => ?_, fun b'' he => nomatch (Prod.mk.inj he).1⟩
      rw [hrun, ← Res.err.inj (Prod.mk.inj he).1, ← (Prod.mk.inj he).2]
    | panic =>
      simp only [pgReturn] at hx
      have hrun : argsRun n d (m + 1) st = .panic := by
        simp only [argsRun, pgLoop, argsParts, pgEvalExpression]
        pg [h₁, h₂, h₃, h₅, hc, hat, pgGot, hw, hx]
      exact ⟨fun vs' b'' hv => (nomatch (Prod.mk.inj hv).1), fun e' b'' he => (nomatch (Prod.mk.inj he).1), fun b'' he => hrun⟩
end

/-! ### The loop over the instructions -/

/-- The results of `EvalWithTrace` and `Eval`. -/
def pgDone (w : PgW) : Res ExecutionError Value → PgOut
  | .ok v => .ret [.val v, .nil] w
  | .err e => .ret [.nil, .xerr e] w
  | .panic => .panic

/-- The body of the loop of `EvalWithTrace` (/repo/edlisp/eval.go:97-111) and what follows it. -/
def traceParts : PgS × PgS := match pgEvalWithTrace with
  | .seq _ (.seq (.range _ _ _ b) r) => (b, r)
  | _ => (.skip, .skip)

/-- The loop and what follows it. -/
def traceRun (n d k : Nat) (es : List Value) (st : PgSt) : PgOut :=
  (pgRange (fun st => traceParts.1.exec n (pgRun n d) st) .i .expr k (es.map .val) st).andThen fun st => traceParts.2.exec n (pgRun n d) st

/-- The variables of the loop. -/
structure TraceAt (env : Env) (whole : List Value) (hook : Bool) (result : Value) (st : PgSt) : Prop where
  env : st.vars .env = .env env
  buffer : st.vars .buffer = .buffer
  program : st.vars .program = .vals whole
  callback : st.vars .traceCallback = if hook then .hook else .nil
  result : st.vars .result = .val result

theorem pg_newExecutionError (msg : Bytes) (program : List Value) (i : Nat) (v : Value) (env : Env) :
    pgRun n (d + 1) .NewExecutionError [.err msg, .vals program, .int i, .val v, .buffer, .env env] w = .ret [.xerr (newExecutionError msg program i v w.buf)] w := by
  rw [pgRun_succ _ _ _ _ _ _ rfl]
  simp only [PgFn.body, pgNewExecutionError]
  pg [Buffer.pgField]
  rfl

theorem loop_pg (env : Env) (whole : List Value) (hook : Bool) : ∀ (es : List Value) (k : Nat) (result : Value) (st : PgSt) (w : PgW),
    (∀ e ∈ es, e.parts < 4611686018427387904 ∧ e.parts ≤ n ∧ e.parts < d) → TraceAt env whole hook result st → st.w = w →
    traceRun n (d + 1) k es st = pgDone
      { w with buf := (evalLoop env whole k result es w.buf).2.1,
               events := w.events ++ if hook then (evalLoop env whole k result es w.buf).2.2 else [] } (evalLoop env whole k result es w.buf).1 := by
  intro es
  induction es with
  | nil =>
    intro k result st w _ ⟨h₁, h₂, h₃, h₄, h₅⟩ hw
    have hrun : traceRun n (d + 1) k [] st = .ret [.val result, .nil] w := by
      simp only [traceRun, traceParts, pgEvalWithTrace, List.map_nil, pgRange]
      pg [h₅, hw]
    rw [hrun, evalLoop]
    dsimp only
    have : w.events ++ (if hook then ([] : List TraceEvent) else []) = w.events := by cases hook <;> simp
    rw [this]
    rfl
  | cons e es ih =>
    intro k result st w hall ⟨h₁, h₂, h₃, h₄, h₅⟩ hw
    have hone := hall e List.mem_cons_self
    have hrest := fun x hx => hall x (List.mem_cons_of_mem _ hx)
    have hx := expr_pg env e n (d + 1) w (by omega) (by omega) (by omega)
    rw [evalLoop.eq_def]
    dsimp only
    rcases he : evalExpr env e w.buf with ⟨r, b⟩
    rw [he] at hx
    cases r with
    | ok v =>
      simp only [pgReturn] at hx
      have hrun : ∃ st', traceRun n (d + 1) k (e :: es) st = traceRun n (d + 1) (k + 1) es st' ∧ TraceAt env whole hook v st' ∧
          st'.w = { w with buf := b, events := w.events ++ if hook then [(e, b)] else [] } := by
        simp only [traceRun, List.map_cons, pgRange]
        simp only [traceParts, pgEvalWithTrace]
        cases hook with
        | true =>
          pg [h₁, h₂, h₃, h₄, h₅, hw, hx, pgTrace]
          exact ⟨_, rfl, ⟨by pg [h₁], by pg [h₂], by pg [h₃], by pg [h₄], by pg []⟩, rfl⟩
        | false =>
          pg [h₁, h₂, h₃, h₄, h₅, hw, hx, pgTrace, Bool.false_eq_true]
          refine ⟨_, rfl, ⟨by pg [h₁], by pg [h₂], by pg [h₃], by pg [h₄], by pg []⟩, ?_⟩
          pg [List.append_nil]
      obtain ⟨st', e₁, e₂, e₃⟩ := hrun
      rw [e₁, ih (k + 1) v st' _ hrest e₂ e₃]
      dsimp only
      cases hook with
      | true => simp only [if_true, List.append_assoc, List.cons_append, List.nil_append]
      | false => simp only [Bool.false_eq_true, if_false, List.append_nil]
    | err msg =>
      simp only [pgReturn] at hx
      have hrun : traceRun n (d + 1) k (e :: es) st = .ret [.nil, .xerr (newExecutionError msg whole k e b)] { w with buf := b } := by
        simp only [traceRun, List.map_cons, pgRange]
        simp only [traceParts, pgEvalWithTrace]
        pg [h₁, h₂, h₃, h₄, h₅, hw, hx, pg_newExecutionError]
      rw [hrun]
      have : w.events ++ (if hook then ([] : List TraceEvent) else []) = w.events := by cases hook <;> simp
      dsimp only
      rw [this]
      rfl
    | panic =>
      simp only [pgReturn] at hx
      simp only [traceRun, List.map_cons, pgRange]
      simp only [traceParts, pgEvalWithTrace]
      pg [h₁, h₂, h₃, h₄, h₅, hw, hx]
      rfl

theorem parts_of_mem {l : List Value} {e : Value} (h : e ∈ l) : e.parts ≤ Value.partsAll l := by
  induction l with
  | nil => exact nomatch h
  | cons a l ih =>
    rw [Value.partsAll]
    rcases List.mem_cons.mp h with h | h
    · rw [h]; omega
    · have := ih h; omega

theorem pg_EvalWithTrace (env : Env) (program : List Value) (hook : Bool) (hs : Value.partsAll program < 4611686018427387904) (hn : Value.partsAll program ≤ n)
    (hd : Value.partsAll program + 2 < d) :
    pgRun n d .EvalWithTrace [.vals program, .env env, .buffer, if hook then .hook else .nil] w = pgDone
      { w with buf := (evalWithTrace env program w.buf).2.1, events := w.events ++ if hook then (evalWithTrace env program w.buf).2.2 else [] }
      (evalWithTrace env program w.buf).1 := by
  obtain ⟨d, rfl⟩ : ∃ e, d = e + 2 := ⟨d - 2, by omega⟩
  have hl := loop_pg (n := n) (d := d) env program hook program 0 (.str [])
    ((((({ vars := fun _ => .nil, w := w } : PgSt).set .program (.vals program)).set .env (.env env)).set .buffer .buffer).set .traceCallback (if hook then .hook else .nil) |>.set .result (.val (.str []))) w
    (fun e he => by have := parts_of_mem he; omega) ⟨by pg [], by pg [], by pg [], by pg [], by pg []⟩ rfl
  unfold evalWithTrace
  rw [← hl]
  rw [pgRun_succ _ _ _ _ _ _ rfl]
  simp only [PgFn.body, pgEvalWithTrace]
  pg [pgexec_range, show (PgV.vals program).items = .ok (program.map .val) from rfl]
  rfl

theorem noTrace_eq (env : Env) (whole : List Value) : ∀ (es : List Value) (k : Nat) (r : Value) (b : Buffer),
    evalLoopNoTrace env whole k r es b = ((evalLoop env whole k r es b).1, (evalLoop env whole k r es b).2.1) := by
  intro es
  induction es with
  | nil => intro k r b; rfl
  | cons e es ih =>
    intro k r b
    rw [evalLoopNoTrace.eq_def, evalLoop.eq_def]
    dsimp only
    rcases evalExpr env e b with ⟨r', b'⟩
    cases r' with
    | ok v => exact ih _ _ _
    | err e => rfl
    | panic => rfl

theorem pg_Eval (env : Env) (program : List Value) (hs : Value.partsAll program < 4611686018427387904) (hn : Value.partsAll program ≤ n)
    (hd : Value.partsAll program + 3 < d) :
    pgRun n d .Eval [.vals program, .env env, .buffer] w = pgDone { w with buf := (eval env program w.buf).2 } (eval env program w.buf).1 := by
  obtain ⟨d, rfl⟩ : ∃ e, d = e + 1 := ⟨d - 1, by omega⟩
  have h := pg_EvalWithTrace (n := n) (d := d) (w := w) env program false hs hn (by omega)
  simp only [Bool.false_eq_true, if_false, List.append_nil] at h
  rw [pgRun_succ _ _ _ _ _ _ rfl]
  simp only [PgFn.body, pgEval]
  unfold eval
  rw [noTrace_eq]
  pg [h]
  rw [evalWithTrace]
  rcases evalLoop env program 0 (.str []) program w.buf with ⟨r, b, t⟩
  cases r with
  | ok v => simp only [pgDone]; pg []
  | err e => simp only [pgDone]; pg []
  | panic => simp only [pgDone]; pg []

end Texted
