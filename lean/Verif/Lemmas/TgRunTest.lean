import Verif.Spec.Tg
import Verif.Lemmas.TgTest
/-
`RunTest`, `RunTestWithTrace` and the trace callback as they are written in Go.
-/
set_option linter.unusedSectionVars false
set_option linter.constructorNameAsVariable false
namespace Texted
variable [Ext]

theorem Eventually.and {P Q : Nat → Nat → Prop} (h : Eventually P) (k : Eventually Q) : Eventually fun n d => P n d ∧ Q n d := by
  obtain ⟨a, h⟩ := h
  obtain ⟨b, k⟩ := k
  exact ⟨a + b, fun n d hn hd => ⟨h n d (by omega) (by omega), k n d (by omega) (by omega)⟩⟩

theorem Eventually.imp {P Q : Nat → Nat → Prop} (h : Eventually P) (k : ∀ n d, P n d → Q n d) : Eventually Q := by
  obtain ⟨a, h⟩ := h
  exact ⟨a, fun n d hn hd => k n d (h n d hn hd)⟩

theorem Eventually.of {P : Nat → Nat → Prop} (k : ∀ n d, P n d) : Eventually P := ⟨0, fun n d _ _ => k n d⟩

/-- A call, by way of the calls that it makes one level down. -/
theorem Eventually.down {P Q : Nat → Nat → Prop} (h : Eventually P) (k : ∀ n d, P n d → Q n (d + 1)) : Eventually Q := by
  obtain ⟨a, h⟩ := h
  refine ⟨a + 1, fun n d hn hd => ?_⟩
  obtain ⟨d, rfl⟩ : ∃ e, d = e + 1 := ⟨d - 1, by omega⟩
  exact k n d (h n d (by omega) (by omega))

theorem Eventually.at_ge (m : Nat) : Eventually fun n d => m ≤ n ∧ m < d := ⟨m + 1, fun n d _ _ => by omega⟩

theorem Eventually.res (r : Res Bytes (List Value)) : Eventually fun n d => ∀ u, r = .ok [u] → u.parts ≤ n ∧ u.parts < d := by
  match r with
  | .panic => exact .of fun _ _ _ h => nomatch h
  | .err _ => exact .of fun _ _ _ h => nomatch h
  | .ok [] => exact .of fun _ _ _ h => nomatch h
  | .ok (u :: v :: l) => exact .of fun _ _ _ h => by injection h with h; injection h with _ h; cases h
  | .ok [u] => exact (Eventually.at_ge u.parts).imp fun n d h u' e => by injection e with e; injection e with e; subst e; exact h

theorem Eventually.val (r : Res ExecutionError Value) : Eventually fun n d => ∀ u, r = .ok u → u.parts ≤ n ∧ u.parts < d := by
  cases r with
  | panic => exact .of fun _ _ _ h => nomatch h
  | err _ => exact .of fun _ _ _ h => nomatch h
  | ok u => exact (Eventually.at_ge u.parts).imp fun n d h u' e => by injection e with e; subst e; exact h

theorem fits_ev (t : TestCase) (run : Res ExecutionError Value × Buffer) : Eventually fun n d => TestFits n d t run :=
  (Eventually.val run.1).and (Eventually.res _)

theorem check_tail (x : TgX) (t : TestCase) (n d : Nat) (st : TgSt) (run : Res ExecutionError Value × Buffer) (hf : TestFits n d t run)
    (h₁ : st.vars .testCase = .test t) (h₂ : st.vars .result = .result {}) :
    (tgEvaluated st .evalResult .evalErr .buffer run).andThen (fun st => checkTail.exec x n (tgRun x n d) st) = testOut st.w (checkTest t run) := by
  match run with
  | (.panic, b) => rfl
  | (.err e, b) => exact check_tail_err x t e b n d _ (by tg [h₁]) (by tg [h₂]) (by tg [])
  | (.ok v, b) => exact check_tail_ok x t v b n d _ hf (by tg [h₁]) (by tg [h₂]) (by tg []) (by tg []) (by tg [])

theorem traceHook_tg (x : TgX) (ev : TraceEvent) (n d : Nat) (w : TgW) (hn : ev.1.parts ≤ n) (hd : ev.1.parts < d) :
    tgRun x n (d + 1) .traceHook [.event ev] w = .ret [] (w.say (tracePrint ev)) := by
  have h := fun w => fmtInstruction_tg x ev.1 n d w hn hd
  rw [tgRun_succ _ _ _ _ _ _ _ rfl]
  simp only [TgFn.body, tgTraceHook]
  tg [h, TgW.say, tracePrint, List.append_assoc, List.append_nil]

theorem hooks_tg (x : TgX) (n d : Nat) (k : TgW → TgOut) : ∀ (evs : List TraceEvent) (w : TgW), (∀ ev ∈ evs, ev.1.parts ≤ n ∧ ev.1.parts < d) →
    tgHook (tgRun x n (d + 1) .traceHook) evs w k = k (w.say (evs.flatMap tracePrint))
  | [], w, _ => by
    show k w = _
    congr 1
    simp only [TgW.say, List.flatMap_nil, List.append_nil]
  | ev :: evs, w, h => by
    have h₀ := h ev (List.mem_cons_self ..)
    simp only [tgHook]
    rw [traceHook_tg x ev n d w h₀.1 h₀.2]
    show tgHook (tgRun x n (d + 1) .traceHook) evs (w.say (tracePrint ev)) k = _
    rw [hooks_tg x n d k evs _ fun e he => h e (List.mem_cons_of_mem _ he)]
    simp only [TgW.say, List.flatMap_cons, List.append_assoc]

theorem events_ev : ∀ evs : List TraceEvent, Eventually fun n d => ∀ ev ∈ evs, ev.1.parts ≤ n ∧ ev.1.parts < d
  | [] => .of fun _ _ _ h => nomatch h
  | ev :: evs => ((Eventually.at_ge ev.1.parts).and (events_ev evs)).imp fun n d h e he => by
    rcases List.mem_cons.mp he with rfl | he
    · exact h.1
    · exact h.2 e he

/-- The statements of `RunTestWithTrace` before the checks, then `r`. -/
def testWith (r : TgS) : TgS := match tgRunTestWithTrace with
  | .seq a (.seq b (.seq c (.seq d (.seq e (.seq f (.seq g (.seq h _))))))) => .seq a (.seq b (.seq c (.seq d (.seq e (.seq f (.seq g (.seq h r)))))))
  | _ => .skip

theorem testWith_rest : testWith checkTail = tgRunTestWithTrace := rfl

theorem tgEval_plain (call : List TgV → TgW → TgOut) (st : TgSt) (y err b : TgVar) (p : List Value) (e : Env) (b' : Buffer) (h : st.vars b = .buffer b') :
    tgEval call st y err b (.vals p) (.env e) .nil = tgEvaluated st y err b (eval e p b') := by
  rw [tgEval.eq_def, h]

theorem tgEval_traced (call : List TgV → TgW → TgOut) (st : TgSt) (y err b : TgVar) (p : List Value) (e : Env) (b' : Buffer) (h : st.vars b = .buffer b') :
    tgEval call st y err b (.vals p) (.env e) .hook = tgHook call (evalWithTrace e p b').2.2 st.w fun w =>
      tgEvaluated { st with w := w } y err b ((evalWithTrace e p b').1, (evalWithTrace e p b').2.1) := by
  rw [tgEval.eq_def, h]

theorem pathBase_unknown : pathBase (b! "unknown") = b! "unknown" := by decide +kernel

/-- The state in which `RunTestWithTrace` begins. -/
def testSt (t : TestCase) (env : Env) (hk : TgV) (w : TgW) : TgSt :=
  (((⟨fun _ => .nil, w⟩ : TgSt).set .testCase (.test t)).set .env (.env env)).set .traceCallback hk

/-- What the evaluation and the rest of `RunTestWithTrace` come to. -/
def TailGives (x : TgX) (n d : Nat) (r : TgS) (t : TestCase) (env : Env) (hk : TgV) (w : TgW) (p : List Value) (o : TgOut) : Prop :=
  ∀ st : TgSt, st.vars .testCase = .test t → st.vars .result = .result {} → st.vars .buffer = .buffer (newBuffer t.buffer) → st.w = w →
    (tgEval (tgRun x n d .traceHook) st .evalResult .evalErr .buffer (.vals p) (.env env) hk).andThen (fun st => r.exec x n (tgRun x n d) st) = o

theorem start_empty (x : TgX) (env : Env) (t : TestCase) (hk : TgV) (w : TgW) (n d : Nat) (r : TgS) (hi : trimSpace t.input = []) (o : TgOut)
    (h : TailGives x n d r t env hk w [] o) : (testWith r).exec x n (tgRun x n d) (testSt t env hk w) = o := by
  simp only [testWith, tgRunTestWithTrace, testSt]
  tg [hi, pathBase_unknown]
  exact h _ (by tg []) (by tg []) (by tg []) rfl

theorem start_err (x : TgX) (env : Env) (t : TestCase) (hk : TgV) (w : TgW) (n d : Nat) (r : TgS) (hi : ¬ trimSpace t.input = []) (e : Bytes)
    (hs : parseString (trimSpace t.input) = .err e) :
    (testWith r).exec x n (tgRun x n d) (testSt t env hk w) = testOut w (some (failed (b! "parsing input: " ++ e))) := by
  simp only [testWith, tgRunTestWithTrace, testSt]
  tg [hi, dec_ne_nil hi, hs, tgParsed, pathBase_unknown, testOut, failed, List.append_nil]

theorem start_panic (x : TgX) (env : Env) (t : TestCase) (hk : TgV) (w : TgW) (n d : Nat) (r : TgS) (hi : ¬ trimSpace t.input = [])
    (hs : parseString (trimSpace t.input) = .panic) : (testWith r).exec x n (tgRun x n d) (testSt t env hk w) = .panic := by
  simp only [testWith, tgRunTestWithTrace, testSt]
  tg [hi, dec_ne_nil hi, hs, tgParsed, pathBase_unknown]

theorem start_ok (x : TgX) (env : Env) (t : TestCase) (hk : TgV) (w : TgW) (n d : Nat) (r : TgS) (hi : ¬ trimSpace t.input = []) (p : List Value)
    (hs : parseString (trimSpace t.input) = .ok p) (o : TgOut)
    (h : TailGives x n d r t env hk w p o) : (testWith r).exec x n (tgRun x n d) (testSt t env hk w) = o := by
  simp only [testWith, tgRunTestWithTrace, testSt]
  tg [hi, dec_ne_nil hi, hs, tgParsed, pathBase_unknown]
  exact h _ (by tg []) (by tg []) (by tg []) rfl

theorem start_tg (x : TgX) (env : Env) (t : TestCase) (hk : TgV) (w : TgW) (n d : Nat) (o : TgOut) (hp : testProgram t = .panic → o = .panic)
    (he : ∀ e, testProgram t = .err e → o = testOut w (some (failed (b! "parsing input: " ++ e))))
    (h : ∀ p, testProgram t = .ok p → TailGives x n d checkTail t env hk w p o) :
    tgRun x n (d + 1) .runTestWithTrace [.test t, .env env, hk] w = o := by
  show tgRunTestWithTrace.exec x n (tgRun x n d) (testSt t env hk w) = o
  rw [← testWith_rest]
  by_cases hi : trimSpace t.input = []
  · have hq : testProgram t = .ok [] := by rw [testProgram, if_pos hi]
    exact start_empty x env t hk w n d _ hi o (h _ hq)
  · have hq : testProgram t = parseString (trimSpace t.input) := by rw [testProgram, if_neg hi]
    cases hs : parseString (trimSpace t.input) with
    | panic => rw [hp (hq.trans hs)]; exact start_panic x env t hk w n d _ hi hs
    | err e => rw [he e (hq.trans hs)]; exact start_err x env t hk w n d _ hi e hs
    | ok p => exact start_ok x env t hk w n d _ hi p hs o (h _ (hq.trans hs))

/-- `RunTestWithTrace` without a callback. -/
theorem runTest_tg (x : TgX) (env : Env) (t : TestCase) :
    Eventually fun n d => ∀ w, tgRun x n d .runTestWithTrace [.test t, .env env, .nil] w = testOut w (runTest env t) := by
  have hev : Eventually fun n d => ∀ p, testProgram t = .ok p → TestFits n d t (eval env p (newBuffer t.buffer)) := by
    cases hp : testProgram t with
    | panic => exact .of fun _ _ _ h => nomatch h
    | err _ => exact .of fun _ _ _ h => nomatch h
    | ok p => exact (fits_ev t (eval env p (newBuffer t.buffer))).imp fun n d h p' e => by injection e with e; subst e; exact h
  refine hev.down fun n d hf w => start_tg x env t .nil w n d _ ?_ ?_ ?_
  · intro h; simp only [runTest, h, testOut]
  · intro e h; simp only [runTest, h]
  · intro p h st h₁ h₂ h₃ h₄
    rw [tgEval_plain _ _ _ _ _ _ _ _ h₃, check_tail x t n d _ _ (hf p h) h₁ h₂, h₄]
    simp only [runTest, h]

/-- `RunTestWithTrace` with the callback of `createTraceCallback`. -/
theorem runTest_trace_tg (x : TgX) (env : Env) (t : TestCase) :
    Eventually fun n d => ∀ w, tgRun x n d .runTestWithTrace [.test t, .env env, .hook] w =
      testOut (w.say ((runTestWithTrace env t).2.flatMap tracePrint)) (runTestWithTrace env t).1 := by
  have hev : Eventually fun n d => ∀ p, testProgram t = .ok p →
      TestFits n (d + 1) t ((evalWithTrace env p (newBuffer t.buffer)).1, (evalWithTrace env p (newBuffer t.buffer)).2.1) ∧
      ∀ ev ∈ (evalWithTrace env p (newBuffer t.buffer)).2.2, ev.1.parts ≤ n ∧ ev.1.parts < d := by
    cases hp : testProgram t with
    | panic => exact .of fun _ _ _ h => nomatch h
    | err _ => exact .of fun _ _ _ h => nomatch h
    | ok p =>
      refine ((fits_ev t ((evalWithTrace env p (newBuffer t.buffer)).1, (evalWithTrace env p (newBuffer t.buffer)).2.1)).and
        (events_ev (evalWithTrace env p (newBuffer t.buffer)).2.2)).imp fun n d h p' e => ?_
      injection e with e
      subst e
      exact ⟨⟨fun v hv => ⟨(h.1.1 v hv).1, by have := (h.1.1 v hv).2; omega⟩, fun v hv => ⟨(h.1.2 v hv).1, by have := (h.1.2 v hv).2; omega⟩⟩, h.2⟩
  refine (hev.down (Q := fun n d => ∃ e, d = e + 1 ∧ ∀ p, testProgram t = .ok p →
      TestFits n d t ((evalWithTrace env p (newBuffer t.buffer)).1, (evalWithTrace env p (newBuffer t.buffer)).2.1) ∧
      ∀ ev ∈ (evalWithTrace env p (newBuffer t.buffer)).2.2, ev.1.parts ≤ n ∧ ev.1.parts < e) fun n d h => ⟨d, rfl, h⟩).down fun n d hf w => ?_
  obtain ⟨d, rfl, hf⟩ := hf
  have hnil : ∀ w : TgW, w.say (List.flatMap tracePrint []) = w := fun w => by simp only [TgW.say, List.flatMap_nil, List.append_nil]
  refine start_tg x env t .hook w n (d + 1) _ ?_ ?_ ?_
  · intro h; simp only [runTestWithTrace, h, testOut]
  · intro e h; simp only [runTestWithTrace, h, hnil]
  · intro p h st h₁ h₂ h₃ h₄
    rw [tgEval_traced _ _ _ _ _ _ _ _ h₃, hooks_tg x n d _ _ _ (hf p h).2]
    refine (check_tail x t n (d + 1) { vars := st.vars, w := st.w.say (List.flatMap tracePrint (evalWithTrace env p (newBuffer t.buffer)).2.2) } _ (hf p h).1 h₁ h₂).trans ?_
    simp only [runTestWithTrace, h, h₄]

end Texted
