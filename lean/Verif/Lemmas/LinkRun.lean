import Verif.Lemmas.Link
/-
Computing with the operations of the model on what fits into memory.
-/
set_option linter.unusedSectionVars false
set_option linter.unusedSimpArgs false
namespace Texted
open Spec

section
variable [Ext] {m : Memory} {n : Nat} {call : FgFn → List FgV → Proc FgOut} {st : FgSt}
theorem linkGot_some (vs : List FgV) : linkGot (some vs) = .got vs := rfl
theorem linkGot_none : linkGot none = .stuck := rfl
theorem put_got (st : FgSt) (xs : List FgVar) (vs : List FgV) : (LinkOut.got vs).put st xs = fgBind st xs vs := rfl
theorem put_spin (st : FgSt) (xs : List FgVar) : LinkOut.spin.put st xs = .spin := rfl
theorem put_stuck (st : FgSt) (xs : List FgVar) : LinkOut.stuck.put st xs = .stuck := rfl
theorem fitting_true (p : Proc LinkOut) : fitting true p = p := rfl
theorem lo_parseString (s : Bytes) : fittingOp m .parseString [.str s] = fitting (m.text s) ((FgOp.run .parseString [.str s]).bind fun r => .ret (linkGot r)) := rfl
theorem lo_parseJSONString (s : Bytes) : fittingOp m .parseJSONString [.str s] = fitting (m.jsonText s) ((FgOp.run .parseJSONString [.str s]).bind fun r => .ret (linkGot r)) := rfl
theorem lo_eval (p : List Value) (b : Buffer) : fittingOp m .eval [.vals p, .env, .buffer b] =
    fitting (m.run p b) ((FgOp.run .eval [.vals p, .env, .buffer b]).bind fun r => .ret (linkGot r)) := rfl
theorem lo_parseReader : fittingOp m .parseReader [.stdin] = .act .stdin fun r => match r with
    | .ok s => fitting (m.text s) ((fgParsed (parseString s)).bind fun r => .ret (linkGot r))
    | .error e => .ret (.got [.vals [], .err e]) := rfl
theorem lo_readFile (vs : List FgV) : fittingOp m .readFile vs = (FgOp.run .readFile vs).bind fun r => .ret (linkGot r) := rfl
theorem lo_writeFile (vs : List FgV) : fittingOp m .writeFile vs = (FgOp.run .writeFile vs).bind fun r => .ret (linkGot r) := rfl
theorem lo_readStdin (vs : List FgV) : fittingOp m .readStdin vs = (FgOp.run .readStdin vs).bind fun r => .ret (linkGot r) := rfl
theorem lo_print (vs : List FgV) : fittingOp m .print vs = (FgOp.run .print vs).bind fun r => .ret (linkGot r) := rfl
theorem lo_fprint (vs : List FgV) : fittingOp m .fprint vs = (FgOp.run .fprint vs).bind fun r => .ret (linkGot r) := rfl
theorem lo_encode (vs : List FgV) : fittingOp m .encode vs = (FgOp.run .encode vs).bind fun r => .ret (linkGot r) := rfl
theorem lo_parseJSONReader (vs : List FgV) : fittingOp m .parseJSONReader vs = (FgOp.run .parseJSONReader vs).bind fun r => .ret (linkGot r) := rfl
theorem lo_valueToShellString (vs : List FgV) : fittingOp m .valueToShellString vs = (FgOp.run .valueToShellString vs).bind fun r => .ret (linkGot r) := rfl
theorem lo_valueToJSON (vs : List FgV) : fittingOp m .valueToJSON vs = (FgOp.run .valueToJSON vs).bind fun r => .ret (linkGot r) := rfl
theorem lo_flagString (vs : List FgV) : fittingOp m .flagString vs = (FgOp.run .flagString vs).bind fun r => .ret (linkGot r) := rfl
theorem lo_flagStrings (vs : List FgV) : fittingOp m .flagStrings vs = (FgOp.run .flagStrings vs).bind fun r => .ret (linkGot r) := rfl
theorem lo_requireString (vs : List FgV) : fittingOp m .requireString vs = (FgOp.run .requireString vs).bind fun r => .ret (linkGot r) := rfl
theorem lo_requireStrings (vs : List FgV) : fittingOp m .requireStrings vs = (FgOp.run .requireStrings vs).bind fun r => .ret (linkGot r) := rfl
theorem lkexec_skip : FgS.execBy (fittingOp m) n call .skip st = .ret (.next st) := rfl
theorem lkexec_seq (a b : FgS) : FgS.execBy (fittingOp m) n call (.seq a b) st = (a.execBy (fittingOp m) n call st).bind fun o => o.andThen fun st => b.execBy (fittingOp m) n call st := rfl
theorem lkexec_set (x : FgVar) (e : FgE) : FgS.execBy (fittingOp m) n call (.set x e) st = (e.eval st).runFg fun v => .ret (.next (fgSet st x v)) := rfl
theorem lkexec_setField (x : FgVar) (f : FgField) (e : FgE) : FgS.execBy (fittingOp m) n call (.setField x f e) st =
    (e.eval st).runFg fun v => ((st x).setField f v).runFg fun v => .ret (.next (fgSet st x v)) := rfl
theorem lkexec_op (xs : List FgVar) (o : FgOp) (args : FgEs) : FgS.execBy (fittingOp m) n call (.op xs o args) st =
    (args.eval st).runFg fun vs => (fittingOp m o vs).bind fun r => .ret (r.put st xs) := rfl
theorem lkexec_callFn (xs : List FgVar) (f : FgFn) (args : FgEs) : FgS.execBy (fittingOp m) n call (.callFn xs f args) st =
    (args.eval st).runFg fun vs => (call f vs).bind fun o => .ret (o.results st xs) := rfl
theorem lkexec_if (c : FgE) (a b : FgS) : FgS.execBy (fittingOp m) n call (.if_ c a b) st = (c.eval st).runFg fun v => fgIf v (a.execBy (fittingOp m) n call st) (b.execBy (fittingOp m) n call st) := rfl
theorem lkexec_range (i x : FgVar) (e : FgE) (body : FgS) : FgS.execBy (fittingOp m) n call (.range i x e body) st =
    (e.eval st).runFg fun v => v.items.runFg fun l => fgRange (fun st => body.execBy (fittingOp m) n call st) i x 0 l st := rfl
theorem lkexec_forever (body : FgS) : FgS.execBy (fittingOp m) n call (.forever body) st = fgForever (fun st => body.execBy (fittingOp m) n call st) n st := rfl
theorem lkexec_cont : FgS.execBy (fittingOp m) n call .cont st = .ret (.cont st) := rfl
theorem lkexec_brk : FgS.execBy (fittingOp m) n call .brk st = .ret (.brk st) := rfl
theorem lkexec_ret (l : FgEs) : FgS.execBy (fittingOp m) n call (.ret l) st = (l.eval st).runFg fun vs => .ret (.ret vs) := rfl
end

macro "lk" "[" ts:Lean.Parser.Tactic.simpLemma,* "]" : tactic =>
  `(tactic| simp only [proc_ret_bind, proc_panic_bind, proc_act_bind, proc_bind_assoc, rel_ret, rel_panic, rel_act, fgok_bind, fgok_run, fgpanic_bind, fgpanic_run, fgorPanic,
    fgnext_andThen, fgcont_andThen, fgbrk_andThen, fgret_andThen, fgspin_andThen, fgnext_round, fgcont_round, fgbrk_round, fgret_round, fgIf_bool, fgSet_get, fgSetAll_nil, fgSetAll_cons, fgBind_nil, fgBind_cons,
    linkGot_some, linkGot_none, put_got, put_spin, put_stuck, fgresults_ret, fgresults_spin, fgeval_var, fgeval_int, fgeval_str, fgeval_bool, fgeval_nil, fgeval_noVals, fgeval_noStrs, fgeval_noResults, fgeval_noText, fgeval_stdin,
    fgeval_stdout, fgeval_writer, fgeval_or, fgeval_and, fgeval_eq, fgeval_ne, fgeval_gt, fgeval_add, fgeval_not, fgeval_call, fgevals_nil, fgevals_cons, fgShort_or, fgShort_and,
    fgnot, applyFg_eq, applyFg_ne, applyFg_add, applyFg_gt, applyFg_cat, fgeq_ints, fgeq_strs, fgeq_nil, fgeq_err, fgpieces_nil, fgpieces_str, fgpieces_err, fgError_some, fgError_none,
    fgget_filename, fgget_success, fgget_error, fgset_success, fgset_error, fglen_str, fglen_strs, fgindex, fgappend_strs, fgappend_results, fp_len, fp_index, fp_append, fp_errorf,
    fp_sprintf, fp_decimal, fp_newBuffer, fp_bufferString, fp_builderString, fp_newList, fp_sexpText, fp_newEnv, fp_newEditResult, fp_field, fp_getString, fp_getBool, fp_toolText,
    fp_toolError, fp_isWriter, lo_readFile, fo_readFile, lo_writeFile, fo_writeFile, lo_readStdin, fo_readStdin, lo_print, fo_print, lo_fprint, fo_fprint, lo_encode, fo_encode, lo_parseString, fo_parseString, lo_parseJSONString, fo_parseJSONString, lo_parseReader, fo_parseReader, lo_parseJSONReader, fo_parseJSONReader, lo_eval, fo_eval,
    lo_valueToShellString, fo_valueToShellString, lo_valueToJSON, fo_valueToJSON, lo_flagString, fo_flagString, lo_flagStrings, fo_flagStrings, lo_requireString, fo_requireString, lo_requireStrings, fo_requireStrings, fgFprint_builder, fgFprint_stdout, lkexec_skip, lkexec_seq, lkexec_set,
    lkexec_setField, lkexec_op, lkexec_callFn, lkexec_if, lkexec_cont, lkexec_brk, lkexec_ret, fgData_ok, fgData_error, fgErr_ok, fgErr_error, fgitems_vals, fgitems_strs,
    fgitems_results, fgParsed_ok, fgParsed_err, fgParsed_panic, fgEvaluated_ok, fgEvaluated_err, fgEvaluated_panic, fgText_ok, fgText_error, fgStrings_ok, fgStrings_error,
    reduceCtorEq, if_true, if_false, Bool.not_true, Bool.not_false, Bool.false_eq_true, eq_self, decide_true, decide_false, Bool.or_true, Bool.true_or, Bool.or_false, Bool.false_or,
    Bool.and_true, Bool.and_false, Bool.true_and, Bool.false_and, List.append_nil, List.nil_append, List.append_assoc, true_and, and_true, forall_const, $ts,*])


section
variable [Ext] {m : Memory} {n d : Nat}

theorem lkRun_succ (f : FgFn) (args : List FgV) (st : FgSt) (h : fgSetAll (fun _ => .nil) f.params args = some st) :
    fgRunBy (fittingOp m) n (d + 1) f args = f.body.execBy (fittingOp m) n (fgRunBy (fittingOp m) n d) st := by
  show (match fgSetAll (fun _ => .nil) f.params args with
    | some st => f.body.execBy (fittingOp m) n (fgRunBy (fittingOp m) n d) st
    | none => .ret .stuck) = _
  rw [h]

theorem lk_ExecuteScript (input script : Bytes) (h : FitsIn m input script (b! "shell")) :
    fgRunBy (fittingOp m) n (d + 1) .ExecuteScript [.str input, .str script] = fgRes (executeScript input script) := by
  have ht : m.text script = true := by have := h.1; rwa [if_neg (by decide)] at this
  have hr : ∀ p, parseString script = .ok p → m.run p (newBuffer input) = true := fun p hp => h.2 p (by rw [parseScript, if_neg (by decide)]; exact hp)
  rw [lkRun_succ _ _ _ rfl]
  simp only [FgFn.body, fgExecuteScript]
  lk [ht, fitting_true]
  rw [executeScript]
  cases hp : parseString script with
  | err e => lk []; rfl
  | panic => rfl
  | ok p =>
    simp only [executeParsed, evalOn]
    lk [hr p hp, fitting_true]
    rcases eval defaultEnv p (newBuffer input) with ⟨r, b⟩
    cases r <;> lk [fgRes]

theorem lk_IsValidFormat (format : Bytes) : fgRunBy (fittingOp m) n (d + 1) .IsValidFormat [.str format] = .ret (.ret [.bool (isValidFormat format)]) := by
  rw [lkRun_succ _ _ _ rfl]
  simp only [FgFn.body, fgIsValidFormat]
  lk []
  show _ = Proc.ret (FgOut.ret [.bool (decide (format = b! "shell") || decide (format = b! "sexp") || decide (format = b! "json"))])
  cases decide (format = b! "shell") <;> cases decide (format = b! "sexp") <;> cases decide (format = b! "json") <;> rfl

theorem lk_ExecuteScriptWithFormat (input script format : Bytes) (h : FitsIn m input script format) :
    fgRunBy (fittingOp m) n (d + 2) .ExecuteScriptWithFormat [.str input, .str script, .str format] = fgRes (executeScriptWithFormat input script format) := by
  rw [lkRun_succ _ _ _ rfl]
  simp only [FgFn.body, fgExecuteScriptWithFormat]
  lk [lk_IsValidFormat]
  rw [executeScriptWithFormat]
  cases hv : isValidFormat format with
  | false => lk [fgRes]
  | true =>
    lk []
    obtain ⟨h₁, h₂⟩ := h
    unfold parseScript at h₂
    rw [executeParsed.eq_def, parseScript]
    rcases valid_cases hv with hj | ⟨hj, ho⟩
    · rw [if_pos hj] at h₁
      simp only [if_pos hj] at h₂
      lk [hj, json_not_shell, json_not_sexp, h₁, fitting_true]
      cases hp : Res.ofExcept (parseJsonString script) with
      | err e => lk [fgRes]
      | panic => lk [fgRes]
      | ok p =>
        simp only [evalOn]
        lk [h₂ p hp, fitting_true]
        rcases eval defaultEnv p (newBuffer input) with ⟨r, b⟩
        cases r <;> lk [fgRes]
    · rw [if_neg hj] at h₁
      simp only [if_neg hj] at h₂
      lk [hj, ho, h₁, fitting_true]
      cases hp : parseString script with
      | err e => lk [fgRes]
      | panic => lk [fgRes]
      | ok p =>
        simp only [evalOn]
        lk [h₂ p hp, fitting_true]
        rcases eval defaultEnv p (newBuffer input) with ⟨r, b⟩
        cases r <;> lk [fgRes]

theorem lk_readFile (f : Bytes) : fgRunBy (fittingOp m) n (d + 1) .readFile [.str f] = .act (.read f) fun r => .ret (fgRead f r) := by
  rw [lkRun_succ _ _ _ rfl]
  simp only [FgFn.body, fgReadFile]
  lk []
  refine congrArg _ (funext fun r => ?_)
  cases r <;> lk [fgRead]

theorem lk_writeFile (f c : Bytes) : fgRunBy (fittingOp m) n (d + 1) .writeFile [.str f, .str c] = .act (.write f c) fun r => .ret (fgWrote f r) := by
  rw [lkRun_succ _ _ _ rfl]
  simp only [FgFn.body, fgWriteFile]
  lk []
  refine congrArg _ (funext fun r => ?_)
  cases r <;> lk [fgWrote]

end
end Texted
