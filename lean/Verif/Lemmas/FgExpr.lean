import Verif.Lemmas.FgWrite
/-
`-e` expressions: `evaluateExpressionsOnContent` and `runExpressions` of /repo/commands/edit.go.
-/
set_option linter.unusedSectionVars false
namespace Texted
variable [Ext] {n d : Nat}

theorem say_is_true (t : Bytes) (p : Proc α) : say true t p = .act (.print t) fun _ => p := rfl
theorem say_is_false (t : Bytes) (p : Proc α) : say false t p = p := rfl

/-- The results of `eval` that `evalExpressions` looks at. -/
def afterEval (a : EditArgs) (source : Bytes) (i : Nat) (rest : List Bytes) : Res ExecutionError Value × Buffer → Proc (Option Bytes)
  | (.panic, _) => .panic
  | (.err e, _) => say (!a.quiet) (b! "Error in expression " ++ natDec (i + 1) ++ b! ": " ++ e.message ++ [nl]) (.ret (some e.message))
  | (.ok v, b') =>
    if a.quiet then evalExpressions a source (i + 1) rest b'
    else
      match resultText a.outputFormat v with
      | .error e => .ret (some e)
      | .ok text => .act (.print (text ++ [nl])) fun _ => evalExpressions a source (i + 1) rest b'

/-- What parsing an expression leads to. -/
def afterParse (a : EditArgs) (source : Bytes) (i : Nat) (rest : List Bytes) (b : Buffer) : Res Bytes (List Value) → Proc (Option Bytes)
  | .panic => .panic
  | .err e => say (!a.quiet) (b! "Error parsing expression " ++ natDec (i + 1) ++ b! ": " ++ e ++ [nl]) (.ret (some (b! "parsing expression: " ++ e)))
  | .ok program => afterEval a source i rest (eval defaultEnv program b)

theorem evalExpressions_cons (a : EditArgs) (source : Bytes) (i : Nat) (e : Bytes) (rest : List Bytes) (b : Buffer) :
    evalExpressions a source i (e :: rest) b =
      say a.loud (b! "Evaluating expression " ++ natDec (i + 1) ++ b! " on " ++ source ++ b! ": " ++ e ++ [nl])
        (afterParse a source i rest b (parseScript a.format e)) := by
  rw [evalExpressions]
  refine congrArg _ ?_
  cases parseScript a.format e with
  | panic => rfl
  | err e => rfl
  | ok p =>
    simp only [afterParse]
    rcases eval defaultEnv p b with ⟨r, b'⟩
    cases r <;> rfl

/-- What the loop over the expressions knows. -/
structure ExprSt (a : EditArgs) (source : Bytes) (b : Buffer) (st : FgSt) : Prop where
  buffer : st .buffer = .buffer b
  env : st .env = .env
  format : st .args_scriptFormat = .str a.format
  output : st .args_outputFormat = .str a.outputFormat
  verbose : st .args_verbose = .bool a.verbose
  quiet : st .args_quiet = .bool a.quiet
  source : st .args_source = .str source

theorem sexp_not_shell : ((b! "sexp") = (b! "shell")) = False := by decide

set_option maxHeartbeats 4000000 in
theorem fg_evaluateExpressionsOnContent (a : EditArgs) (hv : isValidFormat a.format = true) (content source : Bytes) (es : List Bytes) :
    fgRun n (d + 3) .evaluateExpressionsOnContent [.strs es, .str a.format, .str a.outputFormat, .bool a.verbose, .bool a.quiet, .str content, .str source] =
      fgFails (evalExpressions a source 0 es (newBuffer content)) := by
  rw [fgRun_succ _ _ _ _ _ rfl]
  simp only [FgFn.body, fgEvaluateExpressionsOnContent]
  fg [fgexec_range]
  refine rel_eq (fgRange_rec (ExprSt a source) (fun k l b => fgFails (evalExpressions a source k l b)) (fun k b st h => ?_) (fun k e l b st rest h ih => ?_) es 0 (newBuffer content) _ ?_)
  · fg [fgFails, evalExpressions]
  · obtain ⟨h1, h2, h3, h4, h5, h6, h7⟩ := h
    have leaf : ∀ b' st', st' .buffer = .buffer b' ∧ st' .env = .env ∧ st' .args_scriptFormat = .str a.format ∧ st' .args_outputFormat = .str a.outputFormat ∧
        st' .args_verbose = .bool a.verbose ∧ st' .args_quiet = .bool a.quiet ∧ st' .args_source = .str source → ExprSt a source b' st' :=
      fun b' st' h => ⟨h.1, h.2.1, h.2.2.1, h.2.2.2.1, h.2.2.2.2.1, h.2.2.2.2.2.1, h.2.2.2.2.2.2⟩
    rw [evalExpressions_cons, fgFails]
    unfold fgFails at ih
    rcases valid_cases hv with hj | ⟨hj, ho⟩
    · cases hq : a.quiet <;> cases hl : a.verbose <;> rw [hq] at h6 <;> rw [hl] at h5
      all_goals
        simp only [parseScript]
        fg [h1, h2, h3, h4, h5, h6, h7, EditArgs.loud, hq, hl, say_is_true, say_is_false, nl_byte, json_not_shell, json_not_sexp, sexp_not_shell, intDec_succ, hj]
        try (intro r0)
        cases Res.ofExcept (parseJsonString e) with
        | panic => fg [afterParse]
        | err e' =>
          fg [afterParse, h1, h2, h3, h4, h5, h6, h7, EditArgs.loud, hq, hl, say_is_true, say_is_false, nl_byte, json_not_shell, json_not_sexp, sexp_not_shell, intDec_succ, hj]
          try (intro r1; fg [])
        | ok p =>
          fg [afterParse, h1, h2, h3, h4, h5, h6, h7, EditArgs.loud, hq, hl, say_is_true, say_is_false, nl_byte, json_not_shell, json_not_sexp, sexp_not_shell, intDec_succ, hj]
          rcases eval defaultEnv p b with ⟨r, b'⟩
          cases r with
          | panic => fg [afterEval]
          | err e' =>
            fg [afterEval, h1, h2, h3, h4, h5, h6, h7, EditArgs.loud, hq, hl, say_is_true, say_is_false, nl_byte, json_not_shell, json_not_sexp, sexp_not_shell, intDec_succ, hj]
            try (intro r1; fg [])
          | ok v =>
            fg [afterEval, h1, h2, h3, h4, h5, h6, h7, EditArgs.loud, hq, hl, say_is_true, say_is_false, nl_byte, json_not_shell, json_not_sexp, sexp_not_shell, intDec_succ, hj]
            first
              | exact ih b' _ (leaf _ _ (by fg [h1, h2, h3, h4, h5, h6, h7, EditArgs.loud, hq, hl, say_is_true, say_is_false, nl_byte, json_not_shell, json_not_sexp, sexp_not_shell, intDec_succ, hj]))
              | (by_cases f1 : a.outputFormat = b! "shell"
                 · fg [resultText, f1, fg_NewWriter_shell, fg_anyWriteValue_shell, h1, h2, h3, h4, h5, h6, h7, EditArgs.loud, hq, hl, say_is_true, say_is_false, nl_byte, json_not_shell, json_not_sexp, sexp_not_shell, intDec_succ, hj]
                   cases shellString (.list [v]) with
                   | error e' => fg []
                   | ok t => fg []; intro r2; exact ih b' _ (leaf _ _ (by fg [f1, h1, h2, h3, h4, h5, h6, h7, EditArgs.loud, hq, hl, say_is_true, say_is_false, nl_byte, json_not_shell, json_not_sexp, sexp_not_shell, intDec_succ, hj]))
                 · by_cases f2 : a.outputFormat = b! "sexp"
                   · fg [resultText, f2, fg_NewWriter_sexp, fg_anyWriteValue_sexp, h1, h2, h3, h4, h5, h6, h7, EditArgs.loud, hq, hl, say_is_true, say_is_false, nl_byte, json_not_shell, json_not_sexp, sexp_not_shell, intDec_succ, hj]
                     intro r2; exact ih b' _ (leaf _ _ (by fg [f2, h1, h2, h3, h4, h5, h6, h7, EditArgs.loud, hq, hl, say_is_true, say_is_false, nl_byte, json_not_shell, json_not_sexp, sexp_not_shell, intDec_succ, hj]))
                   · by_cases f3 : a.outputFormat = b! "json"
                     · fg [resultText, f3, fg_NewWriter_json, fg_anyWriteValue_json, h1, h2, h3, h4, h5, h6, h7, EditArgs.loud, hq, hl, say_is_true, say_is_false, nl_byte, json_not_shell, json_not_sexp, sexp_not_shell, intDec_succ, hj]
                       cases writeJsonValue v with
                       | none => fg []
                       | some t => fg []; intro r2; exact ih b' _ (leaf _ _ (by fg [f3, h1, h2, h3, h4, h5, h6, h7, EditArgs.loud, hq, hl, say_is_true, say_is_false, nl_byte, json_not_shell, json_not_sexp, sexp_not_shell, intDec_succ, hj]))
                     · fg [resultText, f1, f2, f3, h1, h2, h3, h4, h5, h6, h7, EditArgs.loud, hq, hl, say_is_true, say_is_false, nl_byte, json_not_shell, json_not_sexp, sexp_not_shell, intDec_succ, hj])
    · cases hq : a.quiet <;> cases hl : a.verbose <;> rw [hq] at h6 <;> rw [hl] at h5
      all_goals
        simp only [parseScript]
        fg [h1, h2, h3, h4, h5, h6, h7, EditArgs.loud, hq, hl, say_is_true, say_is_false, nl_byte, json_not_shell, json_not_sexp, sexp_not_shell, intDec_succ, hj, ho]
        try (intro r0)
        cases parseString e with
        | panic => fg [afterParse]
        | err e' =>
          fg [afterParse, h1, h2, h3, h4, h5, h6, h7, EditArgs.loud, hq, hl, say_is_true, say_is_false, nl_byte, json_not_shell, json_not_sexp, sexp_not_shell, intDec_succ, hj, ho]
          try (intro r1; fg [])
        | ok p =>
          fg [afterParse, h1, h2, h3, h4, h5, h6, h7, EditArgs.loud, hq, hl, say_is_true, say_is_false, nl_byte, json_not_shell, json_not_sexp, sexp_not_shell, intDec_succ, hj, ho]
          rcases eval defaultEnv p b with ⟨r, b'⟩
          cases r with
          | panic => fg [afterEval]
          | err e' =>
            fg [afterEval, h1, h2, h3, h4, h5, h6, h7, EditArgs.loud, hq, hl, say_is_true, say_is_false, nl_byte, json_not_shell, json_not_sexp, sexp_not_shell, intDec_succ, hj, ho]
            try (intro r1; fg [])
          | ok v =>
            fg [afterEval, h1, h2, h3, h4, h5, h6, h7, EditArgs.loud, hq, hl, say_is_true, say_is_false, nl_byte, json_not_shell, json_not_sexp, sexp_not_shell, intDec_succ, hj, ho]
            first
              | exact ih b' _ (leaf _ _ (by fg [h1, h2, h3, h4, h5, h6, h7, EditArgs.loud, hq, hl, say_is_true, say_is_false, nl_byte, json_not_shell, json_not_sexp, sexp_not_shell, intDec_succ, hj, ho]))
              | (by_cases f1 : a.outputFormat = b! "shell"
                 · fg [resultText, f1, fg_NewWriter_shell, fg_anyWriteValue_shell, h1, h2, h3, h4, h5, h6, h7, EditArgs.loud, hq, hl, say_is_true, say_is_false, nl_byte, json_not_shell, json_not_sexp, sexp_not_shell, intDec_succ, hj, ho]
                   cases shellString (.list [v]) with
                   | error e' => fg []
                   | ok t => fg []; intro r2; exact ih b' _ (leaf _ _ (by fg [f1, h1, h2, h3, h4, h5, h6, h7, EditArgs.loud, hq, hl, say_is_true, say_is_false, nl_byte, json_not_shell, json_not_sexp, sexp_not_shell, intDec_succ, hj, ho]))
                 · by_cases f2 : a.outputFormat = b! "sexp"
                   · fg [resultText, f2, fg_NewWriter_sexp, fg_anyWriteValue_sexp, h1, h2, h3, h4, h5, h6, h7, EditArgs.loud, hq, hl, say_is_true, say_is_false, nl_byte, json_not_shell, json_not_sexp, sexp_not_shell, intDec_succ, hj, ho]
                     intro r2; exact ih b' _ (leaf _ _ (by fg [f2, h1, h2, h3, h4, h5, h6, h7, EditArgs.loud, hq, hl, say_is_true, say_is_false, nl_byte, json_not_shell, json_not_sexp, sexp_not_shell, intDec_succ, hj, ho]))
                   · by_cases f3 : a.outputFormat = b! "json"
                     · fg [resultText, f3, fg_NewWriter_json, fg_anyWriteValue_json, h1, h2, h3, h4, h5, h6, h7, EditArgs.loud, hq, hl, say_is_true, say_is_false, nl_byte, json_not_shell, json_not_sexp, sexp_not_shell, intDec_succ, hj, ho]
                       cases writeJsonValue v with
                       | none => fg []
                       | some t => fg []; intro r2; exact ih b' _ (leaf _ _ (by fg [f3, h1, h2, h3, h4, h5, h6, h7, EditArgs.loud, hq, hl, say_is_true, say_is_false, nl_byte, json_not_shell, json_not_sexp, sexp_not_shell, intDec_succ, hj, ho]))
                     · fg [resultText, f1, f2, f3, h1, h2, h3, h4, h5, h6, h7, EditArgs.loud, hq, hl, say_is_true, say_is_false, nl_byte, json_not_shell, json_not_sexp, sexp_not_shell, intDec_succ, hj, ho])
  · constructor <;> fg []

/-- What reading a file leads to. -/
def afterRead (a : EditArgs) (many : Bool) (f : Bytes) (rest : List Bytes) : Except Bytes Bytes → Proc (Option Bytes)
  | .error e => say (!a.quiet) (b! "Error reading " ++ f ++ b! ": " ++ e ++ [nl]) (.ret (some (b! "reading " ++ f ++ b! ": " ++ e)))
  | .ok content => say (many && !a.quiet) (b! "=== " ++ f ++ b! " ===\n") <|
      (evalExpressions a f 0 a.expressions (newBuffer content)).bind fun e => match e with
        | some e => .ret (some e)
        | none => expressionsOnFiles a many rest

theorem expressionsOnFiles_cons (a : EditArgs) (many : Bool) (f : Bytes) (rest : List Bytes) :
    expressionsOnFiles a many (f :: rest) = .act (.read f) (afterRead a many f rest) := by
  rw [expressionsOnFiles]
  refine congrArg _ (funext fun r => ?_)
  cases r <;> rfl

/-- What the loop over the files knows. -/
structure ExprFilesSt (a : EditArgs) (st : FgSt) : Prop where
  files : st .args_files = .strs a.files
  expressions : st .args_expressions = .strs a.expressions
  format : st .args_scriptFormat = .str a.format
  output : st .args_outputFormat = .str a.outputFormat
  verbose : st .args_verbose = .bool a.verbose
  quiet : st .args_quiet = .bool a.quiet

theorem fg_runExpressions (a : EditArgs) (hv : isValidFormat a.format = true) :
    fgRun n (d + 4) .runExpressions [.strs a.expressions, .str a.format, .str a.outputFormat, .bool a.verbose, .bool a.quiet, .strs a.files] =
      fgFails (runExpressions a) := by
  rw [fgRun_succ _ _ _ _ _ rfl]
  simp only [FgFn.body, fgRunExpressions]
  cases hf : a.files with
  | nil =>
    fg [fgexec_range, show ((((([] : List Bytes).length : Nat) : Int)) = 0) = True from eq_true rfl, runExpressions, hf, List.isEmpty_nil, fgFails]
    refine congrArg _ (funext fun r => ?_)
    cases r with
    | error e => fg []
    | ok c => fg [fg_evaluateExpressionsOnContent a hv, fgFails]
  | cons f0 l0 =>
    have nz : ((((f0 :: l0).length : Nat) : Int) = 0) = False := by simp only [List.length_cons, eq_iff_iff, iff_false]; omega
    fg [fgexec_range, nz, runExpressions, List.isEmpty_cons, hf]
    refine rel_eq (fgRange_rec (fun (_ : Unit) => ExprFilesSt a) (fun k l _ => fgFails (expressionsOnFiles a (decide ((f0 :: l0).length > 1)) l)) (fun k b st h => ?_)
      (fun k f l b st rest h ih => ?_) (f0 :: l0) 0 () _ ?_)
    · fg [fgFails, expressionsOnFiles]
    · obtain ⟨h1, h2, h3, h4, h5, h6⟩ := h
      have leaf : ∀ st', st' .args_files = .strs a.files ∧ st' .args_expressions = .strs a.expressions ∧ st' .args_scriptFormat = .str a.format ∧
          st' .args_outputFormat = .str a.outputFormat ∧ st' .args_verbose = .bool a.verbose ∧ st' .args_quiet = .bool a.quiet → ExprFilesSt a st' :=
        fun st' h => ⟨h.1, h.2.1, h.2.2.1, h.2.2.2.1, h.2.2.2.2.1, h.2.2.2.2.2⟩
      have ih := fun st' h => ih () st' (leaf st' h)
      rw [fgFails] at ih ⊢
      rw [expressionsOnFiles_cons]
      rw [hf] at h1 leaf ih
      have gt : decide ((1 : Int) < ((f0 :: l0).length : Int)) = decide ((f0 :: l0).length > 1) := by
        simp only [decide_eq_decide]; omega
      have ev := fun c => @fg_evaluateExpressionsOnContent _ n d a hv c f a.expressions
      have q : a.quiet = true ∨ a.quiet = false := by cases a.quiet <;> simp
      fg [h1, h2, h3, h4, h5, h6]
      intro r
      cases r with
      | error e =>
        fg [h1, h2, h3, h4, h5, h6, afterRead]
        rcases q with q | q <;> fg [q, say_is_true, say_is_false, nl_byte]
      | ok c =>
        fg [h1, h2, h3, h4, h5, h6, afterRead, gt]
        rcases q with q | q <;> cases hm : decide ((f0 :: l0).length > 1) <;>
          fg [q, say_is_true, say_is_false, h1, h2, h3, h4, h5, h6] <;> (try intro r1) <;> simp only [q] at ev ih <;>
          fg [ev, fgFails] <;> refine rel_bind_same fun e => ?_ <;> cases e <;> fg [hm] <;>
          exact hm ▸ ih _ (by fg [h1, h2, h3, h4, h5, h6, q])
    · constructor <;> fg [hf]

end Texted
