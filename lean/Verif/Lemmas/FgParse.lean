import Verif.Lemmas.FgWrite
/-
`texted parse`: /repo/commands/parse.go.
-/
set_option linter.unusedSectionVars false
namespace Texted
open Spec (printPieces sexpPieces shellPieces jsonPieces outPieces parseProc)
variable [Ext] {n d : Nat}

theorem fg_anyWrite_shell (l : List Value) : fgRun n (d + 3) .anyWrite [.writer .shell, .stdout, .vals l] = fgPrinted (shellPieces l) := by
  rw [fgRun_succ _ _ _ _ _ rfl]; simp only [FgFn.body, fgAnyWrite]; fg [fg_shellWrite_out, fgPrinted]
theorem fg_anyWrite_sexp (l : List Value) : fgRun n (d + 3) .anyWrite [.writer .sexp, .stdout, .vals l] = fgPrinted (sexpPieces l) := by
  rw [fgRun_succ _ _ _ _ _ rfl]; simp only [FgFn.body, fgAnyWrite]; fg [fg_sexpWrite_out, fgPrinted]
theorem fg_anyWrite_json (l : List Value) : fgRun n (d + 3) .anyWrite [.writer .json, .stdout, .vals l] = fgPrinted (jsonPieces l) := by
  rw [fgRun_succ _ _ _ _ _ rfl]; simp only [FgFn.body, fgAnyWrite]; fg [fg_jsonWrite_out, fgPrinted]

theorem valid_three {f : Bytes} (h : isValidFormat f = true) : f = b! "shell" ∨ f = b! "sexp" ∨ f = b! "json" := by
  simp only [isValidFormat, Bool.or_eq_true, decide_eq_true_eq] at h
  rcases h with (h | h) | h
  · exact .inl h
  · exact .inr (.inl h)
  · exact .inr (.inr h)

theorem sexp_isnt_shell : ((b! "sexp") = (b! "shell")) = False := by decide

theorem fg_writeOutput (f : Bytes) (hf : isValidFormat f = true) (l : List Value) :
    fgRun n (d + 4) .writeOutput [.stdout, .vals l, .str f] = fgPrinted (outPieces f l) := by
  rw [fgRun_succ _ _ _ _ _ rfl]; simp only [FgFn.body, fgWriteOutput]
  rcases valid_three hf with rfl | rfl | rfl
  · fg [fg_NewWriter_shell, fg_anyWrite_shell, outPieces, fgPrinted]
  · fg [fg_NewWriter_sexp, fg_anyWrite_sexp, outPieces, fgPrinted, sexp_isnt_shell]
  · fg [fg_NewWriter_json, fg_anyWrite_json, outPieces, fgPrinted, json_not_sexp, json_not_shell]

/-- What `parseInput` makes of standard input. -/
def parsedInput (f : Bytes) : Except Bytes Bytes → Res Bytes (List Value)
  | .error e => .err e
  | .ok s => parseInput s f

/-- The results of a parser. -/
def fgProgram : Res Bytes (List Value) → Proc FgOut
  | .ok p => .ret (.ret [.vals p, .nil])
  | .err e => .ret (.ret [.vals [], .err e])
  | .panic => .panic

theorem fg_parseInput (f : Bytes) (hf : isValidFormat f = true) :
    fgRun n (d + 1) .parseInput [.stdin, .str f] = .act .stdin fun r => fgProgram (parsedInput f r) := by
  rw [fgRun_succ _ _ _ _ _ rfl]; simp only [FgFn.body, fgParseInput]
  rcases valid_three hf with rfl | rfl | rfl
  · fg []
    refine congrArg _ (funext fun r => ?_)
    cases r with
    | error e => rfl
    | ok s =>
      simp only [parsedInput, parseInput, fgParsedFrom]
      fg []
      cases parseString s <;> fg [fgProgram]
  · fg [sexp_isnt_shell]
    refine congrArg _ (funext fun r => ?_)
    cases r with
    | error e => rfl
    | ok s =>
      simp only [parsedInput, parseInput, fgParsedFrom]
      fg [sexp_isnt_shell]
      cases parseString s <;> fg [fgProgram]
  · fg [json_not_sexp, json_not_shell]
    refine congrArg _ (funext fun r => ?_)
    cases r with
    | error e => rfl
    | ok s =>
      simp only [parsedInput, parseInput, fgParsedFrom]
      fg [json_not_sexp, json_not_shell]
      cases Res.ofExcept (parseJsonReader s) <;> fg [fgProgram]

theorem fg_runParse (i o : Bytes) : fgRun n (d + 5) .runParse [.str i, .str o] = fgFails (parseProc i o) := by
  rw [fgRun_succ _ _ _ _ _ rfl]; simp only [FgFn.body, fgRunParse]
  rw [parseProc, fgFails]
  fg [fg_isValidFormat2]
  cases hi : isValidFormat i with
  | false => fg []
  | true =>
    cases ho : isValidFormat o with
    | false => fg [fg_isValidFormat2, ho]
    | true =>
      fg [fg_isValidFormat2, ho, fg_parseInput i hi]
      refine congrArg _ (funext fun r => ?_)
      cases r with
      | error e => fg [parsedInput, fgProgram]
      | ok s =>
        fg [parsedInput]
        cases parseInput s i with
        | err e => fg [fgProgram]
        | panic => fg [fgProgram]
        | ok p => fg [fgProgram, fg_writeOutput o ho, fgPrinted]

/-! What is printed all in all. -/

/-- The bytes and the error of the writers. -/
theorem pieces_written (f : Bytes) (hf : isValidFormat f = true) (l : List Value) :
    writeOutput l f = { out := (outPieces f l).1.flatten, err := (outPieces f l).2 } := by
  have sx : ∀ l, writeSexp l = { out := (sexpPieces l).1.flatten, err := (sexpPieces l).2 } := fun l => by
    induction l with
    | nil => rfl
    | cons v l ih =>
      rw [writeSexp, Written.mk.injEq] at ih
      simp only [writeSexp, sexpPieces, List.flatMap_cons, List.flatten_cons, Written.mk.injEq, List.append_assoc]
      exact ⟨by rw [ih.1], ih.2⟩
  have sh : ∀ l, writeShell l = { out := (shellPieces l).1.flatten, err := (shellPieces l).2 } := fun l => by
    induction l with
    | nil => rfl
    | cons v l ih =>
      rw [writeShell, shellPieces]
      cases shellString v with
      | error e => rfl
      | ok t => dsimp only; rw [ih]; simp
  have js : ∀ l, writeJson l = { out := (jsonPieces l).1.flatten, err := (jsonPieces l).2 } := fun l => by
    induction l with
    | nil => rfl
    | cons v l ih =>
      rw [writeJson, jsonPieces]
      cases writeJsonValue v with
      | none => rfl
      | some t => dsimp only; rw [ih]; simp
  rcases valid_three hf with rfl | rfl | rfl
  · exact sh l
  · exact sx l
  · exact js l

theorem runOk_pieces (m : Bytes → Bytes) (e : Option Bytes) : ∀ (ts : List Bytes) (w : World),
    runOk m (printPieces ts e) w = (some e, { w with out := w.out ++ ts.flatten })
  | [], w => by simp [printPieces, runOk]
  | t :: ts, w => by
    rw [printPieces, runOk]
    dsimp only
    rw [runOk_pieces m e ts]
    simp

/-- `texted parse`, when no action fails: what the model of the command says. -/
theorem runOk_parseProc (m : Bytes → Bytes) (i o : Bytes) (w : World) : match runParse i o w.input with
    | none => (runOk m (parseProc i o) w).1 = none ∧ (runOk m (parseProc i o) w).2.out = w.out
    | some r => (runOk m (parseProc i o) w).1 = some r.err ∧ (runOk m (parseProc i o) w).2.out = w.out ++ r.out := by
  rw [runParse, parseProc]
  cases hi : isValidFormat i with
  | false => simp [runOk]
  | true =>
    cases ho : isValidFormat o with
    | false => simp [runOk]
    | true =>
      simp only [Bool.not_true, Bool.false_eq_true, if_false, runOk]
      cases parseInput w.input i with
      | err e => simp [runOk]
      | panic => simp [runOk]
      | ok p =>
        simp only [runOk_pieces, pieces_written o ho]
        exact ⟨trivial, trivial⟩

end Texted
