import Verif.Lemmas.Fg
import Verif.Spec.Fg
/-
The writers: /repo/edlisp/writer. Their destination is a `strings.Builder` or standard output.
-/
set_option linter.unusedSectionVars false
namespace Texted
open Spec (printPieces sexpPieces shellPieces jsonPieces outPieces parseProc)
variable [Ext] {n d : Nat}

theorem fgEncode_builder (s : Bytes) (v : Value) : fgEncode (.builder s) (valueToJson v) = match writeJsonValue v with
    | some t => .ret (some [.nil, .builder (s ++ t)])
    | none => .ret (some [.err jsonUnsupported, .builder s]) := by
  simp only [fgEncode, writeJsonValue]
  cases jsonPrint (valueToJson v) <;> rfl

theorem fgEncode_stdout (v : Value) : fgEncode .stdout (valueToJson v) = match writeJsonValue v with
    | some t => .act (.print t) fun r => .ret (some [fgErr r, .stdout])
    | none => .ret (some [.err jsonUnsupported, .stdout]) := by
  simp only [fgEncode, writeJsonValue]
  cases jsonPrint (valueToJson v) <;> rfl

theorem fg_NewWriter_shell : fgRun n (d + 1) .NewWriter [.str (b! "shell")] = .ret (.ret [.writer .shell, .nil]) := by
  rw [fgRun_succ _ _ _ _ _ rfl]; simp only [FgFn.body, fgNewWriter]; fg []
theorem fg_NewWriter_sexp : fgRun n (d + 1) .NewWriter [.str (b! "sexp")] = .ret (.ret [.writer .sexp, .nil]) := by
  rw [fgRun_succ _ _ _ _ _ rfl]; simp only [FgFn.body, fgNewWriter]; fg [show ((b! "sexp") = (b! "shell")) = False by decide]
theorem fg_NewWriter_json : fgRun n (d + 1) .NewWriter [.str (b! "json")] = .ret (.ret [.writer .json, .nil]) := by
  rw [fgRun_succ _ _ _ _ _ rfl]; simp only [FgFn.body, fgNewWriter]; fg [json_not_shell, json_not_sexp]
theorem fg_NewWriter_other (f : Bytes) (h : isValidFormat f = false) :
    fgRun n (d + 1) .NewWriter [.str f] = .ret (.ret [.nil, .err (b! "unsupported format: " ++ f)]) := by
  simp only [isValidFormat, Bool.or_eq_false_iff, decide_eq_false_iff_not] at h
  rw [fgRun_succ _ _ _ _ _ rfl]; simp only [FgFn.body, fgNewWriter]; fg [h.1.1, h.1.2, h.2]

/-! ### Into a `strings.Builder` -/

theorem fg_sexpWriteValue (w : FgV) (s : Bytes) (v : Value) :
    fgRun n (d + 1) .sexpWriteValue [w, .builder s, .val v] = .ret (.ret [.nil, .builder (s ++ v.toStr)]) := by
  rw [fgRun_succ _ _ _ _ _ rfl]; simp only [FgFn.body, fgSexpWriteValue]; fg []

theorem fg_shellWriteValue (w : FgV) (s : Bytes) (v : Value) :
    fgRun n (d + 1) .shellWriteValue [w, .builder s, .val v] = .ret (.ret (match shellString v with
      | .ok t => [.nil, .builder (s ++ t)]
      | .error e => [.err e, .builder s])) := by
  rw [fgRun_succ _ _ _ _ _ rfl]; simp only [FgFn.body, fgShellWriteValue]; fg []
  cases shellString v <;> fg []

theorem fg_jsonWriteValue (w : FgV) (s : Bytes) (v : Value) :
    fgRun n (d + 1) .jsonWriteValue [w, .builder s, .val v] = .ret (.ret (match writeJsonValue v with
      | some t => [.nil, .builder (s ++ t)]
      | none => [.err jsonUnsupported, .builder s])) := by
  rw [fgRun_succ _ _ _ _ _ rfl]; simp only [FgFn.body, fgJsonWriteValue]; fg [fgEncode_builder]
  cases writeJsonValue v <;> fg []

theorem fg_anyWriteValue_shell (s : Bytes) (v : Value) :
    fgRun n (d + 2) .anyWriteValue [.writer .shell, .builder s, .val v] = .ret (.ret (match shellString v with
      | .ok t => [.nil, .builder (s ++ t)]
      | .error e => [.err e, .builder s])) := by
  rw [fgRun_succ _ _ _ _ _ rfl]; simp only [FgFn.body, fgAnyWriteValue]; fg [fg_shellWriteValue]
  cases shellString v <;> fg []

theorem fg_anyWriteValue_sexp (s : Bytes) (v : Value) :
    fgRun n (d + 2) .anyWriteValue [.writer .sexp, .builder s, .val v] = .ret (.ret [.nil, .builder (s ++ v.toStr)]) := by
  rw [fgRun_succ _ _ _ _ _ rfl]; simp only [FgFn.body, fgAnyWriteValue]; fg [fg_sexpWriteValue]

theorem fg_anyWriteValue_json (s : Bytes) (v : Value) :
    fgRun n (d + 2) .anyWriteValue [.writer .json, .builder s, .val v] = .ret (.ret (match writeJsonValue v with
      | some t => [.nil, .builder (s ++ t)]
      | none => [.err jsonUnsupported, .builder s])) := by
  rw [fgRun_succ _ _ _ _ _ rfl]; simp only [FgFn.body, fgAnyWriteValue]; fg [fg_jsonWriteValue]
  cases writeJsonValue v <;> fg []

/-- The results of a writer whose destination is a builder. -/
def fgBuilt (s : Bytes) (r : Written) : Proc FgOut := .ret (.ret [fgError r.err, .builder (s ++ r.out)])

theorem builtStep {p q q' : Proc FgOut} (e : q = q') (h : p.Rel Eq q) : p.Rel Eq q' := e ▸ h

theorem fg_sexpWrite (w : FgV) (s : Bytes) (l : List Value) : fgRun n (d + 2) .sexpWrite [w, .builder s, .vals l] = fgBuilt s (writeSexp l) := by
  rw [fgRun_succ _ _ _ _ _ rfl]
  simp only [FgFn.body, fgSexpWrite]
  fg [fgexec_range]
  refine rel_eq (fgRange_rec (fun s st => st .writer = .builder s) (fun _ l s => fgBuilt s (writeSexp l)) (fun k s st h => ?_) (fun k v l s st rest h ih => ?_) l 0 s _ ?_)
  · fg [h, fgBuilt, writeSexp]; simp
  · fg [h, fg_sexpWriteValue]
    refine builtStep ?_ (ih (s ++ (v.toStr ++ [nl])) _ ?_)
    · simp [fgBuilt, writeSexp]
    · fg [nl_byte]
  · fg []

theorem fg_shellWrite (w : FgV) (s : Bytes) (l : List Value) : fgRun n (d + 2) .shellWrite [w, .builder s, .vals l] = fgBuilt s (writeShell l) := by
  rw [fgRun_succ _ _ _ _ _ rfl]
  simp only [FgFn.body, fgShellWrite]
  fg [fgexec_range]
  refine rel_eq (fgRange_rec (fun s st => st .writer = .builder s) (fun _ l s => fgBuilt s (writeShell l)) (fun k s st h => ?_) (fun k v l s st rest h ih => ?_) l 0 s _ ?_)
  · fg [h, fgBuilt, writeShell]
  · fg [h, fg_shellWriteValue, writeShell]
    cases shellString v with
    | error e => fg [fgBuilt]
    | ok t =>
      fg []
      refine builtStep ?_ (ih (s ++ (t ++ [nl])) _ ?_)
      · simp [fgBuilt]
      · fg [nl_byte]
  · fg []

theorem fg_jsonWrite (w : FgV) (s : Bytes) (l : List Value) : fgRun n (d + 1) .jsonWrite [w, .builder s, .vals l] = fgBuilt s (writeJson l) := by
  rw [fgRun_succ _ _ _ _ _ rfl]
  simp only [FgFn.body, fgJsonWrite]
  fg [fgexec_range]
  refine rel_eq (fgRange_rec (fun s st => st .writer = .builder s) (fun _ l s => fgBuilt s (writeJson l)) (fun k s st h => ?_) (fun k v l s st rest h ih => ?_) l 0 s _ ?_)
  · fg [h, fgBuilt, writeJson]
  · fg [h, fgEncode_builder, writeJson]
    cases writeJsonValue v with
    | none => fg [fgBuilt]
    | some t =>
      fg []
      refine builtStep ?_ (ih (s ++ t) _ ?_)
      · simp [fgBuilt]
      · fg []
  · fg []

/-! ### To standard output -/

/-- The results of a writer whose destination is standard output. -/
def fgPrinted (p : List Bytes × Option Bytes) : Proc FgOut := (printPieces p.1 p.2).bind fun e => .ret (.ret [fgError e, .stdout])

theorem fgPrinted_nil (e : Option Bytes) : fgPrinted ([], e) = .ret (.ret [fgError e, .stdout]) := rfl
theorem fgPrinted_cons (t : Bytes) (ts : List Bytes) (e : Option Bytes) : fgPrinted (t :: ts, e) = .act (.print t) fun r => match r with
    | .ok _ => fgPrinted (ts, e)
    | .error e' => .ret (.ret [.err e', .stdout]) := by
  simp only [fgPrinted, printPieces, proc_act_bind]
  refine congrArg _ (funext fun r => ?_)
  cases r <;> rfl

theorem fg_sexpWriteValue_out (w : FgV) (v : Value) :
    fgRun n (d + 1) .sexpWriteValue [w, .stdout, .val v] = .act (.print v.toStr) fun r => .ret (.ret [fgErr r, .stdout]) := by
  rw [fgRun_succ _ _ _ _ _ rfl]; simp only [FgFn.body, fgSexpWriteValue]; fg []

theorem fg_shellWriteValue_out (w : FgV) (v : Value) :
    fgRun n (d + 1) .shellWriteValue [w, .stdout, .val v] = match shellString v with
      | .ok t => .act (.print t) fun r => .ret (.ret [fgErr r, .stdout])
      | .error e => .ret (.ret [.err e, .stdout]) := by
  rw [fgRun_succ _ _ _ _ _ rfl]; simp only [FgFn.body, fgShellWriteValue]; fg []
  cases shellString v <;> fg []

theorem fg_sexpWrite_out (w : FgV) (l : List Value) : fgRun n (d + 2) .sexpWrite [w, .stdout, .vals l] = fgPrinted (sexpPieces l) := by
  rw [fgRun_succ _ _ _ _ _ rfl]
  simp only [FgFn.body, fgSexpWrite]
  fg [fgexec_range]
  refine rel_eq (fgRange_rec (fun (_ : Unit) st => st .writer = .stdout) (fun _ l _ => fgPrinted (sexpPieces l)) (fun k s st h => ?_) (fun k v l s st rest h ih => ?_) l 0 () _ ?_)
  · fg [h, sexpPieces, fgPrinted_nil]
  · fg [h, fg_sexpWriteValue_out, sexpPieces, fgPrinted_cons]
    intro r; cases r <;> fg [nl_byte]
    intro r; cases r <;> fg []
    exact ih () _ (by fg [])
  · fg []

theorem fg_shellWrite_out (w : FgV) (l : List Value) : fgRun n (d + 2) .shellWrite [w, .stdout, .vals l] = fgPrinted (shellPieces l) := by
  rw [fgRun_succ _ _ _ _ _ rfl]
  simp only [FgFn.body, fgShellWrite]
  fg [fgexec_range]
  refine rel_eq (fgRange_rec (fun (_ : Unit) st => st .writer = .stdout) (fun _ l _ => fgPrinted (shellPieces l)) (fun k s st h => ?_) (fun k v l s st rest h ih => ?_) l 0 () _ ?_)
  · fg [h, shellPieces, fgPrinted_nil]
  · fg [h, fg_shellWriteValue_out, shellPieces]
    cases shellString v with
    | error e => fg [fgPrinted_nil]
    | ok t =>
      fg [fgPrinted_cons]
      intro r; cases r <;> fg [nl_byte]
      intro r; cases r <;> fg []
      exact ih () _ (by fg [])
  · fg []

theorem fg_jsonWrite_out (w : FgV) (l : List Value) : fgRun n (d + 1) .jsonWrite [w, .stdout, .vals l] = fgPrinted (jsonPieces l) := by
  rw [fgRun_succ _ _ _ _ _ rfl]
  simp only [FgFn.body, fgJsonWrite]
  fg [fgexec_range]
  refine rel_eq (fgRange_rec (fun (_ : Unit) st => st .writer = .stdout) (fun _ l _ => fgPrinted (jsonPieces l)) (fun k s st h => ?_) (fun k v l s st rest h ih => ?_) l 0 () _ ?_)
  · fg [h, jsonPieces, fgPrinted_nil]
  · fg [h, fgEncode_stdout, jsonPieces]
    cases writeJsonValue v with
    | none => fg [fgPrinted_nil]
    | some t =>
      fg [fgPrinted_cons]
      intro r; cases r <;> fg []
      exact ih () _ (by fg [])
  · fg []

end Texted
