import Verif.Lemmas.FgEdit
import Verif.Lemmas.FgExpr
/-
`runEdit` of /repo/commands/edit.go.
-/
set_option linter.unusedSectionVars false
namespace Texted
variable [Ext] {n d : Nat}

/-- The arguments of `runEdit`, field by field. -/
def EditArgs.fg (a : EditArgs) : List FgV :=
  [.cmd a.script a.expressions, .str a.scriptFormat, .str a.scriptFile, .bool a.inPlace, .str a.outputFile, .str a.backupSuffix, .bool a.verbose,
    .bool a.quiet, .bool a.dryRun, .bool a.shell, .bool a.sexp, .bool a.json, .str a.outputFormat, .strs a.files]

/-- What follows the first statement. -/
def FgS.rest : FgS → FgS
  | .seq _ b => b
  | s => s

/-- What `runEdit` knows behind the shorthand flags. -/
structure RunEditSt (a : EditArgs) (st : FgSt) : Prop where
  cmd : st .args_cmd = .cmd a.script a.expressions
  format : st .args_scriptFormat = .str a.format
  scriptFile : st .args_scriptFile = .str a.scriptFile
  inPlace : st .args_inPlace = .bool a.inPlace
  outputFile : st .args_outputFile = .str a.outputFile
  suffix : st .args_backupSuffix = .str a.backupSuffix
  verbose : st .args_verbose = .bool a.verbose
  quiet : st .args_quiet = .bool a.quiet
  dry : st .args_dryRun = .bool a.dryRun
  output : st .args_outputFormat = .str a.outputFormat
  files : st .args_files = .strs a.files

theorem fg_runEdit_rest (a : EditArgs) (st : FgSt) (h : RunEditSt a st) : fgRunEdit.rest.exec n (fgRun n (d + 4)) st = fgFails (runEdit a) := by
  obtain ⟨h1, h2, h3, h4, h5, h6, h7, h8, h9, h10, h11⟩ := h
  have hx := @fg_runExpressions _ n d a
  have hs := fun s => @fg_processStdin _ n (d + 1) a s
  have hp := fun s => @fg_processFiles _ n d a s
  rw [runEdit, fgRunEdit, FgS.rest]
  fg [h2, fg_IsValidFormat]
  cases hv : isValidFormat a.format with
  | false => fg [fgFails, if_true, Bool.not_false]
  | true =>
  have hx := hx hv
  have hL : decide ((1 : Int) < (a.files.length : Int)) = decide (a.files.length > 1) := by simp only [decide_eq_decide]; omega
  have hE : decide ((0 : Int) < (a.expressions.length : Int)) = decide (a.expressions.length > 0) := by simp only [decide_eq_decide]; omega
  have hF : decide ((a.files.length : Int) = 0) = a.files.isEmpty := by cases a.files <;> simp <;> omega
  fg [h1, h2, h3, h4, h5, h6, h7, h8, h9, h10, h11, hL]
  by_cases c1 : a.outputFile ≠ [] ∧ a.files.length > 1
  · fg [c1.1, c1.2, ne_eq, not_false_eq_true, fgFails, if_true]
  rw [if_neg c1]
  have c1' : (!decide (a.outputFile = []) && decide (a.files.length > 1)) = false := by
    rw [Bool.and_eq_false_iff]; simp only [Bool.not_eq_false', decide_eq_true_eq, decide_eq_false_iff_not]
    exact Decidable.or_iff_not_imp_left.2 fun h h' => c1 ⟨h, h'⟩
  fg [c1', h1, h2, h3, h4, h5, h6, h7, h8, h9, h10, h11]
  by_cases c2 : a.backupSuffix ≠ [] ∧ (!a.inPlace) = true
  · fg [c2.1, c2.2, ne_eq, not_false_eq_true, fgFails, if_true]
  rw [if_neg c2]
  have c2' : (!decide (a.backupSuffix = []) && !a.inPlace) = false := by
    cases hi : !a.inPlace <;> simp only [Bool.and_false, Bool.and_true]
    simp only [Bool.not_eq_false', decide_eq_true_eq]
    exact Decidable.byContradiction fun h => c2 ⟨h, hi⟩
  fg [c2', h1, h2, h3, h4, h5, h6, h7, h8, h9, h10, h11]
  by_cases c3 : a.outputFile ≠ [] ∧ a.inPlace = true
  · fg [c3.1, c3.2, ne_eq, not_false_eq_true, fgFails, if_true]
  rw [if_neg c3]
  have c3' : (!decide (a.outputFile = []) && a.inPlace) = false := by
    cases hi : a.inPlace <;> simp only [Bool.and_false, Bool.and_true]
    simp only [Bool.not_eq_false', decide_eq_true_eq]
    exact Decidable.byContradiction fun h => c3 ⟨h, hi⟩
  fg [c3', h1, h2, h3, h4, h5, h6, h7, h8, h9, h10, h11, hE]
  by_cases c4 : a.expressions.length > 0
  · fg [c4, hx, h1, h2, h3, h4, h5, h6, h7, h8, h9, h10, h11, fgFails]
  fg [c4, runScript, applyScript, h1, h2, h3, h4, h5, h6, h7, h8, h9, h10, h11]
  by_cases c5 : a.scriptFile = []
  · fg [c5, ne_eq, not_true_eq_false, h1, h2, h3, h4, h5, h6, h7, h8, h9, h10, h11]
    by_cases c6 : a.script = []
    · fg [c6, fgFails]
    · cases c7 : a.files.isEmpty <;> fg [c6, c7, hF, hs, hp, fgFails, h1, h2, h3, h4, h5, h6, h7, h8, h9, h10, h11]
  · fg [c5, ne_eq, not_false_eq_true, fgFails]
    refine congrArg _ (funext fun r => ?_)
    cases r with
    | error e => fg []
    | ok t => cases c7 : a.files.isEmpty <;> fg [c7, hF, hs, hp, fgFails, h1, h2, h3, h4, h5, h6, h7, h8, h9, h10, h11]

/-- The shorthand flags. -/
def FgS.first : FgS → FgS
  | .seq a _ => a
  | s => s

theorem fgRunEdit_split : fgRunEdit = .seq fgRunEdit.first fgRunEdit.rest := rfl

/-- The variables of `runEdit` at its start. -/
def editSt (a : EditArgs) : FgSt := fun x => match x with
  | .args_cmd => .cmd a.script a.expressions
  | .args_scriptFormat => .str a.scriptFormat
  | .args_scriptFile => .str a.scriptFile
  | .args_inPlace => .bool a.inPlace
  | .args_outputFile => .str a.outputFile
  | .args_backupSuffix => .str a.backupSuffix
  | .args_verbose => .bool a.verbose
  | .args_quiet => .bool a.quiet
  | .args_dryRun => .bool a.dryRun
  | .args_shell => .bool a.shell
  | .args_sexp => .bool a.sexp
  | .args_json => .bool a.json
  | .args_outputFormat => .str a.outputFormat
  | .args_files => .strs a.files
  | _ => .nil

theorem editSt_eq (a : EditArgs) : fgSetAll (fun _ => .nil) FgFn.runEdit.params a.fg = some (editSt a) := by
  simp only [FgFn.params, EditArgs.fg, fgSetAll_cons, fgSetAll_nil]
  refine congrArg _ (funext fun x => ?_)
  cases x <;> rfl

/-- The variables of `runEdit` behind the shorthand flags. -/
def editSt2 (a : EditArgs) : FgSt := fun x => if x = .args_scriptFormat then .str a.format else editSt a x

theorem fg_flags (a : EditArgs) (call : FgFn → List FgV → Proc FgOut) (K : FgSt → Proc FgOut) :
    (fgRunEdit.first.exec n call (editSt a)).bind (fun o => o.andThen K) = K (editSt2 a) := by
  have e1 : editSt a .args_shell = .bool a.shell := rfl
  have e2 : editSt a .args_sexp = .bool a.sexp := rfl
  have e3 : editSt a .args_json = .bool a.json := rfl
  simp only [fgRunEdit, FgS.first]
  cases ha : a.shell <;> cases hb : a.sexp <;> cases hc : a.json <;> rw [ha] at e1 <;> rw [hb] at e2 <;> rw [hc] at e3 <;> fg [e1, e2, e3] <;>
    refine congrArg K (funext fun x => ?_) <;> simp only [editSt2, fgSet, EditArgs.format, ha, hb, hc, if_true, if_false, Bool.false_eq_true]
  by_cases h : x = .args_scriptFormat
  · rw [if_pos h, h]; rfl
  · rw [if_neg h]

theorem fg_runEdit_2 (a : EditArgs) : fgRunEdit.rest.exec n (fgRun n (d + 4)) (editSt2 a) = fgFails (runEdit a) :=
  fg_runEdit_rest a (editSt2 a) ⟨rfl, rfl, rfl, rfl, rfl, rfl, rfl, rfl, rfl, rfl, rfl⟩

theorem fg_runEdit_1 (a : EditArgs) : fgRunEdit.exec n (fgRun n (d + 4)) (editSt a) = fgFails (runEdit a) := by
  rw [fgRunEdit_split, fgexec_seq, fg_flags, fg_runEdit_2]

theorem fg_runEdit (a : EditArgs) : fgRun n (d + 5) .runEdit a.fg = fgFails (runEdit a) :=
  (fgRun_succ n (d + 4) .runEdit a.fg (editSt a) (editSt_eq a)).trans (fg_runEdit_1 a)

end Texted
