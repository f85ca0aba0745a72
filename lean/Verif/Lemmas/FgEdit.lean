import Verif.Lemmas.FgInPlace
/-
The other functions of /repo/commands/edit.go.
-/
set_option linter.unusedSectionVars false
namespace Texted
variable [Ext] {n d : Nat}

theorem fg_processSingleFileToStdout (a : EditArgs) (script f : Bytes) :
    fgRun n (d + 3) .processSingleFileToStdout [.str f, .str script, .str a.format, .bool a.verbose, .bool a.quiet, .bool a.dryRun] =
      fgFails (processSingle a script f (b! "stdout") .print) := by
  rw [fgRun_succ _ _ _ _ _ rfl]
  simp only [FgFn.body, fgProcessSingleFileToStdout]
  refine rel_eq ?_
  cases hq : a.quiet <;> cases hv : a.verbose <;> cases hd : a.dryRun <;>
    fg [processSingle, EditArgs.loud, hq, hv, hd, say_true, say_false, nl_byte, fgFails, List.cons_append]
  all_goals repeat' first
    | (intro r; cases r <;> fg [fg_ExecuteScriptWithFormat, hq, say_true, say_false, nl_byte, returnErr, List.cons_append])
    | (generalize executeScriptWithFormat _ _ _ = r; cases r <;> fg [fgRes, List.cons_append])

theorem fg_processSingleFileToOutput (a : EditArgs) (script f : Bytes) :
    fgRun n (d + 3) .processSingleFileToOutput [.str f, .str script, .str a.format, .str a.outputFile, .bool a.verbose, .bool a.quiet, .bool a.dryRun] =
      fgFails (processSingle a script f a.outputFile (.write a.outputFile)) := by
  rw [fgRun_succ _ _ _ _ _ rfl]
  simp only [FgFn.body, fgProcessSingleFileToOutput]
  refine rel_eq ?_
  cases hq : a.quiet <;> cases hv : a.verbose <;> cases hd : a.dryRun <;>
    fg [processSingle, EditArgs.loud, hq, hv, hd, say_true, say_false, nl_byte, fgFails]
  all_goals repeat' first
    | (intro r; cases r <;> fg [fg_ExecuteScriptWithFormat, hq, say_true, say_false, nl_byte, returnErr])
    | (generalize executeScriptWithFormat _ _ _ = r; cases r <;> fg [fgRes])

theorem fg_processStdin (a : EditArgs) (script : Bytes) :
    fgRun n (d + 3) .processStdin [.str script, .str a.format, .str a.outputFile, .bool a.verbose, .bool a.quiet, .bool a.dryRun] =
      fgFails (processStdin a script) := by
  rw [fgRun_succ _ _ _ _ _ rfl]
  simp only [FgFn.body, fgProcessStdin]
  refine rel_eq ?_
  cases hq : a.quiet <;> cases hv : a.verbose <;> cases hd : a.dryRun <;> by_cases ho : a.outputFile = [] <;>
    fg [processStdin, EditArgs.loud, hq, hv, hd, ho, say_true, say_false, nl_byte, fgFails, fgDec_ofNat]
  all_goals repeat' first
    | (intro r; cases r <;> fg [fg_ExecuteScriptWithFormat, hq, hd, ho, say_true, say_false, nl_byte, returnErr, fgDec_ofNat])
    | (generalize executeScriptWithFormat _ _ _ = r; cases r <;> fg [fgRes, ho, ne_eq, not_true_eq_false, not_false_eq_true, returnErr, say_true, say_false, nl_byte])

theorem fg_processFiles (a : EditArgs) (script : Bytes) :
    fgRun n (d + 4) .processFiles [.strs a.files, .str script, .str a.format, .bool a.inPlace, .str a.outputFile, .str a.backupSuffix, .bool a.verbose, .bool a.quiet, .bool a.dryRun] =
      fgFails (processFiles a script) := by
  rw [fgRun_succ _ _ _ _ _ rfl]
  simp only [FgFn.body, fgProcessFiles]
  have one : ∀ f g : Bytes, ∀ l : List Bytes, (((f :: g :: l).length : Int) = 1) = False := fun f g l => by
    simp only [List.length_cons, eq_iff_iff, iff_false]; omega
  have z : (((([] : List Bytes).length : Nat) : Int) = 1) = False := by decide
  have s : ∀ f : Bytes, ((([f] : List Bytes).length : Int) = 1) = True := fun f => by simp
  have at0 : ∀ (f : Bytes) (l : List Bytes), goAt (f :: l) 0 = some f := fun f l => rfl
  have hb := @fg_processFilesInPlace _ n d a script
  rcases hf : a.files with _ | ⟨f, _ | ⟨g, l⟩⟩ <;> rw [hf] at hb <;> cases hp : a.inPlace <;> by_cases ho : a.outputFile = [] <;>
    fg [processFiles, hf, hp, ho, one, z, s, at0, hb, fg_processSingleFileToStdout, fg_processSingleFileToOutput, fgFails, ne_eq, not_true_eq_false, not_false_eq_true]

end Texted
