import Verif.Lemmas.FgWrite
/-
`processFilesInPlace` of /repo/commands/edit.go.
-/
set_option linter.unusedSectionVars false
namespace Texted
variable [Ext] {n d : Nat}

theorem say_true (t : Bytes) (p : Proc α) : say true t p = .act (.print t) fun _ => p := rfl
theorem say_false (t : Bytes) (p : Proc α) : say false t p = p := rfl

theorem inPlaceLoop_fold (a : EditArgs) (script : Bytes) : ∀ l, inPlaceLoop a script l =
    (l.foldr (fun f p => (inPlaceOne a script f).bind fun b => p.bind fun bs => .ret (b :: bs)) (.ret [])).bind fun bs => .ret (bs.any id)
  | [] => rfl
  | f :: l => by
    rw [inPlaceLoop, inPlaceLoop_fold a script l, List.foldr_cons, proc_bind_assoc]
    refine congrArg _ (funext fun b => ?_)
    rw [proc_bind_assoc, proc_bind_assoc]
    refine congrArg _ (funext fun bs => ?_)
    rfl

/-- What the loop of `processFilesInPlace` knows. -/
structure InPlaceSt (a : EditArgs) (script : Bytes) (acc : List Bool) (st : FgSt) : Prop where
  errors : st .hasErrors = .bool (acc.any id)
  script : st .args_script = .str script
  format : st .args_scriptFormat = .str a.format
  suffix : st .args_backupSuffix = .str a.backupSuffix
  verbose : st .args_verbose = .bool a.verbose
  quiet : st .args_quiet = .bool a.quiet
  dry : st .args_dryRun = .bool a.dryRun


set_option maxHeartbeats 4000000 in
theorem fg_processFilesInPlace (a : EditArgs) (script : Bytes) :
    fgRun n (d + 3) .processFilesInPlace [.strs a.files, .str script, .str a.format, .str a.backupSuffix, .bool a.verbose, .bool a.quiet, .bool a.dryRun] =
      fgFails (processFilesInPlace a script) := by
  rw [fgRun_succ _ _ _ _ _ rfl]
  simp only [FgFn.body, fgProcessFilesInPlace]
  fg [fgexec_range]
  rw [processFilesInPlace, inPlaceLoop_fold, fgFails, proc_bind_assoc, proc_bind_assoc]
  refine rel_eq (rel_bind (fgRange_fold (I := InPlaceSt a script) (fun k f acc st hi => ?_) a.files 0 [] _ ?_) fun o rs h => ?_)
  · obtain ⟨h1, h2, h3, h4, h5, h6, h7⟩ := hi
    have leaf : ∀ (b : Bool) (st' : FgSt), (st' .hasErrors = .bool (acc.any id || b) ∧ st' .args_script = .str script ∧ st' .args_scriptFormat = .str a.format ∧
      st' .args_backupSuffix = .str a.backupSuffix ∧ st' .args_verbose = .bool a.verbose ∧ st' .args_quiet = .bool a.quiet ∧ st' .args_dryRun = .bool a.dryRun) →
      InPlaceSt a script (acc ++ [b]) st' := fun b st' h => ⟨by rw [h.1]; simp, h.2.1, h.2.2.1, h.2.2.2.1, h.2.2.2.2.1, h.2.2.2.2.2.1, h.2.2.2.2.2.2⟩
    cases hq : a.quiet <;> cases hv : a.verbose <;> cases hd : a.dryRun <;> by_cases hs : a.backupSuffix = [] <;>
      rw [hq] at h6 <;> rw [hv] at h5 <;> rw [hd] at h7 <;>
      fg [h1, h2, h3, h4, h5, h6, h7, inPlaceOne, EditArgs.loud, hq, hv, hd, hs, say_true, say_false, nl_byte, inPlaceEdit, ne_eq, not_true_eq_false, not_false_eq_true]
    all_goals repeat' first
      | (intro r; cases r <;> fg [h1, h2, h3, h4, h5, h6, h7, fg_ExecuteScriptWithFormat, complain, hq, say_true, say_false, nl_byte])
      | exact ⟨_, .inl rfl, leaf _ _ (by fg [h1, h2, h3, h4, h5, h6, h7, hq, hv, hd, hs])⟩
      | exact ⟨_, .inr rfl, leaf _ _ (by fg [h1, h2, h3, h4, h5, h6, h7, hq, hv, hd, hs])⟩
      | (generalize executeScriptWithFormat _ _ _ = r; cases r <;> fg [fgRes, h1, h2, h3, h4, h5, h6, h7, complain, hq, say_true, say_false, nl_byte])
  · constructor <;> fg [] <;> rfl
  · obtain ⟨st, rfl, hi⟩ := h
    fg [hi.errors]
    cases rs.any id <;> fg []
end Texted
