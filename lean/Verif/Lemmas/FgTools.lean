import Verif.Lemmas.FgWrite
import Verif.Model.Mcp
/-
The tools: /repo/tools/edit_file.go, /repo/tools/texted_eval.go.
-/
set_option linter.unusedSectionVars false
namespace Texted
variable [Ext] {n d : Nat}

/-- `for { … }` against a program that counts its rounds. -/
theorem fgForever_rec {σ : Type} {body : FgSt → Proc FgOut} {fin : FgOut → Proc FgOut} (J : σ → FgSt → Prop) (model : Nat → σ → Proc FgOut)
    (hzero : ∀ s, (fin .spin).Rel Eq (model 0 s))
    (hsucc : ∀ k s st (rest : FgSt → Proc FgOut), J s st → (∀ s' st', J s' st' → ((rest st').bind fin).Rel Eq (model k s')) →
      ((body st).bind fun o => (o.round rest).bind fin).Rel Eq (model (k + 1) s)) :
    ∀ (k : Nat) (s : σ) (st : FgSt), J s st → ((fgForever body k st).bind fin).Rel Eq (model k s)
  | 0, s, _, _ => hzero s
  | k + 1, s, st, h => by
    have := hsucc k s st (fgForever body k) h fun s' st' h' => fgForever_rec J model hzero hsucc k s' st' h'
    rw [← proc_bind_assoc] at this
    exact this

theorem proc_bind_ret {α : Type} (p : Proc α) : p.bind .ret = p := by
  induction p with
  | ret a => rfl
  | panic => rfl
  | act a k ih => exact congrArg _ (funext fun r => ih r)

/-- The results of `editFilesWithLoop`. -/
def fgLooped : Option (List EditResult × Nat) → Proc FgOut
  | none => .ret .spin
  | some (rs, k) => .ret (.ret [.results (rs.map fgResult), .int k, .nil])

/-- What the loop knows, `k` rounds done. -/
structure LoopSt (files : List Bytes) (script : Bytes) (k : Nat) (st : FgSt) : Prop where
  iterations : st .iterations = .int k
  files : st .files = .strs files
  script : st .script = .str script

theorem fg_editFilesWithLoop (files : List Bytes) (script : Bytes) : fgRun n (d + 4) .editFilesWithLoop [.strs files, .str script] =
    (editFilesWithLoop files script n 0).bind fgLooped := by
  rw [fgRun_succ _ _ _ _ _ rfl, ← proc_bind_ret (FgS.exec _ _ _ _)]
  simp only [FgFn.body, fgEditFilesWithLoop]
  fg [fgexec_forever, fgexec_range]
  refine rel_eq (fgForever_rec (LoopSt files script) (fun m k => (editFilesWithLoop files script m k).bind fgLooped) (fun k => ?_) (fun m k st rest h ih => ?_) n 0 _ ?_)
  · exact rfl
  · obtain ⟨h1, h2, h3⟩ := h
    rw [editFilesWithLoop]
    fg [h1, h2, h3, fg_EditFiles]
    refine rel_bind_same fun rs => ?_
    fg [List.map_map]
    refine fgRange_rec (enc := FgV.result ∘ fgResult) (fun (_ : Unit) st => st .hasError = .bool false ∧ st .results = .results (rs.map fgResult) ∧ st .iterations = .int (k + 1) ∧ st .files = .strs files ∧ st .script = .str script)
      (fun _ l _ => ((if (l.any fun r => !r.success) = true then .ret (some (rs, k + 1)) else editFilesWithLoop files script m (k + 1)).bind fgLooped))
      (fun _ _ st h => ?_) (fun _ r l _ st rest h ih2 => ?_) rs 0 () _ ?_
    · obtain ⟨g1, g2, g3, g4, g5⟩ := h
      fg [g1, g2, g3, g4, g5, List.any_nil]
      exact ih (k + 1) _ ⟨by fg [g3]; rfl, by fg [g4], by fg [g5]⟩
    · obtain ⟨g1, g2, g3, g4, g5⟩ := h
      cases hs : r.success with
      | true =>
        fg [Function.comp, fgResult, hs, List.any_cons]
        exact ih2 () _ ⟨by fg [g1], by fg [g2], by fg [g3], by fg [g4], by fg [g5]⟩
      | false =>
        fg [Function.comp, fgResult, hs, List.any_cons, g1, g2, g3, fgLooped]
        rfl
    · refine ⟨by fg [], by fg [], by fg [], by fg [h2], by fg [h3]⟩
  · constructor <;> fg [] <;> rfl

/-- The messages about the edited files. -/
def editedMsgs (rs : List EditResult) : List Bytes := (rs.filter (·.success)).map fun r => b! "Successfully edited " ++ r.filename

/-- The messages about the other files. -/
def failedMsgs : List EditResult → List Bytes
  | [] => []
  | r :: rs => match r.error with
    | none => failedMsgs rs
    | some e => (b! "Failed to edit " ++ (r.filename ++ (b! ": " ++ e))) :: failedMsgs rs

/-- The line about an edited file. -/
def okLine (r : EditResult) : Bytes := match r.error with
  | none => successLine r.filename
  | some _ => []

/-- The line about another file. -/
def badLine (r : EditResult) : Bytes := match r.error with
  | none => []
  | some e => failureLine r.filename e

theorem ok_lines : ∀ rs : List EditResult, rs.flatMap okLine = (editedMsgs rs).flatMap (fun m => b! "✓ " ++ (m ++ [nl]))
  | [] => rfl
  | ⟨f, none⟩ :: rs => by rw [List.flatMap_cons, ok_lines rs]; simp [editedMsgs, EditResult.success, successLine, okLine]
  | ⟨f, some e⟩ :: rs => by rw [List.flatMap_cons, ok_lines rs]; simp [editedMsgs, EditResult.success, okLine]

theorem bad_lines : ∀ rs : List EditResult, rs.flatMap badLine = (failedMsgs rs).flatMap (fun m => b! "✗ " ++ (m ++ [nl]))
  | [] => rfl
  | ⟨f, none⟩ :: rs => by rw [List.flatMap_cons, bad_lines rs]; simp [failedMsgs, badLine]
  | ⟨f, some e⟩ :: rs => by rw [List.flatMap_cons, bad_lines rs]; simp [failedMsgs, badLine, failureLine]

theorem report_lines (rs : List EditResult) : reportLines rs =
    (editedMsgs rs).flatMap (fun m => b! "✓ " ++ (m ++ [nl])) ++ (failedMsgs rs).flatMap fun m => b! "✗ " ++ (m ++ [nl]) := by
  rw [← ok_lines, ← bad_lines]; rfl

theorem failedMsgs_any (rs : List EditResult) : (rs.any fun r => !r.success) = decide ((failedMsgs rs).length > 0) := by
  induction rs with
  | nil => rfl
  | cons r rs ih =>
    rcases r with ⟨f, _ | e⟩
    · rw [List.any_cons, ih]; simp [failedMsgs, EditResult.success]
    · simp [failedMsgs, EditResult.success]

/-- The lines about messages. -/
def okLines (l : List Bytes) : Bytes := l.flatMap fun m => b! "✓ " ++ (m ++ [nl])
def badLines (l : List Bytes) : Bytes := l.flatMap fun m => b! "✗ " ++ (m ++ [nl])

/-- The report for the messages about the files. -/
def reportText (ok bad : List Bytes) (k : Nat) : Bytes :=
  if bad.length > 0 then b! "Completed with errors after " ++ (natDec k ++ (b! " iterations:\n" ++ (okLines ok ++ badLines bad)))
  else b! "All files edited successfully after " ++ (natDec k ++ (b! " iterations:\n" ++ okLines ok))

theorem editReport_text (rs : List EditResult) (k : Nat) : editReport rs k = reportText (editedMsgs rs) (failedMsgs rs) k := by
  rw [editReport, reportText, failedMsgs_any, report_lines]
  by_cases h : (failedMsgs rs).length > 0
  · rw [if_pos (decide_eq_true h), if_pos h]; simp only [okLines, badLines, List.append_assoc]
  · rw [if_neg (by rw [decide_eq_true_eq]; exact h), if_neg h]
    have : failedMsgs rs = [] := by cases hf : failedMsgs rs with
      | nil => rfl
      | cons a l => exact absurd (by rw [hf]; exact Nat.succ_pos _) h
    rw [this]; simp only [okLines, List.append_assoc, List.flatMap_nil, List.append_nil]

/-- The results of a tool. -/
def fgTool : Option ToolResult → Proc FgOut
  | none => .ret .spin
  | some r => .ret (.ret [.tool r, .nil])

/-- What `EditFileHandler` knows behind the edits: `b` tells whether an error of editing was reported (it never is). -/
structure ReportSt (rs : List EditResult) (k : Nat) (st : FgSt) : Prop where
  results : st .editResults = .results (rs.map fgResult)
  iterations : st .iterations = .int k
  err : st .editErr = .nil

/-- The statements behind the first `k`. -/
def FgS.behind : Nat → FgS → FgS
  | 0, s => s
  | k + 1, .seq _ b => b.behind k
  | _ + 1, s => s

theorem fg_report (rs : List EditResult) (k : Nat) (call : FgFn → List FgV → Proc FgOut) (st : FgSt) (h : ReportSt rs k st) :
    (fgEditFileHandler.behind 10).exec n call st = .ret (.ret [.tool (.text (editReport rs k)), .nil]) := by
  obtain ⟨h1, h2, h3⟩ := h
  simp only [fgEditFileHandler, FgS.behind]
  rw [← proc_bind_ret (FgS.exec _ _ _ _), editReport_text]
  fg [h1, h2, h3, fgexec_range, List.map_map]
  refine rel_eq (fgRange_rec (enc := FgV.result ∘ fgResult) (fun (s : List Bytes × List Bytes) st => st .results = .strs s.1 ∧ st .errors = .strs s.2 ∧ st .iterations = .int k)
    (fun _ l s => .ret (.ret [.tool (.text (reportText (s.1 ++ editedMsgs l) (s.2 ++ failedMsgs l) k)), .nil]))
    (fun _ s st h => ?_) (fun _ r l s st rest h ih => ?_) rs 0 ([], []) _ ?_)
  · obtain ⟨g1, g2, g3⟩ := h
    obtain ⟨ok, bad⟩ := s
    dsimp only at g1 g2
    have hb : decide ((0 : Int) < (bad.length : Int)) = decide (bad.length > 0) := by simp only [decide_eq_decide]; omega
    simp only [editedMsgs, failedMsgs, List.filter_nil, List.map_nil, List.append_nil, reportText]
    fg [g1, g2, g3, hb]
    by_cases hz : bad.length > 0
    · fg [hz, g1, g2, g3, fgDec_ofNat]
      refine fgRange_rec (enc := FgV.str) (fun (m : Bytes) st => st .message = .str m ∧ st .errors = .strs bad)
        (fun _ l m => .ret (.ret [.tool (.text (m ++ (okLines l ++ badLines bad))), .nil])) (fun _ m st h => ?_) (fun _ r l m st rest h ih => ?_) ok 0 (b! "Completed with errors after " ++ (natDec k ++ b! " iterations:\n")) _ ?_ |> builtStep ?_
      · simp only [List.append_assoc]
      · fg [h.1, h.2, okLines, List.flatMap_nil]
        refine fgRange_rec (enc := FgV.str) (fun (m : Bytes) st => st .message = .str m)
          (fun _ l m => .ret (.ret [.tool (.text (m ++ badLines l)), .nil])) (fun _ m st h => ?_) (fun _ r l m st rest h ih => ?_) bad 0 m _ ?_
        · fg [h, badLines, List.flatMap_nil]
        · fg [h]
          refine builtStep ?_ (ih (m ++ (b! "✗ " ++ (r ++ [nl]))) _ (by fg [nl_byte]))
          simp [badLines]
        · fg [h.1]
      · fg [h.1, h.2]
        refine builtStep ?_ (ih (m ++ (b! "✓ " ++ (r ++ [nl]))) _ ⟨by fg [nl_byte], by fg [h.2]⟩)
        simp [okLines]
      · exact ⟨by fg [], by fg [g2]⟩
    · fg [hz, g1, g2, g3, fgDec_ofNat]
      refine fgRange_rec (enc := FgV.str) (fun (m : Bytes) st => st .message2 = .str m)
        (fun _ l m => .ret (.ret [.tool (.text (m ++ okLines l)), .nil])) (fun _ m st h => ?_) (fun _ r l m st rest h ih => ?_) ok 0 (b! "All files edited successfully after " ++ (natDec k ++ b! " iterations:\n")) _ ?_ |> builtStep ?_
      · simp only [List.append_assoc]
      · fg [h, okLines, List.flatMap_nil]
      · fg [h]
        refine builtStep ?_ (ih (m ++ (b! "✓ " ++ (r ++ [nl]))) _ (by fg [nl_byte]))
        simp [okLines]
      · fg []
  · obtain ⟨g1, g2, g3⟩ := h
    obtain ⟨ok, bad⟩ := s
    dsimp only at g1 g2
    rcases r with ⟨f, _ | e⟩
    · fg [Function.comp, fgResult, EditResult.success, Option.isNone_none, g1, g2, g3]
      refine builtStep ?_ (ih (ok ++ [b! "Successfully edited " ++ f], bad) _ ⟨by fg [], by fg [g2], by fg [g3]⟩)
      simp [editedMsgs, failedMsgs, EditResult.success]
    · fg [Function.comp, fgResult, EditResult.success, Option.isNone_some, g1, g2, g3]
      refine builtStep ?_ (ih (ok, bad ++ [b! "Failed to edit " ++ (f ++ (b! ": " ++ e))]) _ ⟨by fg [g1], by fg [], by fg [g3]⟩)
      simp [editedMsgs, failedMsgs, EditResult.success]
  · exact ⟨by fg [], by fg [], by fg [h2]⟩

/-- The first `k` statements, then `t`. -/
def FgS.upto : Nat → FgS → FgS → FgS
  | 0, _, t => t
  | k + 1, .seq a b, t => .seq a (b.upto k t)
  | _ + 1, s, _ => s

theorem fgEditFileHandler_split : fgEditFileHandler = fgEditFileHandler.upto 10 (fgEditFileHandler.behind 10) := rfl

theorem fg_handler_head (ctx : FgV) (args : Json) (tail : FgS)
    (ht : ∀ rs k st, ReportSt rs k st → tail.exec n (fgRun n (d + 4)) st = .ret (.ret [.tool (.text (editReport rs k)), .nil])) :
    (fgEditFileHandler.upto 10 tail).exec n (fgRun n (d + 4)) (fgSet (fgSet (fun _ => .nil) .ctx ctx) .request (.request args)) =
      (editFileHandler n (editFileRequest args)).bind fgTool := by
  simp only [fgEditFileHandler, FgS.upto, editFileHandler, editFileRequest]
  fg []
  cases requireString args (b! "script") with
  | error e => fg [fgTool]
  | ok script =>
    fg []
    cases requireStringSlice args (b! "files") with
    | error e => fg [fgTool]
    | ok files =>
      have hF : decide ((files.length : Int) = 0) = files.isEmpty := by cases files <;> simp <;> omega
      fg [hF]
      cases files.isEmpty with
      | true => fg [fgTool]
      | false =>
        fg []
        rcases Bool.eq_false_or_eq_true (getBool args (b! "loopUntilError") false) with hg | hg
        · fg [hg, fg_editFilesWithLoop]
          refine congrArg _ (funext fun r => ?_)
          rcases r with _ | ⟨rs, k⟩
          · fg [fgLooped, fgTool]
          · fg [fgLooped, fgTool]
            exact ht rs k _ ⟨by fg [], by fg [], by fg []⟩
        · fg [hg, fg_EditFiles]
          refine congrArg _ (funext fun rs => ?_)
          fg [fgTool]
          exact ht rs 1 _ ⟨by fg [], by fg []; rfl, by fg []⟩

theorem fg_EditFileHandler (ctx : FgV) (args : Json) :
    fgRun n (d + 5) .EditFileHandler [ctx, .request args] = (editFileHandler n (editFileRequest args)).bind fgTool := by
  rw [fgRun_succ _ _ _ _ _ rfl, FgFn.body, fgEditFileHandler_split]
  exact fg_handler_head ctx args _ fun rs k st h => fg_report rs k _ st h

theorem fg_TextedEvalHandler (ctx : FgV) (args : Json) :
    fgRun n (d + 3) .TextedEvalHandler [ctx, .request args] = (textedEvalHandler (evalRequest args)).bind fun r => .ret (.ret [.tool r, .nil]) := by
  rw [fgRun_succ _ _ _ _ _ rfl]
  simp only [FgFn.body, fgTextedEvalHandler, textedEvalHandler, evalRequest]
  fg []
  cases requireString args (b! "input") with
  | error e => fg []
  | ok input =>
    fg []
    cases requireString args (b! "script") with
    | error e => fg []
    | ok script =>
      fg []
      by_cases o1 : getString args (b! "output") (b! "buffer") = b! "buffer"
      · fg [o1, ne_eq, not_true_eq_false, false_and, fg_ExecuteScript]
        cases executeScript input script <;> fg [fgRes]
      · by_cases o2 : getString args (b! "output") (b! "buffer") = b! "expression"
        · fg [o2, ne_eq, not_true_eq_false, and_false, show ((b! "expression") = (b! "buffer")) = False by decide]
          cases parseString script with
          | err e => fg []
          | panic => fg []
          | ok p =>
            fg []
            rcases eval defaultEnv p (newBuffer input) with ⟨r, b⟩
            cases r <;> fg [fg_anyWriteValue_sexp]
        · fg [o1, o2, ne_eq, not_false_eq_true, and_true]

end Texted
