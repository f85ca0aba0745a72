import Verif.Lemmas.LinkMore
import Verif.Lemmas.FgParse
/-
Functions that parse and evaluate nothing do not depend on the memory: the writers. `texted parse` and the tool `edit_file` stay within the memory,
if what they parse and run does.
-/
set_option linter.unusedSectionVars false
set_option linter.unusedSimpArgs false
namespace Texted
open Spec (printPieces sexpPieces shellPieces jsonPieces outPieces parseProc fittingOp FitsIn StaysIn)

/-- Operations on which the memory has no limit. -/
def FgOp.light : FgOp → Bool
  | .parseString | .parseJSONString | .parseReader | .eval => false
  | _ => true

/-- Statements that use such operations only, and call functions in `ok` only. -/
def FgS.light (ok : FgFn → Bool) : FgS → Bool
  | .seq a b => a.light ok && b.light ok
  | .op _ o _ => o.light
  | .callFn _ f _ => ok f
  | .if_ _ a b => a.light ok && b.light ok
  | .range _ _ _ body => body.light ok
  | .forever body => body.light ok
  | _ => true

/-- The writers. -/
def FgFn.light : FgFn → Bool
  | .NewWriter | .sexpWrite | .sexpWriteValue | .shellWrite | .shellWriteValue | .jsonWrite | .jsonWriteValue | .anyWrite | .anyWriteValue | .writeOutput
  | .isValidFormat => true
  | _ => false

theorem light_body {f : FgFn} (h : f.light = true) : f.body.light FgFn.light = true := by
  cases f <;> first | rfl | exact nomatch h

section
variable [Ext] {m : Memory} {n d : Nat}

theorem light_op {o : FgOp} (h : o.light = true) (vs : List FgV) : fittingOp m o vs = modelOp o vs := by
  cases o <;> first | rfl | exact absurd h (by decide)

theorem exec_light {ok : FgFn → Bool} {call call' : FgFn → List FgV → Proc FgOut} (hc : ∀ f, ok f = true → call f = call' f) :
    ∀ (s : FgS), s.light ok = true → s.execBy (fittingOp m) n call = s.exec n call'
  | .skip, _ => rfl
  | .seq a b, h => by
    rw [FgS.light, Bool.and_eq_true] at h
    funext st; simp only [FgS.execBy, FgS.exec, exec_light hc a h.1, exec_light hc b h.2]
  | .set _ _, _ => rfl
  | .setField _ _ _, _ => rfl
  | .op xs o _, h => by
    rw [FgS.light] at h
    funext st; simp only [FgS.execBy, FgS.exec, light_op h, modelOp, proc_bind_assoc, proc_ret_bind, put_linkGot]
  | .callFn _ f _, h => by rw [FgS.light] at h; funext st; simp only [FgS.execBy, FgS.exec, hc f h]
  | .if_ _ a b, h => by
    rw [FgS.light, Bool.and_eq_true] at h
    funext st; simp only [FgS.execBy, FgS.exec, exec_light hc a h.1, exec_light hc b h.2]
  | .range i x _ body, h => by rw [FgS.light] at h; funext st; simp only [FgS.execBy, FgS.exec, exec_light hc body h]
  | .forever body, h => by rw [FgS.light] at h; funext st; simp only [FgS.execBy, FgS.exec, exec_light hc body h]
  | .cont, _ => rfl
  | .brk, _ => rfl
  | .ret _, _ => rfl

theorem run_light : ∀ (d : Nat) {f : FgFn}, f.light = true → fgRunBy (fittingOp m) n d f = fgRun n d f
  | 0, _, _ => rfl
  | d + 1, f, h => by
    funext args
    rw [fgRunBy, fgRun]
    cases fgSetAll (fun _ => .nil) f.params args with
    | none => rfl
    | some st => show f.body.execBy (fittingOp m) n _ st = _; rw [exec_light (fun g hg => run_light d hg) f.body (light_body h)]

theorem lk_writeOutput (f : Bytes) (hf : isValidFormat f = true) (l : List Value) :
    fgRunBy (fittingOp m) n (d + 4) .writeOutput [.stdout, .vals l, .str f] = fgPrinted (outPieces f l) := by
  rw [run_light _ rfl]; exact fg_writeOutput f hf l

theorem lk_isValidFormat2 (f : Bytes) : fgRunBy (fittingOp m) n (d + 1) .isValidFormat [.str f] = .ret (.ret [.bool (isValidFormat f)]) := by
  rw [run_light _ rfl]; exact fg_isValidFormat2 f

theorem fitting_false (p : Proc LinkOut) : fitting false p = .ret .spin := rfl
theorem shell_isnt_json : ((b! "shell") = (b! "json")) = False := by decide
theorem sexp_isnt_json : ((b! "sexp") = (b! "json")) = False := by decide

theorem lk_parseInput (f : Bytes) (hf : isValidFormat f = true) :
    fgRunBy (fittingOp m) n (d + 1) .parseInput [.stdin, .str f] = .act .stdin fun r => match r with
      | .error e => fgProgram (.err e)
      | .ok s => if f = b! "json" ∨ m.text s = true then fgProgram (parseInput s f) else .ret .spin := by
  rw [lkRun_succ _ _ _ rfl]; simp only [FgFn.body, fgParseInput]
  rcases valid_three hf with rfl | rfl | rfl
  · lk []
    refine congrArg _ (funext fun r => ?_)
    cases r with
    | error e => rfl
    | ok s =>
      cases hm : m.text s with
      | false => lk [hm, fitting_false, shell_isnt_json, or_false]
      | true =>
        simp only [parseInput]
        lk [hm, fitting_true, or_true]
        cases parseString s <;> lk [fgProgram]
  · lk [sexp_isnt_shell]
    refine congrArg _ (funext fun r => ?_)
    cases r with
    | error e => rfl
    | ok s =>
      cases hm : m.text s with
      | false => lk [hm, fitting_false, sexp_isnt_json, or_false]
      | true =>
        simp only [parseInput]
        lk [hm, fitting_true, or_true, sexp_isnt_shell]
        cases parseString s <;> lk [fgProgram]
  · lk [json_not_sexp, json_not_shell]
    refine congrArg _ (funext fun r => ?_)
    cases r with
    | error e => rfl
    | ok s =>
      simp only [parseInput, fgParsedFrom]
      lk [json_not_sexp, json_not_shell, true_or]
      cases Res.ofExcept (parseJsonReader s) <;> lk [fgProgram]

variable {w : World}

theorem stays_runParse (i o : Bytes) (h : i = b! "json" ∨ m.text w.input = true) : StaysIn m .runParse [.str i, .str o] w := by
  refine ⟨0, 5, ?_⟩
  change Calm _ w
  rw [lkRun_succ _ _ _ rfl]; simp only [FgFn.body, fgRunParse]
  lk [lk_isValidFormat2]
  cases hi : isValidFormat i with
  | false => lk []; exact calm_ret (fun h => nomatch h)
  | true =>
    cases ho : isValidFormat o with
    | false => lk [lk_isValidFormat2, ho]; exact calm_ret (fun h => nomatch h)
    | true =>
      lk [lk_isValidFormat2, ho, lk_parseInput i hi]
      refine calm_stdin ?_ fun e => ?_
      · dsimp only
        rw [if_pos h]
        cases parseInput w.input i with
        | err e => lk [fgProgram]; exact calm_ret (fun h => nomatch h)
        | panic => lk [fgProgram]; exact calm_panic
        | ok p =>
          lk [fgProgram, lk_writeOutput o ho, fgPrinted]
          intro w' he
          obtain ⟨e, w1, _, h2⟩ := ends_bind.1 he
          exact nomatch (ends_ret.1 h2).1
      · lk [fgProgram]; exact calm_ret (fun h => nomatch h)

theorem stays_EditFileHandler (ctx : FgV) (args : Json) (hl : getBool args (b! "loopUntilError") false = false)
    (h : ∀ files script, requireStringSlice args (b! "files") = .ok files → requireString args (b! "script") = .ok script →
      files.Nodup ∧ ∀ f ∈ files, ∀ c, w.files f = some c → FitsIn m c script (b! "shell")) :
    StaysIn m .EditFileHandler [ctx, .request args] w := by
  have tail : ∀ rs k st, ReportSt rs k st → (fgEditFileHandler.behind 10).execBy (fittingOp m) 0 (fgRunBy (fittingOp m) 0 3) st =
      .ret (.ret [.tool (.text (editReport rs k)), .nil]) := fun rs k st hr => by
    rw [exec_light (ok := fun _ => false) (call' := fgRun 0 3) (fun _ h => nomatch h) _ rfl]
    exact fg_report rs k _ st hr
  refine ⟨0, 4, ?_⟩
  change Calm _ w
  rw [lkRun_succ _ _ _ rfl, FgFn.body, fgEditFileHandler_split]
  generalize fgEditFileHandler.behind 10 = t at tail
  simp only [fgEditFileHandler, FgS.upto]
  lk []
  cases hs : requireString args (b! "script") with
  | error e => lk []; exact calm_ret (fun h => nomatch h)
  | ok script =>
    lk []
    cases hfs : requireStringSlice args (b! "files") with
    | error e => lk []; exact calm_ret (fun h => nomatch h)
    | ok files =>
      have hF : decide ((files.length : Int) = 0) = files.isEmpty := by cases files <;> simp <;> omega
      lk [hF]
      cases files.isEmpty with
      | true => lk []; exact calm_ret (fun h => nomatch h)
      | false =>
        lk [hl]
        obtain ⟨hn, hf⟩ := h _ _ hfs hs
        refine safe_calm (safe_bind (safe_EditFiles (d := 0) files script hn hf) fun o ho => ?_)
        obtain ⟨rs, rfl⟩ := ho
        lk []
        rw [tail rs 1 _ ⟨by lk [], by lk []; rfl, by lk []⟩]
        exact safe_ret (fun _ h => h) (fun h => nomatch h)

end
end Texted
