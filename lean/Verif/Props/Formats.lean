import Verif.Spec.Formats
import Verif.Props.EditCmd
/- C70: the syntax a script is read in. -/
namespace Texted
open Spec

theorem runEdit_format [Ext] (a : EditArgs) (f : Bytes) (hl : a.loud = false ∨ f = a.format)
    (hv : isValidFormat f = true ∧ isValidFormat a.format = true ∨ f = a.format)
    (hx : ∀ input script, executeScriptWithFormat input script f = executeScriptWithFormat input script a.format)
    (hp : ∀ s, parseScript f s = parseScript a.format s) : runEdit (withFormat a f) = runEdit a := by
  obtain ⟨b, hb⟩ : ∃ b, withFormat a f = b := ⟨_, rfl⟩
  have f0 : b.format = f := by rw [← hb]; rfl
  have f1 : b.loud = a.loud := by rw [← hb]; rfl
  have f2 : b.quiet = a.quiet := by rw [← hb]; rfl
  have f3 : b.dryRun = a.dryRun := by rw [← hb]; rfl
  have f4 : b.outputFile = a.outputFile := by rw [← hb]; rfl
  have f5 : b.files = a.files := by rw [← hb]; rfl
  have f6 : b.backupSuffix = a.backupSuffix := by rw [← hb]; rfl
  have f7 : b.inPlace = a.inPlace := by rw [← hb]; rfl
  have f8 : b.expressions = a.expressions := by rw [← hb]; rfl
  have f9 : b.scriptFile = a.scriptFile := by rw [← hb]; rfl
  have f10 : b.script = a.script := by rw [← hb]; rfl
  have f11 : b.outputFormat = a.outputFormat := by rw [← hb]; rfl
  rw [hb]
  clear hb
  have e1 : ∀ source es i buf, evalExpressions b source i es buf = evalExpressions a source i es buf := by
    intro source es
    induction es with
    | nil => intro i buf; rfl
    | cons e es ih => intro i buf; simp only [evalExpressions, f0, f1, f2, f11, hp, ih]
  have e2 : ∀ fs many, expressionsOnFiles b many fs = expressionsOnFiles a many fs := by
    intro fs many
    induction fs with
    | nil => rfl
    | cons g fs ih => simp only [expressionsOnFiles, f2, f8, e1, ih]
  have e3 : runExpressions b = runExpressions a := by simp only [runExpressions, f5, f8, e1, e2]
  have e4 : ∀ script, processStdin b script = processStdin a script := by
    intro script
    rcases hl with hl | hl
    · simp only [processStdin, f0, f1, f2, f3, f4, hx, hl, say, Bool.false_eq_true, if_false]
    · simp only [processStdin, f0, f1, f2, f3, f4, hx, hl]
  have e5 : ∀ script g dest act, processSingle b script g dest act = processSingle a script g dest act := by
    intro script g dest act; simp only [processSingle, f0, f1, f2, f3, hx]
  have e6 : ∀ script g, inPlaceOne b script g = inPlaceOne a script g := by
    intro script g; simp only [inPlaceOne, inPlaceEdit, complain, f0, f1, f2, f3, f6, hx]
  have e7 : ∀ script fs, inPlaceLoop b script fs = inPlaceLoop a script fs := by
    intro script fs
    induction fs with
    | nil => rfl
    | cons g fs ih => simp only [inPlaceLoop, e6, ih]
  have e8 : ∀ script, applyScript b script = applyScript a script := by
    intro script; simp only [applyScript, processFiles, processFilesInPlace, f4, f5, f7, e4, e5, e7]
  simp only [runEdit, runScript, f0, f4, f5, f6, f7, f8, f9, f10, e3, e8]
  rcases hv with ⟨h1, h2⟩ | h
  · simp only [h1, h2, Bool.not_true, Bool.false_eq_true, if_false]
  · rw [h]

/-- The format in the statements about `texted edit` (`EditArgs.format`) is the one asked for. -/
theorem format_asked (a : EditArgs) (f : Bytes) : AsksFor a f ↔ a.format = f := by
  unfold EditArgs.format
  constructor
  · intro h
    cases h with
    | shell h => rw [if_pos h]
    | sexp h1 h2 => rw [if_neg (by rw [h1]; decide), if_pos h2]
    | json h1 h2 h3 => rw [if_neg (by rw [h1]; decide), if_neg (by rw [h2]; decide), if_pos h3]
    | format h1 h2 h3 => rw [if_neg (by rw [h1]; decide), if_neg (by rw [h2]; decide), if_neg (by rw [h3]; decide)]
  · rintro rfl
    cases h1 : a.shell
    · cases h2 : a.sexp
      · cases h3 : a.json
        · simpa using AsksFor.format h1 h2 h3
        · simpa using AsksFor.json h1 h2 h3
      · simpa using AsksFor.sexp h1 h2
    · simpa using AsksFor.shell h1

/-- C70. The shorthand flags mean the format option: every run is the run with only the format option, set to what is asked for. -/
theorem C70_shorthand [Ext] (a : EditArgs) (f : Bytes) (h : AsksFor a f) : runEdit a = runEdit (withFormat a f) := by
  have hf := (format_asked a f).1 h
  exact (runEdit_format a f (.inr hf.symm) (.inr hf.symm) (fun _ _ => by rw [hf]) (fun _ => by rw [hf])).symm

/-- C70. Every combination of the flags asks for exactly one format. -/
theorem C70_one_format (a : EditArgs) : ∃ f, AsksFor a f ∧ ∀ g, AsksFor a g → g = f :=
  ⟨a.format, (format_asked a _).2 rfl, fun _ h => ((format_asked a _).1 h).symm⟩

/-- C70. A format that is neither shell, sexp nor json is refused before anything is read or written, naming it. -/
theorem C70_unknown [Ext] (a : EditArgs) (f : Bytes) (h : AsksFor a f) (h1 : f ≠ b! "shell") (h2 : f ≠ b! "sexp") (h3 : f ≠ b! "json") :
    runEdit a = .ret (some (b! "invalid script format: " ++ f ++ b! " (must be shell, sexp, or json)")) := by
  have hf := (format_asked a f).1 h
  unfold runEdit
  rw [hf, if_pos]
  simp only [isValidFormat, h1, h2, h3]; decide

/-- C70. What a script means in a format: JSON is read as JSON, the two others by the same parser, so `sexp` also accepts shell lines
and `shell` also accepts S-expressions. -/
theorem C70_meaning [Ext] (input script : Bytes) :
    executeScriptWithFormat input script (b! "shell") = executeScript input script ∧
    executeScriptWithFormat input script (b! "sexp") = executeScript input script ∧
    executeScriptWithFormat input script (b! "json") = executeParsed input (Res.ofExcept (parseJsonString script)) := ⟨rfl, rfl, rfl⟩

/-- C70, what may surprise: "force S-expression syntax" forces nothing. Unless verbose messages are wanted, asking for `sexp` and asking for
`shell` give the same run, for all scripts, expressions, files and other flags. -/
theorem C70_sexp_is_shell [Ext] (a : EditArgs) (hq : ¬ (a.verbose = true ∧ a.quiet = false)) (h : AsksFor a (b! "sexp")) :
    runEdit a = runEdit (withFormat a (b! "shell")) := by
  have hf := (format_asked a _).1 h
  refine (runEdit_format a _ (.inl ?_) (.inl ⟨by decide, by rw [hf]; decide⟩) (fun input script => by rw [hf]; rfl) (fun s => by rw [hf]; rfl)).symm
  unfold EditArgs.loud
  cases h1 : a.verbose <;> cases h2 : a.quiet <;> simp_all

/-- Non-vacuity: the flags in conflict, and the run they give. -/
example : AsksFor { shell := true, json := true, scriptFormat := b! "yaml", script := b! "insert \"x\"" } (b! "shell") := .shell rfl
example : letI := litExt
    runEdit { shell := true, json := true, scriptFormat := b! "yaml", script := b! "insert \"x\"" } ≠
    runEdit { json := true, scriptFormat := b! "yaml", script := b! "insert \"x\"" } := by
  letI := litExt
  intro h
  have hw := congrArg (fun p => (runOk id p { files := fun _ => none, input := b! "", out := [] }).1) h
  revert hw
  decide +kernel

end Texted
