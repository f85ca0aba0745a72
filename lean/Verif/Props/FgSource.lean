import Verif.Lemmas.FgMono
import Verif.Lemmas.FgRunEdit
import Verif.Lemmas.FgParse
import Verif.Lemmas.FgTools
import Verif.Props.Files
import Verif.Props.EditCmd
import Verif.Props.Tools
import Verif.Props.ParseCmd
import Verif.Props.PgSource
/-
C95: editing files, the commands `texted edit` and `texted parse`, the writers and the two editing tools, as they are written in Go, do what
the model's definitions say: so the properties about crashes, failures and flags hold of the Go text.
-/
set_option linter.unusedSectionVars false
namespace Texted
open Spec

section
variable [Ext] {f : FgFn} {args : List FgV} {p : Proc (List FgV)} {w w' : World}

/-- **C95** What it means that a call does what a program does: with enough rounds and calls it is that program; what can be in the world at
any moment of the call, and what the call can return with which world, is exactly what the program says. -/
theorem C95_does (h : GoDoes f args p) :
    (∃ n d, ∀ n' d', n ≤ n' → d ≤ d' → fgRun n' d' f args = p.bind fun vs => .ret (.ret vs)) ∧
    (∀ w w', CallSees f args w w' ↔ Sees p w w') ∧ (∀ w vs w', CallEnds f args w vs w' ↔ Ends p w vs w') ∧
    (∀ q, GoDoes f args q → ∀ w vs w', Ends q w vs w' ↔ Ends p w vs w') := by
  have key : ∀ {p}, GoDoes f args p → ∃ n d, ∀ n' d', n ≤ n' → d ≤ d' → fgRun n' d' f args = p.bind fun vs => .ret (.ret vs) := by
    rintro p ⟨n, d, e⟩
    exact ⟨n, d, fun n' d' hn hd => upto_returns (e ▸ upto_fgRun hn hd f args)⟩
  have ends : ∀ {p}, GoDoes f args p → ∀ w vs w', CallEnds f args w vs w' ↔ Ends p w vs w' := by
    intro p h w vs w'
    obtain ⟨n, d, e⟩ := key h
    constructor
    · rintro ⟨n', d', h'⟩
      have h₁ := upto_ends (o := .ret vs) (upto_fgRun (Nat.le_max_right n n') (Nat.le_max_right d d') f args) (fun e => nomatch e) h'
      rw [e _ _ (Nat.le_max_left ..) (Nat.le_max_left ..)] at h₁
      obtain ⟨vs', w1, h₂, h₃⟩ := ends_bind.1 h₁
      obtain ⟨e₁, rfl⟩ := ends_ret.1 h₃
      injection e₁ with e₁
      subst e₁; exact h₂
    · intro h'
      exact ⟨n, d, by rw [e _ _ (Nat.le_refl _) (Nat.le_refl _)]; exact ends_bind.2 ⟨vs, w', h', .refl⟩⟩
  refine ⟨key h, fun w w' => ?_, ends h, fun q hq w vs w' => (ends hq w vs w').symm.trans (ends h w vs w')⟩
  obtain ⟨n, d, e⟩ := key h
  constructor
  · rintro ⟨n', d', h'⟩
    have h₁ := upto_sees (upto_fgRun (Nat.le_max_right n n') (Nat.le_max_right d d') f args) h'
    rw [e _ _ (Nat.le_max_left ..) (Nat.le_max_left ..)] at h₁
    rcases sees_bind.1 h₁ with h₂ | ⟨a, w1, h₂, h₃⟩
    · exact h₂
    · rw [sees_ret.1 h₃]; exact ⟨_, h₂⟩
  · intro h'
    exact ⟨n, d, by rw [e _ _ (Nat.le_refl _) (Nat.le_refl _)]; exact sees_bind.2 (.inl h')⟩

theorem does_failing {q : Proc (Option Bytes)} {n d : Nat} (h : fgRun n d f args = fgFails q) : GoDoes f args (failing q) :=
  ⟨n, d, by rw [h, fgFails, failing, proc_bind_assoc]; rfl⟩

theorem does_text {r : Res Bytes Bytes} {n d : Nat} (h : fgRun n d f args = fgRes r) : GoDoes f args (textAndError r) :=
  ⟨n, d, by rw [h]; cases r <;> rfl⟩

theorem does_results {q : Proc (List EditResult)} {n d : Nat}
    (h : fgRun n d f args = q.bind fun rs => .ret (.ret [.results (rs.map fgResult), .nil])) : GoDoes f args (resultsAndNil q) :=
  ⟨n, d, by rw [h, resultsAndNil, proc_bind_assoc]; rfl⟩

/-- **C95** `IsValidFormat`, `ExecuteScript` and `ExecuteScriptWithFormat`, as they are written in Go: they touch nothing and return what the
model says, for every input, script and format. -/
theorem C95_execute (input script format : Bytes) :
    GoDoes .IsValidFormat [.str format] (.ret [.bool (isValidFormat format)]) ∧
    GoDoes .ExecuteScript [.str input, .str script] (textAndError (executeScript input script)) ∧
    GoDoes .ExecuteScriptWithFormat [.str input, .str script, .str format] (textAndError (executeScriptWithFormat input script format)) :=
  ⟨⟨0, 1, fg_IsValidFormat format⟩, does_text (fg_ExecuteScript (n := 0) (d := 0) input script),
    does_text (fg_ExecuteScriptWithFormat (n := 0) (d := 0) input script format)⟩

/-- **C95** The functions that edit files, as they are written in Go. -/
theorem C95_files (file script format : Bytes) (files : List Bytes) :
    GoDoes .EditFile [.str file, .str script] (failing (editFile file script)) ∧
    GoDoes .EditFileWithFormat [.str file, .str script, .str format] (failing (editFileWithFormat file script format)) ∧
    GoDoes .EditFiles [.strs files, .str script] (resultsAndNil (editFiles files script)) ∧
    GoDoes .EditFilesWithFormat [.strs files, .str script, .str format] (resultsAndNil (editFilesWithFormat files script format)) :=
  ⟨does_failing (fg_EditFile (n := 0) (d := 0) file script), does_failing (fg_EditFileWithFormat (n := 0) (d := 0) file script format),
    does_results (fg_EditFiles (n := 0) (d := 0) files script), does_results (fg_EditFilesWithFormat (n := 0) (d := 0) files script format)⟩

/-- **C95** `texted edit`, as it is written in Go, with any flags and file names. -/
theorem C95_edit (a : EditArgs) : GoDoes .runEdit (editCall a) (failing (runEdit a)) := does_failing (fg_runEdit (n := 0) (d := 0) a)

/-- **C95** `texted parse`, as it is written in Go. -/
theorem C95_parse (inputFormat outputFormat : Bytes) :
    GoDoes .runParse [.str inputFormat, .str outputFormat] (failing (parseProc inputFormat outputFormat)) :=
  does_failing (fg_runParse (n := 0) (d := 0) inputFormat outputFormat)

/-- **C95** If no read and no print fails, `texted parse` as it is written in Go ends with the error and prints the text that the model of the
command says. -/
theorem C95_parse_prints (inputFormat outputFormat : Bytes) (r : Written) (hr : runParse inputFormat outputFormat w.input = some r) :
    ∃ w', CallEnds .runParse [.str inputFormat, .str outputFormat] w [fgError r.err] w' ∧ w'.out = w.out ++ r.out ∧ w'.files = w.files := by
  have h := runOk_parseProc (fun _ => []) inputFormat outputFormat w
  rw [hr] at h
  obtain ⟨h₁, h₂⟩ := h
  have he : Ends (parseProc inputFormat outputFormat) w r.err (runOk (fun _ => []) (parseProc inputFormat outputFormat) w).2 :=
    (runOk_ends _ _ _).1 _ h₁
  refine ⟨_, ((C95_does (C95_parse inputFormat outputFormat)).2.2.1 _ _ _).2 (ends_bind.2 ⟨_, _, he, .refl⟩), h₂, ?_⟩
  have hw : WritesOnly (fun _ => False) (parseProc inputFormat outputFormat) := by
    rw [parseProc]
    split
    · trivial
    split
    · trivial
    refine ⟨trivial, fun r => ?_⟩
    have hp : ∀ ts e, WritesOnly (fun _ => False) (printPieces ts e) := by
      intro ts e
      induction ts with
      | nil => trivial
      | cons t ts ih => exact ⟨trivial, fun r => by cases r <;> trivial⟩
    cases r with
    | error e => trivial
    | ok s =>
      dsimp only
      cases parseInput s inputFormat with
      | err e => trivial
      | panic => trivial
      | ok p => exact hp _ _
  exact funext fun q => hw.sees ⟨_, he⟩ q id

/-- **C95** The writers of scripts, as they are written in Go: `NewWriter` knows the three formats, each writer appends to a `strings.Builder`
the text and ends with the error that the model says, and prints the same text piece by piece when it writes to standard output. -/
theorem C95_writers (format s : Bytes) (l : List Value) (x : FgV) :
    GoDoes .NewWriter [.str (b! "shell")] (.ret [.writer .shell, .nil]) ∧ GoDoes .NewWriter [.str (b! "sexp")] (.ret [.writer .sexp, .nil]) ∧
    GoDoes .NewWriter [.str (b! "json")] (.ret [.writer .json, .nil]) ∧
    (isValidFormat format = false → GoDoes .NewWriter [.str format] (.ret [.nil, .err (b! "unsupported format: " ++ format)])) ∧
    GoDoes .shellWrite [x, .builder s, .vals l] (appended s (writeShell l)) ∧ GoDoes .sexpWrite [x, .builder s, .vals l] (appended s (writeSexp l)) ∧
    GoDoes .jsonWrite [x, .builder s, .vals l] (appended s (writeJson l)) ∧
    GoDoes .shellWrite [x, .stdout, .vals l] (printed (shellPieces l)) ∧ GoDoes .sexpWrite [x, .stdout, .vals l] (printed (sexpPieces l)) ∧
    GoDoes .jsonWrite [x, .stdout, .vals l] (printed (jsonPieces l)) ∧
    (isValidFormat format = true → writeOutput l format = { out := (outPieces format l).1.flatten, err := (outPieces format l).2 }) := by
  have pr : ∀ {f args p} {n d : Nat}, fgRun n d f args = fgPrinted p → GoDoes f args (printed p) := fun {f args p n d} h =>
    ⟨n, d, by rw [h, fgPrinted, printed, proc_bind_assoc]; rfl⟩
  exact ⟨⟨0, 1, fg_NewWriter_shell⟩, ⟨0, 1, fg_NewWriter_sexp⟩, ⟨0, 1, fg_NewWriter_json⟩, fun h => ⟨0, 1, fg_NewWriter_other format h⟩,
    ⟨0, 2, fg_shellWrite x s l⟩, ⟨0, 2, fg_sexpWrite x s l⟩, ⟨0, 1, fg_jsonWrite x s l⟩, pr (fg_shellWrite_out (n := 0) (d := 0) x l),
    pr (fg_sexpWrite_out (n := 0) (d := 0) x l), pr (fg_jsonWrite_out (n := 0) (d := 0) x l), fun h => pieces_written format h l⟩

/-- **C95** The tool `texted_eval`, as it is written in Go, for every request. -/
theorem C95_eval_tool (ctx : FgV) (request : Json) :
    GoDoes .TextedEvalHandler [ctx, .request request] (toolAndNil (textedEvalHandler (evalRequest request))) :=
  ⟨0, 3, by rw [fg_TextedEvalHandler, toolAndNil, proc_bind_assoc]; rfl⟩

/-- **C95** The tool `edit_file`, as it is written in Go, for every request: it answers what the model answers within some number of rounds, and
what can be in the world at any moment is what it can be within some number of rounds of the model. (With `loopUntilError` the loop of
the Go text has no bound, and it may never answer.) -/
theorem C95_edit_tool (ctx : FgV) (request : Json) :
    (∀ w r w', CallEnds .EditFileHandler [ctx, .request request] w [.tool r, .nil] w' ↔
      ∃ fuel, Ends (editFileHandler fuel (editFileRequest request)) w (some r) w') ∧
    (∀ w vs w', CallEnds .EditFileHandler [ctx, .request request] w vs w' → ∃ r, vs = [.tool r, .nil]) ∧
    (∀ w w', CallSees .EditFileHandler [ctx, .request request] w w' ↔ ∃ fuel, Sees (editFileHandler fuel (editFileRequest request)) w w') := by
  have ends : ∀ {w vs w'}, CallEnds .EditFileHandler [ctx, .request request] w vs w' →
      ∃ fuel r, vs = [.tool r, .nil] ∧ Ends (editFileHandler fuel (editFileRequest request)) w (some r) w' := by
    rintro w vs w' ⟨n, d, h⟩
    have h₁ := upto_ends (o := .ret vs) (upto_fgRun (Nat.le_refl n) (Nat.le_add_right d 5) _ _) (fun e => nomatch e) h
    rw [fg_EditFileHandler] at h₁
    obtain ⟨r, w1, h₂, h₃⟩ := ends_bind.1 h₁
    cases r with
    | none => exact nomatch (ends_ret.1 h₃).1
    | some r =>
      obtain ⟨e, rfl⟩ := ends_ret.1 h₃
      injection e with e
      exact ⟨n, r, e, h₂⟩
  refine ⟨fun w r w' => ⟨fun h => ?_, fun ⟨fuel, h⟩ => ?_⟩, fun w vs w' h => ?_, fun w w' => ⟨fun ⟨n, d, h⟩ => ?_, fun ⟨fuel, h⟩ => ?_⟩⟩
  · obtain ⟨fuel, r', e, h'⟩ := ends h
    simp only [List.cons.injEq, FgV.tool.injEq, and_true] at e
    exact ⟨fuel, e ▸ h'⟩
  · exact ⟨fuel, 5, by rw [fg_EditFileHandler (d := 0)]; exact ends_bind.2 ⟨_, _, h, .refl⟩⟩
  · obtain ⟨_, r, e, _⟩ := ends h
    exact ⟨r, e⟩
  · have h₁ := upto_sees (upto_fgRun (Nat.le_refl n) (Nat.le_add_right d 5) _ _) h
    rw [fg_EditFileHandler] at h₁
    rcases sees_bind.1 h₁ with h₂ | ⟨r, w1, h₂, h₃⟩
    · exact ⟨n, h₂⟩
    · cases r <;> (rw [sees_ret.1 h₃]; exact ⟨n, _, h₂⟩)
  · exact ⟨fuel, 5, by rw [fg_EditFileHandler (d := 0)]; exact sees_bind.2 (.inl h)⟩

/-- **C95** The operations that the functions above use without looking inside — the parsers, the evaluator, the conversions of the writers — do
what the Go texts of those functions do (C94), for every script, program and value that a computer can hold. -/
theorem C95_operations (s : Bytes) (p : List Value) (v : Value) (b : Buffer) (pw : PgW) (hs : Held s.length) (hp : Held (Value.partsAll p)) :
    (∃ r, AnswersAll .ParseString [.str s] pw r ∧ FgOp.run .parseString [.str s] = fgParsed r) ∧
    (IsArray s → ∃ r, AnswersAll .ParseJSONString [.str s] pw r ∧ FgOp.run .parseJSONString [.str s] = fgParsed r) ∧
    (∃ r b', Finishes .Eval [.vals p, .env defaultEnv, .buffer] { pw with buf := b } r { pw with buf := b' } ∧
      FgOp.run .eval [.vals p, .env, .buffer b] = fgEvaluated (r, b')) ∧
    ((∃ t, GoReturns .valueToShellString [.writer, .val v] pw (.str t) pw ∧ FgOp.run .valueToShellString [.val v] = .ret (some [.str t, .nil])) ∨
      (∃ e, GoFails .valueToShellString [.writer, .val v] pw (.err e) pw (.str []) ∧ FgOp.run .valueToShellString [.val v] = .ret (some [.str [], .err e]))) ∧
    (∃ j, GoReturns .valueToJSON [.writer, .val v] pw (.json j) pw ∧ FgOp.run .valueToJSON [.val v] = .ret (some [.json j, .nil])) := by
  refine ⟨⟨_, (C94_parse s hs).2.1, rfl⟩, fun ha => ⟨_, (C94_json s hs).1 ha, rfl⟩, ⟨_, _, (C94_eval (w := { pw with buf := b }) defaultEnv p hp).1, rfl⟩, ?_,
    ⟨_, (C94_writers v).1, rfl⟩⟩
  cases h : shellString v with
  | ok t => exact .inl ⟨t, (C94_writers v).2.1 t h, by rw [fo_valueToShellString, h]; rfl⟩
  | error e => exact .inr ⟨e, (C94_writers v).2.2.1 e h, by rw [fo_valueToShellString, h]; rfl⟩

/-- **C95** Go text all the way down: `ExecuteScript` returns the text `t` exactly if `ParseString` returns a program and `Eval` runs it to its end on
a buffer with the input, leaving `t` in the buffer. -/
theorem C95_script (input script t : Bytes) (pw : PgW) (hs : script.length < 576460752303423488) :
    GoDoes .ExecuteScript [.str input, .str script] (.ret [.str t, .nil]) ↔
      ∃ p v b, GoReturns .ParseString [.str script] pw (.vals p) pw ∧
        GoReturns .Eval [.vals p, .env defaultEnv, .buffer] { pw with buf := newBuffer input } (.val v) { pw with buf := b } ∧ t = b.content := by
  have hx := (C95_execute input script []).2.1
  have hsame : GoDoes .ExecuteScript [.str input, .str script] (.ret [.str t, .nil]) ↔ executeScript input script = .ok t := by
    constructor
    · intro h
      have := ((C95_does hx).2.2.2 _ h ⟨fun _ => none, [], []⟩ [.str t, .nil] ⟨fun _ => none, [], []⟩).1 .refl
      cases hr : executeScript input script with
      | ok t' =>
        rw [hr] at this
        have e := (ends_ret.1 this).1
        simp only [List.cons.injEq, FgV.str.injEq, and_true] at e
        rw [e]
      | err e => rw [hr] at this; exact absurd (ends_ret.1 this).1 (by simp)
      | panic => rw [hr] at this; exact absurd this ends_panic
    · intro h; rw [h] at hx; exact hx
  rw [hsame, C28_success]
  have hp := (C94_parse (w := pw) script (by unfold Held; omega)).2.1
  have parts : ∀ q, parseString script = .ok q → Held (Value.partsAll q) := fun q hq => by
    have hn := script_parts ((C42_parser_is_grammar script q).1 hq)
    unfold Held; omega
  constructor
  · rintro ⟨p, v, b, h₁, h₂, h₃⟩
    have he := (C94_eval (w := { pw with buf := newBuffer input }) defaultEnv p (parts p h₁)).1
    dsimp only at he
    rw [h₂] at he
    rw [h₁] at hp
    exact ⟨p, v, b, hp, he, h₃⟩
  · rintro ⟨p, v, b, h₁, h₂, h₃⟩
    have hg := (C94_grammar (w := pw) script (by unfold Held; omega)).1 p |>.1 h₁
    have hq := (C42_parser_is_grammar script p).2 hg
    have he := (C94_eval (w := { pw with buf := newBuffer input }) defaultEnv p (parts p hq)).1
    dsimp only at he
    refine ⟨p, v, b, hq, ?_, h₃⟩
    rcases hv : eval defaultEnv p (newBuffer input) with ⟨r, b'⟩
    rw [hv] at he
    cases r with
    | ok v' =>
      have := C94_one_end.1 he h₂
      injection this with e₁ e₂
      injection e₁ with e₁ _
      injection e₁ with e₁
      injection e₂ with e₂ _ _
      subst e₁
      exact congrArg _ e₂
    | err e => have := C94_one_end.1 he h₂; injection this with e₁ _; injection e₁ with e₁ _; cases e₁
    | panic => exact nomatch C94_one_end.1 he h₂

/-! ### What this says of the Go text -/

theorem sees_failing {q : Proc (Option Bytes)} : Sees (failing q) w w' ↔ Sees q w w' := by
  refine ⟨fun h => ?_, fun h => sees_bind.2 (.inl h)⟩
  rcases sees_bind.1 h with h | ⟨a, w1, h₁, h₂⟩
  · exact h
  · rw [sees_ret.1 h₂]; exact ⟨_, h₁⟩

theorem ends_failing {q : Proc (Option Bytes)} {e : Option Bytes} : Ends (failing q) w [fgError e] w' ↔ Ends q w e w' := by
  refine ⟨fun h => ?_, fun h => ends_bind.2 ⟨_, _, h, .refl⟩⟩
  obtain ⟨a, w1, h₁, h₂⟩ := ends_bind.1 h
  obtain ⟨he, rfl⟩ := ends_ret.1 h₂
  cases a <;> cases e <;> simp_all [fgError]

theorem edit_sees {a : EditArgs} : CallSees .runEdit (editCall a) w w' ↔ Sees (runEdit a) w w' :=
  ((C95_does (C95_edit a)).2.1 _ _).trans sees_failing

theorem edit_ends {a : EditArgs} {e : Option Bytes} : CallEnds .runEdit (editCall a) w [fgError e] w' ↔ Ends (runEdit a) w e w' :=
  ((C95_does (C95_edit a)).2.2.1 _ _ _).trans ends_failing

/-- **C95** All ways in which `EditFile`, as it is written in Go, can return (C29): whatever fails, the outcomes of the specification and no
others, and nothing but the named file changes. -/
theorem C95_edit_file_outcomes (file script : Bytes) (e : Option Bytes) :
    CallEnds .EditFile [.str file, .str script] w [fgError e] w' ↔
      EditOutcome (fun c => executeScript c script) file (w.files file) e (w'.files file) ∧ SameExcept file w w' :=
  (((C95_does (C95_files file script [] []).1).2.2.1 _ _ _).trans ends_failing).trans (C29_outcomes file script w e w')

/-- **C95** At every moment of `EditFile`, as it is written in Go: no other file differs from what it was, and if the script does not succeed on
the contents of the file nothing at all does. -/
theorem C95_edit_file_moments (file script : Bytes) (h : CallSees .EditFile [.str file, .str script] w w') :
    (∀ q, q ≠ file → w'.files q = w.files q) ∧
    ((∀ c, w.files file = some c → ∀ t, executeScript c script ≠ .ok t) → w' = w) := by
  have h' := sees_failing.1 (((C95_does (C95_files file script [] []).1).2.1 _ _).1 h)
  exact ⟨fun q hq => C29_other_files file script w w' h' q hq, fun hx => C29_failure_untouched file script w w' hx h'⟩

/-- **C95** `EditFiles`, as it is written in Go, with different names (C30): one result for each file, in the order given, each one as if the file
had been edited alone, and nothing else changes. -/
theorem C95_edit_files_outcomes (files : List Bytes) (hnd : files.Nodup) (script : Bytes) (vs : List FgV) :
    CallEnds .EditFiles [.strs files, .str script] w vs w' ↔
      ∃ rs : List EditResult, vs = [.results (rs.map editResult), .nil] ∧ rs.map (·.filename) = files ∧
      (∀ r ∈ rs, EditOutcome (fun c => executeScript c script) r.filename (w.files r.filename) r.error (w'.files r.filename)) ∧
      (∀ q, q ∉ files → w'.files q = w.files q) ∧ w'.input = w.input ∧ w'.out = w.out := by
  rw [(C95_does (C95_files [] script [] files).2.2.1).2.2.1, resultsAndNil, ends_bind]
  constructor
  · rintro ⟨rs, w1, h₁, h₂⟩
    obtain ⟨e, rfl⟩ := ends_ret.1 h₂
    exact ⟨rs, e, (C30_independent files hnd script w rs w').1 h₁⟩
  · rintro ⟨rs, rfl, h⟩
    exact ⟨rs, w', (C30_independent files hnd script w rs w').2 h, .refl⟩

/-- **C95** `texted edit --in-place --backup`, as it is written in Go (C31): at every moment of every run, whatever fails and wherever it
crashes, the original contents of every named file are in the file or in its backup. -/
theorem C95_original_survives (a : EditArgs) (hi : a.inPlace = true) (hs : a.backupSuffix ≠ []) (hnd : a.files.Nodup)
    (hcol : ∀ f ∈ a.files, ∀ g ∈ a.files, f ++ a.backupSuffix ≠ g) (h : CallSees .runEdit (editCall a) w w') (file c : Bytes)
    (hf : file ∈ a.files) (hc : w.files file = some c) : w'.files file = some c ∨ w'.files (file ++ a.backupSuffix) = some c :=
  C31_original_survives a hi hs hnd hcol w w' (edit_sees.1 h) file c hf hc

/-- **C95** Which files `texted edit`, as it is written in Go, can change at any moment (C32, C33): none in a dry run or with expressions; without
`--in-place` only the output file; with it only the named files and their backups. -/
theorem C95_scope (a : EditArgs) (h : CallSees .runEdit (editCall a) w w') :
    (a.dryRun = true ∨ a.expressions ≠ [] ∨ (a.inPlace = false ∧ a.outputFile = []) → w'.files = w.files) ∧
    (a.inPlace = false → ∀ q, q ≠ a.outputFile → w'.files q = w.files q) ∧
    (a.inPlace = true → ∀ q, (∀ f ∈ a.files, q ≠ f ∧ (a.backupSuffix ≠ [] → q ≠ f ++ a.backupSuffix)) → w'.files q = w.files q) := by
  have h' := edit_sees.1 h
  refine ⟨?_, fun hi q hq => C33_only_output_written a hi w w' h' q hq, fun hi q hq => C33_in_place_scope a hi w w' h' q hq⟩
  rintro (hd | he | ⟨hi, ho⟩)
  · exact C32_dry_run_writes_nothing a hd w w' h'
  · exact C33_expressions_write_nothing a he w w' h'
  · exact C33_no_output_no_write a hi ho w w' h'

/-- **C95** Contradictory flags (C34): the Go text does nothing at all and returns an error with a true reason. -/
theorem C95_refused (a : EditArgs) (h : Contradictory a) :
    ∃ e, Refusal a e ∧ GoDoes .runEdit (editCall a) (.ret [.err e]) := by
  obtain ⟨e, hr, he⟩ := C34_reason a h
  exact ⟨e, hr, by have := C95_edit a; rw [he] at this; exact this⟩

/-- **C95** A successful `texted edit` of standard input or one file, as it is written in Go (C33): what it delivers is the script's output on that
text. -/
theorem C95_delivered (a : EditArgs) (hi : a.inPlace = false) (hf : a.files.length ≤ 1) (he : a.expressions = [])
    (hd : a.dryRun = false) (hl : a.verbose = false) (h : CallEnds .runEdit (editCall a) w [.nil] w') :
    ∃ script c t, ScriptOf a w script ∧ InputOf a w c ∧ executeScriptWithFormat c script a.format = .ok t ∧ Delivered a w w' t :=
  C33_result_delivered a hi hf he hd hl w w' (edit_ends (e := none).1 h)

/-- **C95** After a successful `texted edit --in-place --backup`, as it is written in Go (C31), every file holds the output of the script and its
backup the original. -/
theorem C95_in_place (a : EditArgs) (hi : a.inPlace = true) (he : a.expressions = []) (hd : a.dryRun = false) (hf : a.files ≠ [])
    (hs : a.backupSuffix ≠ []) (hnd : a.files.Nodup) (hcol : ∀ f ∈ a.files, ∀ g ∈ a.files, f ++ a.backupSuffix ≠ g)
    (h : CallEnds .runEdit (editCall a) w [.nil] w') :
    ∃ script, ScriptOf a w script ∧ ∀ f ∈ a.files, ∃ c t, w.files f = some c ∧ executeScriptWithFormat c script a.format = .ok t ∧
      w'.files f = some t ∧ w'.files (f ++ a.backupSuffix) = some c :=
  C31_success a hi he hd hf hs hnd hcol w w' (edit_ends (e := none).1 h)

/-- **C95** `texted_eval`, as it is written in Go (C46), touches nothing. -/
theorem C95_eval_touches_nothing (ctx : FgV) (request : Json) (h : CallSees .TextedEvalHandler [ctx, .request request] w w') : w' = w := by
  have h' := ((C95_does (C95_eval_tool ctx request)).2.1 _ _).1 h
  rcases sees_bind.1 h' with h' | ⟨a, w1, h₁, h₂⟩
  · exact C46_touches_nothing _ w w' h'
  · rw [sees_ret.1 h₂]; exact C46_touches_nothing _ w w1 ⟨_, h₁⟩

end

/-! ### Concrete runs of the Go text -/

/-- What a run in which no action fails leaves: the error (if the results are one error or nil), the contents of a file, and what was printed. -/
def shownCall (p : Proc FgOut) (w : World) (q : Bytes) : Option (Option Bytes) × Option Bytes × Bytes :=
  match runOk (fun _ => b! "no such file") p w with
  | (some (.ret [.nil]), w') => (some none, w'.files q, w'.out)
  | (some (.ret [.err e]), w') => (some (some e), w'.files q, w'.out)
  | (some (.ret [.tool (.text t), .nil]), w') => (some (some t), w'.files q, w'.out)
  | (some (.ret [.tool (.error t), .nil]), w') => (some (some t), w'.files q, w'.out)
  | (_, w') => (none, w'.files q, w'.out)

/-- A world with two files. -/
def pairWorld : World where
  files := fun q => if q = b! "a" then some (b! "xay") else if q = b! "b" then some (b! "zzz") else none
  input := b! "search-forward \"x\"\n"
  out := []

/-- A script that succeeds on the first file only. -/
def dropX : Bytes := b! "search-forward \"x\"; replace-match \"\""


/-- `texted edit -i -b .bak -s … a b` on the Go text: the first file is edited and its backup made, the second one is reported. -/
example :
    let run := @fgRun litExt 0 5 .runEdit (editCall { inPlace := true, backupSuffix := b! ".bak", script := dropX, files := [b! "a", b! "b"] })
    let text := b! "✓ Successfully edited a\n✗ Failed to process b: script execution failed: search failed (at instruction 0: (search-forward \"x\"), point=1, mark=1)\n"
    let error := some (some (b! "some files could not be edited"))
    shownCall run pairWorld (b! "a") = (error, some (b! "ay"), text) ∧ shownCall run pairWorld (b! "a.bak") = (error, some (b! "xay"), text) ∧
    shownCall run pairWorld (b! "b") = (error, some (b! "zzz"), text) := by
  decide +kernel

/-- The arguments of `texted edit -i -b .bak -s … a`. -/
def inPlaceA : EditArgs := { inPlace := true, backupSuffix := b! ".bak", script := dropX, files := [b! "a"] }

/-- The hypotheses of `C95_original_survives`, `C95_scope` and `C95_in_place` are met: the command ends with nil and the file is changed. -/
example : letI := litExt
    (inPlaceA.files.Nodup ∧ ∀ f ∈ inPlaceA.files, ∀ g ∈ inPlaceA.files, f ++ inPlaceA.backupSuffix ≠ g) ∧
    ∃ w', CallEnds .runEdit (editCall inPlaceA) pairWorld [.nil] w' ∧ CallSees .runEdit (editCall inPlaceA) pairWorld w' ∧
      w'.files (b! "a") = some (b! "ay") ∧ w'.files (b! "a.bak") = some (b! "xay") := by
  letI := litExt
  have h : Ends (runEdit inPlaceA) pairWorld none (runOk (fun _ => []) (runEdit inPlaceA) pairWorld).2 :=
    (runOk_ends _ _ _).1 _ (by decide +kernel)
  exact ⟨⟨by decide, by decide⟩, _, edit_ends (e := none).2 h, edit_sees.2 ⟨_, h⟩, by decide +kernel, by decide +kernel⟩

/-- `texted edit -e end-of-buffer -e point a` on the Go text. -/
example : shownCall (@fgRun litExt 0 5 .runEdit (editCall { expressions := [b! "end-of-buffer", b! "point"], files := [b! "a"] })) pairWorld (b! "a") =
    (some none, some (b! "xay"), b! "\"\"\n4\n") := by
  decide +kernel

/-- `texted edit -i -o o -s … a b` on the Go text: refused. -/
example : shownCall (@fgRun litExt 0 5 .runEdit (editCall { inPlace := true, outputFile := b! "o", script := dropX, files := [b! "a", b! "b"] })) pairWorld (b! "a") =
    (some (some (b! "--output can only be used with a single file")), some (b! "xay"), []) := by
  decide +kernel

/-- `texted parse -i shell -o json` on the Go text. -/
example : shownCall (@fgRun litExt 0 5 .runParse [.str (b! "shell"), .str (b! "json")]) pairWorld (b! "a") =
    (some none, some (b! "xay"), b! "[\"search-forward\",\"x\"]\n") := by
  decide +kernel

/-- The tool `edit_file` with `loopUntilError` on the Go text. -/
example : shownCall (@fgRun litExt 5 5 .EditFileHandler [.nil, .request (.obj [(b! "script", .str dropX), (b! "files", .arr [.str (b! "a"), .str (b! "b")]),
      (b! "loopUntilError", .bool true)])]) pairWorld (b! "a") =
    (some (some (b! "Completed with errors after 1 iterations:\n✓ Successfully edited a\n✗ Failed to edit b: script execution failed: search failed (at instruction 0: (search-forward \"x\"), point=1, mark=1)\n")),
      some (b! "ay"), []) := by
  decide +kernel

/-- The tool `texted_eval` on the Go text. -/
example : shownCall (@fgRun litExt 0 5 .TextedEvalHandler [.nil, .request (.obj [(b! "script", .str dropX), (b! "input", .str (b! "1x2"))])]) pairWorld (b! "a") =
    (some (some (b! "12")), some (b! "xay"), []) := by
  decide +kernel

end Texted
