import Verif.Lemmas.TgCommand
import Verif.Props.TestReasons
import Verif.Props.Xml
/-
C96: the test runner as it is written in Go (/repo/edlisp/testing/testing.go, /repo/commands/test.go).
-/
set_option linter.unusedSectionVars false
namespace Texted
open Spec
variable [Ext]

theorem tgEnds_unique {x : TgX} {f : TgFn} {args : List TgV} {w : TgW} {o o' : TgOut} (h : TgEnds x f args w o) (h' : TgEnds x f args w o') : o = o' := by
  obtain ⟨N, h⟩ := h.and h'
  obtain ⟨a, b⟩ := h N N (Nat.le_refl _) (Nat.le_refl _)
  exact a.symm.trans b

theorem tgEnds_iff {x : TgX} {f : TgFn} {args : List TgV} {w : TgW} {o : TgOut} (h : TgEnds x f args w o) (o' : TgOut) : TgEnds x f args w o' ↔ o' = o :=
  ⟨fun h' => tgEnds_unique h' h, fun e => e ▸ h⟩

/-- The arguments of `runTests` (/repo/commands/test.go:17-24). -/
def testCall (a : TestArgs) : List TgV :=
  [.strs a.testFiles, .strs a.includePatterns, .bool a.verbose, .bool a.quiet, .bool a.failOnly, .bool a.trace]

/-- `formatValue` (/repo/edlisp/testing/testing.go:233-262), as it is written. -/
theorem C96_formatValue (x : TgX) (v : Value) (w : TgW) (o : TgOut) : TgEnds x .formatValue [.val v] w o ↔ o = .ret [.str (formatValue v)] w :=
  tgEnds_iff ((Eventually.at_ge v.parts).imp fun n d h => fmtValue_tg x v n d w h.1 h.2) o

/-- `formatInstruction` (/repo/commands/test.go:179-207), as it is written. -/
theorem C96_formatInstruction (x : TgX) (v : Value) (w : TgW) (o : TgOut) :
    TgEnds x .formatInstruction [.val v] w o ↔ o = .ret [.str (formatValue v)] w :=
  tgEnds_iff ((Eventually.at_ge v.parts).imp fun n d h => fmtInstruction_tg x v n d w h.1 h.2) o

/-- The function that `createTraceCallback` returns (/repo/commands/test.go:169-176), as it is written. -/
theorem C96_callback (x : TgX) (ev : TraceEvent) (w : TgW) (o : TgOut) :
    TgEnds x .traceHook [.event ev] w o ↔ o = .ret [] (w.say (tracePrint ev)) :=
  tgEnds_iff ((Eventually.at_ge ev.1.parts).down fun n d h => traceHook_tg x ev n d w h.1 h.2) o

/-- `ParseTestCase` (/repo/edlisp/testing/testing.go:53-83), as it is written: a test case just when the content is a test file. -/
theorem C96_parseTestCase (x : TgX) (s : Bytes) (w : TgW) (t : TestCase) :
    TgEnds x .parseTestCase [.file (.ok s)] w (.ret [.test t, .nil] w) ↔ TestFile x.xml s t := by
  rw [← C77_exact]
  have h : TgEnds x .parseTestCase [.file (.ok s)] w (.ret (caseOr (b! "parsing test case: " ++ x.xmlError (b! "<testcase>" ++ s ++ b! "</testcase>")) (parseTestCase x.xml s)) w) :=
    (Eventually.of fun _ _ => trivial).down (P := fun _ _ => True) fun n d _ => parseCase_or x n d s w
  rw [tgEnds_iff h]
  generalize b! "parsing test case: " ++ x.xmlError (b! "<testcase>" ++ s ++ b! "</testcase>") = m
  generalize parseTestCase x.xml s = c
  cases c <;> simp [eq_comm, caseOr]

/-- `ParseTestFile` (/repo/edlisp/testing/testing.go:85-94), as it is written. -/
theorem C96_parseTestFile (x : TgX) (file : Bytes) (w : TgW) (o : TgOut) :
    TgEnds x .parseTestFile [.str file] w o ↔ o = .ret (loaded (x.load file)) w :=
  tgEnds_iff (((Eventually.of fun _ _ => trivial).down (P := fun _ _ => True) (Q := fun _ d => ∃ e, d = e + 1) (fun _ d _ => ⟨d, rfl⟩)).down
      fun n d h => by obtain ⟨d, rfl⟩ := h; exact parseFile_tg x file n d w) o

/-- `RunTest` (/repo/edlisp/testing/testing.go:97-99), as it is written. -/
theorem C96_runTest (x : TgX) (env : Env) (t : TestCase) (w : TgW) (o : TgOut) :
    TgEnds x .runTest [.test t, .env env] w o ↔ o = testOut w (runTest env t) := by
  refine tgEnds_iff ((runTest_tg x env t).down fun n d h => ?_) o
  rw [tgRun_succ _ _ _ _ _ _ _ rfl]
  simp only [TgFn.body, tgRunTest]
  cases hr : runTest env t with
  | none => rw [hr] at h; tg [h, testOut]
  | some r => rw [hr] at h; tg [h, testOut]

/-- `RunTestWithTrace` (/repo/edlisp/testing/testing.go:102-210) with the callback of the command, as it is written. -/
theorem C96_runTestWithTrace (x : TgX) (env : Env) (t : TestCase) (w : TgW) (o : TgOut) :
    TgEnds x .runTestWithTrace [.test t, .env env, .hook] w o ↔
      o = testOut (w.say ((runTestWithTrace env t).2.flatMap tracePrint)) (runTestWithTrace env t).1 :=
  tgEnds_iff ((runTest_trace_tg x env t).imp fun _ _ h => h w) o

/-- `RunTestFile` (/repo/edlisp/testing/testing.go:213-215), as it is written. -/
theorem C96_runTestFile (x : TgX) (env : Env) (file : Bytes) (w : TgW) (o : TgOut) :
    TgEnds x .runTestFile [.str file, .env env] w o ↔ o = testOut w (runTestFile env x.load false file).1 :=
  tgEnds_iff ((runTestFile_plain_tg x env file).imp fun _ _ h => h w) o

/-- `RunTestFileWithTrace` (/repo/edlisp/testing/testing.go:218-230), as it is written. -/
theorem C96_runTestFileWithTrace (x : TgX) (env : Env) (trace : Bool) (file : Bytes) (w : TgW) (o : TgOut) :
    TgEnds x .runTestFileWithTrace [.str file, .env env, hookOf trace] w o ↔
      o = testOut (w.say ((runTestFile env x.load trace file).2.flatMap tracePrint)) (runTestFile env x.load trace file).1 :=
  tgEnds_iff ((runTestFile_tg x env trace file).imp fun _ _ h => h w) o

/-- `printTestResult` (/repo/commands/test.go:144-166), as it is written. -/
theorem C96_printTestResult (x : TgX) (r : TestResult) (verbose : Bool) (w : TgW) (o : TgOut) :
    TgEnds x .printTestResult [.result r, .bool verbose] w o ↔ o = .ret [] (w.say (printTestResult r verbose)) :=
  tgEnds_iff ((Eventually.of fun _ _ => trivial).down (P := fun _ _ => True) fun n d _ => printResult_tg x r verbose n d w) o

/-- The command `texted test` (/repo/commands/test.go:63-141), as it is written: what it prints and its exit status are those of the model. -/
theorem C96_runTests (x : TgX) (a : TestArgs) (w : TgW) (o : TgOut) :
    TgEnds x .runTests (testCall a) w o ↔ o = testsOut w (runTests x.load (globTests x.names) a) :=
  tgEnds_iff ((runTests_tg x a).imp fun _ _ h => h w) o

/-- **C96.** A test that the Go text runs passes just when what it expects is what happens, and running it prints nothing. -/
theorem C96_verdict (x : TgX) (env : Env) (t : TestCase) (w : TgW) (r : TestResult) (w' : TgW)
    (h : TgEnds x .runTest [.test t, .env env] w (.ret [.result r] w')) : (r.passed = true ↔ Met env t) ∧ (r.passed = true ↔ r.error = none) ∧ w' = w := by
  rw [C96_runTest] at h
  cases hr : runTest env t with
  | none => rw [hr] at h; exact nomatch h
  | some r' =>
    rw [hr] at h
    injection h with h hw
    injection h with h
    injection h with h
    subst h
    exact ⟨C56_verdict env t r hr, C56_failure_explained env t r hr, hw⟩

/-- **C96.** A test reaches a verdict in the Go text unless its program crashes. -/
theorem C96_reaches_a_verdict (x : TgX) (env : Env) (t : TestCase) (he : ∀ p, TestProgram t p → (eval env p (newBuffer t.buffer)).1 ≠ .panic) (w : TgW) :
    ∃ r, TgEnds x .runTest [.test t, .env env] w (.ret [.result r] w) := by
  obtain ⟨r, hr⟩ := C56_reaches_a_verdict env t he
  exact ⟨r, (C96_runTest x env t w _).2 (by rw [hr]; rfl)⟩

/-- **C96.** Tracing does not change the verdict of the Go text. -/
theorem C96_tracing (x : TgX) (env : Env) (t : TestCase) (w : TgW) (r : TestResult) :
    TgEnds x .runTest [.test t, .env env] w (.ret [.result r] w) ↔ ∃ s, TgEnds x .runTestWithTrace [.test t, .env env, .hook] w (.ret [.result r] (w.say s)) := by
  rw [C96_runTest]
  constructor
  · intro h
    refine ⟨(runTestWithTrace env t).2.flatMap tracePrint, (C96_runTestWithTrace x env t w _).2 ?_⟩
    · rw [C56_tracing]
      cases hr : runTest env t with
      | none => rw [hr] at h; exact nomatch h
      | some r' =>
        rw [hr] at h
        injection h with h _
        rw [h]; rfl
  · rintro ⟨s, h⟩
    rw [C96_runTestWithTrace, C56_tracing] at h
    cases hr : runTest env t with
    | none => rw [hr] at h; exact nomatch h
    | some r' =>
      rw [hr] at h
      injection h with h _
      rw [h]; rfl

/-- **C96.** How the Go text of `texted test` ends, for patterns that are regular expressions: it returns (status 0) just when all the files that
it was to test pass, it exits with status 1 just when one of them does not, or a test has crashed. It never goes on for ever. -/
theorem C96_exit_status (x : TgX) (a : TestArgs) (w : TgW) (hv : ∀ p ∈ a.includePatterns, ∃ re, Ext.compile p = .ok re) :
    (∃ s, TgEnds x .runTests (testCall a) w (.ret [] (w.say s)) ∧ ∀ f ∈ Selected (globTests x.names) a, FilePasses x.load f) ∨
    (∃ s, TgEnds x .runTests (testCall a) w (.exit 1 (w.say s)) ∧ ∃ f ∈ Selected (globTests x.names) a, ¬ FilePasses x.load f) ∨
    TgEnds x .runTests (testCall a) w .panic := by
  have h := (C96_runTests x a w _).2 rfl
  cases hr : runTests x.load (globTests x.names) a with
  | none => rw [hr] at h; exact .inr (.inr h)
  | some q =>
    obtain ⟨out, code⟩ := q
    rw [hr] at h
    rcases C64_exit_status x.load (globTests x.names) a hv out code hr with ⟨rfl, hp⟩ | ⟨rfl, hp⟩
    · exact .inl ⟨out, h, hp⟩
    · exact .inr (.inl ⟨out, h, hp⟩)

/-- **C96.** Verbose mode, quiet mode, failures only and tracing do not change how the Go text of `texted test` ends: it returns, exits or crashes
as it does without them. -/
theorem C96_flags (x : TgX) (a : TestArgs) (verbose quiet failOnly trace : Bool) (w : TgW) :
    (∃ s, TgEnds x .runTests (testCall { a with verbose, quiet, failOnly, trace }) w (.ret [] (w.say s))) ↔
      ∃ s, TgEnds x .runTests (testCall a) w (.ret [] (w.say s)) := by
  have key : ∀ b : TestArgs, (∃ s, TgEnds x .runTests (testCall b) w (.ret [] (w.say s))) ↔ (runTests x.load (globTests x.names) b).map (·.2) = some 0 := by
    intro b
    simp only [C96_runTests]
    cases hr : runTests x.load (globTests x.names) b with
    | none => exact ⟨fun ⟨_, h⟩ => (nomatch h), fun h => (nomatch h)⟩
    | some q =>
      obtain ⟨out, code⟩ := q
      cases code with
      | zero => exact ⟨fun _ => rfl, fun _ => ⟨out, rfl⟩⟩
      | succ c => exact ⟨fun ⟨_, h⟩ => (nomatch h), fun h => (nomatch h)⟩
  rw [key, key, C64_flags_only_affect_output]

/-- **C96.** Without files to test, the Go text says so and returns. -/
theorem C96_no_files (x : TgX) (a : TestArgs) (w : TgW) (hv : ∀ p ∈ a.includePatterns, ∃ re, Ext.compile p = .ok re)
    (h : Selected (globTests x.names) a = []) : TgEnds x .runTests (testCall a) w (.ret [] (w.say (b! "No test files found\n"))) := by
  rw [C96_runTests, C64_no_files x.load (globTests x.names) a hv h]
  rfl

/-! ### Concrete cases -/

/-- A directory `tests` with one test that passes, one that fails and one file that is no test. -/
def threeTests : TgX where
  xml := plainXml
  xmlError _ := b! "XML syntax error"
  read f :=
    if f = b! "tests/a.xml" then .content (b! "<buffer>ab</buffer><input>insert \"x\"</input><output>xab</output>")
    else if f = b! "tests/b.xml" then .content (b! "<buffer>ab</buffer><input>point</input><result>2</result>")
    else .cannotOpen (b! "no such file")
  names := [b! "b.xml", b! "notes.txt", b! "a.xml"]
  title := ⟨fun _ => false, fun c => c⟩
  order _ n := List.range n

/-- The exit status and what has been printed. -/
def shownEnd : TgOut → Option (Int × Bytes)
  | .ret [] w => some (0, w.out)
  | .exit c w => some (c, w.out)
  | _ => none

/-- `texted test` on the Go text: the two tests in order, a reason, the summary, exit status 1. -/
example : shownEnd (@tgRun litExt threeTests 20 20 .runTests (testCall {}) ⟨[], [], 0⟩) =
    some (1, b! "[PASS] a.xml\n[FAIL] b.xml\n  Error: result mismatch:\nexpected: \"2\"\nactual: \"1\"\n\nTests: 1 passed, 1 failed, 2 total\n") := by
  decide +kernel

/-- `texted test --trace --quiet tests/a.xml tests/c.xml` on the Go text. -/
example : shownEnd (@tgRun litExt threeTests 20 20 .runTests (testCall { testFiles := [b! "tests/a.xml"], trace := true, quiet := true }) ⟨[], [], 0⟩) =
    some (0, b! "TRACE: Executed instruction: (insert \"x\")\n  Buffer content: \"xab\"\n  Point: 2, Mark: 1\n\n\nTests: 1 passed, 0 failed, 1 total\n") := by
  decide +kernel

/-- The hypothesis of `C96_verdict` is met: the test in `tests/a.xml` passes in the Go text. -/
example : letI := litExt
    ∃ r, TgEnds threeTests .runTest [.test { buffer := b! "ab", input := b! "insert \"x\"", output := b! "xab" }, .env defaultEnv] ⟨[], [], 0⟩ (.ret [.result r] ⟨[], [], 0⟩) ∧
      r.passed = true := by
  letI := litExt
  have h : runTest defaultEnv { buffer := b! "ab", input := b! "insert \"x\"", output := b! "xab" } = some { passed := true } := by decide +kernel
  exact ⟨_, (C96_runTest threeTests defaultEnv _ _ _).2 (by rw [h]; rfl), rfl⟩

/-- The second alternative of `C96_exit_status` is met: `texted test` exits with status 1. -/
example : letI := litExt
    ∃ s, TgEnds threeTests .runTests (testCall {}) ⟨[], [], 0⟩ (.exit 1 (TgW.say ⟨[], [], 0⟩ s)) := by
  letI := litExt
  have h : (runTests threeTests.load (globTests threeTests.names) {}).map (·.2) = some 1 := by decide +kernel
  cases hr : runTests threeTests.load (globTests threeTests.names) {} with
  | none => rw [hr] at h; exact nomatch h
  | some q =>
    rw [hr] at h
    obtain ⟨out, code⟩ := q
    have h : some code = some 1 := h
    injection h with h
    subst h
    exact ⟨out, (C96_runTests threeTests {} _ _).2 (by rw [hr]; rfl)⟩

end Texted
