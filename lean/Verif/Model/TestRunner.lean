import Verif.Model.Script
/-
The test runner: /repo/edlisp/testing/testing.go, and the command `texted test`: /repo/commands/test.go.
Here a file is what `ParseTestFile` (testing.go:53-94) returns for it; how that reads the XML is in Model/Xml.lean.
-/
namespace Texted

/-- /repo/edlisp/testing/testing.go:16-41 `TestCase` (`Input.Lang` and `Error.Lang` are never read). -/
structure TestCase where
  buffer : Bytes := []
  input : Bytes := []
  output : Bytes := []
  result : Bytes := []
  resultLang : Bytes := []
  error : Bytes := []
  deriving DecidableEq

/-- /repo/edlisp/testing/testing.go:44-50 `TestResult`; an error is its text. -/
structure TestResult where
  name : Bytes := b! "unknown"
  passed : Bool := false
  error : Option Bytes := none
  expected : Bytes := []
  actual : Bytes := []
  deriving DecidableEq

/-- `strings.Trim(s, "()")`. -/
def trimParens (s : Bytes) : Bytes :=
  let paren := fun c : UInt8 => c = 40 || c = 41
  ((s.dropWhile paren).reverse.dropWhile paren).reverse

/-- /repo/edlisp/parser/linebased.go:88-100 `ParseFormat`. -/
def parseFormat (format input : Bytes) : Res Bytes (List Value) :=
  if format = b! "sexp" ∨ format = [] then parseSexp input
  else if format = b! "shell" then parseString input
  else if format = b! "json" then Res.ofExcept (parseJsonString input)
  else parseSexp input

mutual
/-- /repo/edlisp/testing/testing.go:233-262 `formatValue` and /repo/commands/test.go:179-207 `formatInstruction` (the same code). -/
def formatValue [Ext] : Value → Bytes
  | .str s => [34] ++ s ++ [34]
  | .num x => if F64.goEq x (F64.ofInt x.toInt) then intDec x.toInt else fmtG x
  | .sym n => n
  | .list l => b! "(" ++ joinWith b! " " (formatValues l) ++ b! ")"
@[inherit_doc formatValue]
def formatValues [Ext] : List Value → List Bytes
  | [] => []
  | v :: vs => formatValue v :: formatValues vs
end

/-- A test that failed for this reason. -/
def failed (e : Bytes) : TestResult := { error := some e }

/-- /repo/edlisp/testing/testing.go:171-206: compare the value with the expected one (`expectedResult` is not empty). -/
def checkResult [Ext] (t : TestCase) (v : Value) : Option TestResult :=
  let lang := if t.resultLang = [] then b! "sexp" else t.resultLang
  match parseFormat lang (trimSpace t.result) with
  | .panic => none
  | .err e => some (failed (b! "parsing expected result with format " ++ lang ++ b! ": " ++ e))
  | .ok [] => some { error := some (b! "result mismatch:\nexpected: " ++ quote b! "nil" ++ b! "\nactual: " ++ quote (formatValue v)),
                     expected := b! "nil", actual := formatValue v }
  | .ok [w] =>
    if goEqual w v then some { passed := true }
    else some { error := some (b! "result mismatch:\nexpected: " ++ quote (formatValue w) ++ b! "\nactual: " ++ quote (formatValue v)),
                expected := formatValue w, actual := formatValue v }
  | .ok ws => some (failed (b! "expected result should contain exactly one expression, got " ++ natDec ws.length))

/-- /repo/edlisp/testing/testing.go:127-209: what is checked after the program has run. `none` is a crash. -/
def checkTest [Ext] (t : TestCase) (run : Res ExecutionError Value × Buffer) : Option TestResult :=
  let expectedError := trimSpace t.error
  match run with
  | (.panic, _) => none
  | (.err e, _) =>
    if expectedError ≠ [] then
      if containsSub e.message (trimParens expectedError) then some { passed := true }
      else some (failed (b! "expected error containing " ++ quote expectedError ++ b! " but got " ++ quote e.message))
    else some (failed (b! "unexpected error: " ++ e.message))
  | (.ok v, b) =>
    if expectedError ≠ [] then some (failed (b! "expected error " ++ quote expectedError ++ b! " but got none"))
    else
      let hasResult := trimSpace t.result ≠ []
      if t.output = [] ∧ ¬ hasResult then some (failed b! "test case must specify at least one of <output> or <result> elements")
      else if t.output ≠ [] ∧ t.output ≠ b.content then
        some { error := some (b! "output mismatch:\nexpected: " ++ quote t.output ++ b! "\nactual: " ++ quote b.content),
               expected := t.output, actual := b.content }
      else if hasResult then checkResult t v
      else some { passed := true }

/-- /repo/edlisp/testing/testing.go:113-122: the program of a test. -/
def testProgram (t : TestCase) : Res Bytes (List Value) :=
  if trimSpace t.input = [] then .ok [] else parseString (trimSpace t.input)

/-- /repo/edlisp/testing/testing.go:97-99 `RunTest` (`RunTestWithTrace` without a callback). `none` is a crash. -/
def runTest [Ext] (env : Env) (t : TestCase) : Option TestResult :=
  match testProgram t with
  | .panic => none
  | .err e => some (failed (b! "parsing input: " ++ e))
  | .ok program => checkTest t (eval env program (newBuffer t.buffer))

/-- /repo/edlisp/testing/testing.go:102-210 `RunTestWithTrace` with a callback: the verdict, and the calls of the callback. -/
def runTestWithTrace [Ext] (env : Env) (t : TestCase) : Option TestResult × List TraceEvent :=
  match testProgram t with
  | .panic => (none, [])
  | .err e => (some (failed (b! "parsing input: " ++ e)), [])
  | .ok program =>
    let r := evalWithTrace env program (newBuffer t.buffer)
    (checkTest t (r.1, r.2.1), r.2.2)

/-- `filepath.Base` on Unix. -/
def pathBase (p : Bytes) : Bytes :=
  if p = [] then b! "."
  else
    let q := (p.reverse.dropWhile (· = 47)).takeWhile (· ≠ 47)
    if q = [] then b! "/" else q.reverse

/-- /repo/edlisp/testing/testing.go:213-230 `RunTestFile`, `RunTestFileWithTrace`; `load` is `ParseTestFile`. -/
def runTestFile [Ext] (env : Env) (load : Bytes → Except Bytes TestCase) (trace : Bool) (file : Bytes) : Option TestResult × List TraceEvent :=
  match load file with
  | .error e => (some { name := pathBase file, error := some e }, [])
  | .ok t =>
    let r := if trace then runTestWithTrace env t else (runTest env t, [])
    (r.1.map fun x => { x with name := pathBase file }, r.2)

/-- /repo/commands/test.go:144-166 `printTestResult`. -/
def printTestResult [Ext] (r : TestResult) (verbose : Bool) : Bytes :=
  b! "[" ++ (if r.passed then b! "PASS" else b! "FAIL") ++ b! "] " ++ r.name ++ b! "\n" ++
  match r.error with
  | some e => b! "  Error: " ++ e ++ b! "\n"
  | none =>
    let shown := b! "  Expected: " ++ quote r.expected ++ b! "\n" ++ b! "  Actual:   " ++ quote r.actual ++ b! "\n"
    if !r.passed || verbose then
      if verbose && r.expected ≠ [] && r.actual ≠ [] then shown
      else if !r.passed then shown
      else []
    else []

/-- /repo/commands/test.go:169-176 `createTraceCallback`: what one call prints. -/
def tracePrint [Ext] (ev : TraceEvent) : Bytes :=
  b! "TRACE: Executed instruction: " ++ formatValue ev.1 ++ b! "\n" ++ b! "  Buffer content: " ++ quote ev.2.content ++ b! "\n" ++
  b! "  Point: " ++ intDec ev.2.point ++ b! ", Mark: " ++ intDec ev.2.mark ++ b! "\n" ++ b! "\n"

/-- /repo/commands/test.go:17-24 `runTestsArgs`. -/
structure TestArgs where
  testFiles : List Bytes := []
  includePatterns : List Bytes := []
  verbose : Bool := false
  quiet : Bool := false
  failOnly : Bool := false
  trace : Bool := false

/-- /repo/commands/test.go:83-93: does the base name match one of the patterns? The patterns are tried in order up to the first match;
one that does not compile stops the command with its message. -/
def matchesAny [Ext] (base : Bytes) : List Bytes → Except Bytes Bool
  | [] => .ok false
  | p :: ps =>
    match Ext.compile p with
    | .error e => .error (b! "Error: invalid pattern " ++ p ++ b! ": " ++ e ++ b! "\n")
    | .ok re => if (re.find base).isSome then .ok true else matchesAny base ps

/-- /repo/commands/test.go:79-96: the files that match. -/
def filterFiles [Ext] (patterns : List Bytes) : List Bytes → Except Bytes (List Bytes)
  | [] => .ok []
  | f :: fs =>
    match matchesAny (pathBase f) patterns with
    | .error e => .error e
    | .ok m =>
      match filterFiles patterns fs with
      | .error e => .error e
      | .ok rest => .ok (if m then f :: rest else rest)

/-- /repo/commands/test.go:106-123: run the tests one after the other; the verdicts and what the traces print. `none` is a crash. -/
def runFiles [Ext] (load : Bytes → Except Bytes TestCase) (trace : Bool) : List Bytes → Option (List TestResult × Bytes)
  | [] => some ([], [])
  | f :: fs =>
    match runTestFile defaultEnv load trace f with
    | (none, _) => none
    | (some r, evs) =>
      match runFiles load trace fs with
      | none => none
      | some (rs, out) => some (r :: rs, evs.flatMap tracePrint ++ out)

/-- /repo/commands/test.go:135-140: the summary. -/
def testSummary (results : List TestResult) : Bytes :=
  let total := results.length
  let passed := (results.filter (·.passed)).length
  b! "\nTests: " ++ natDec passed ++ b! " passed, " ++ natDec (total - passed) ++ b! " failed, " ++ natDec total ++ b! " total\n"

/-- /repo/commands/test.go:63-141 `runTests`: what is printed and the exit status; `none` is a crash. `glob` is what
`filepath.Glob("tests/*.xml")` finds (`globTests` in Model/Xml; its pattern is well formed, so lines 69-72 are unreachable). -/
def runTests [Ext] (load : Bytes → Except Bytes TestCase) (glob : List Bytes) (a : TestArgs) : Option (Bytes × Nat) :=
  let files := if a.testFiles = [] then glob else a.testFiles
  match (if a.includePatterns = [] then .ok files else filterFiles a.includePatterns files) with
  | .error e => some (e, 1)
  | .ok [] => some (b! "No test files found\n", 0)
  | .ok files =>
    match runFiles load a.trace files with
    | none => none
    | some (results, traces) =>
      let shown := if a.quiet then [] else results.flatMap fun r => if a.failOnly && r.passed then [] else printTestResult r a.verbose
      some (traces ++ shown ++ testSummary results, if (results.filter (·.passed)).length < results.length then 1 else 0)

end Texted
