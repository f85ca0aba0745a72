import Verif.Model.Tg
/- GENERATED by tools/go2tg.py from /repo: functions as they are written in Go. Do not edit. -/
namespace Texted

/-- /repo/edlisp/testing/testing.go:53-83 `ParseTestCase` -/
def tgParseTestCase : TgS :=
  (.seq (.readAll [.content, .err] (.var .r)) <|
  .seq (.if_ (.bin .ne (.var .err) .nil)
    (.ret (.cons .nil (.cons (.call .errorf (.cons (.str (b! "reading test case: ")) (.cons (.var .err) .nil))) .nil)))
    .skip) <|
  .seq (.set .wrappedXML (.bin .add (.bin .add (.str (b! "<testcase>")) (.var .content)) (.str (b! "</testcase>")))) <|
  .seq (.unmarshal .wrapper .err (.var .wrappedXML)) <|
  .seq (.if_ (.bin .ne (.var .err) .nil)
    (.ret (.cons .nil (.cons (.call .errorf (.cons (.str (b! "parsing test case: ")) (.cons (.var .err) .nil))) .nil)))
    .skip) <|
  (.ret (.cons (.call .newTestCase (.cons (.call (.field .buffer) (.cons (.var .wrapper) .nil)) (.cons (.call (.field .input) (.cons (.var .wrapper) .nil)) (.cons (.call (.field .output) (.cons (.var .wrapper) .nil)) (.cons (.call (.field .result) (.cons (.var .wrapper) .nil)) (.cons (.call (.field .error) (.cons (.var .wrapper) .nil)) .nil)))))) (.cons .nil .nil))))

/-- /repo/edlisp/testing/testing.go:86-94 `ParseTestFile` -/
def tgParseTestFile : TgS :=
  (.seq (.openFile [.file, .err] (.var .filename)) <|
  .seq (.if_ (.bin .ne (.var .err) .nil)
    (.ret (.cons .nil (.cons (.call .errorf (.cons (.str (b! "opening test file ")) (.cons (.var .filename) (.cons (.str (b! ": ")) (.cons (.var .err) .nil))))) .nil)))
    .skip) <|
  .seq (.callFn [.tmp1, .tmp2] .parseTestCase (.cons (.var .file) .nil)) <|
  (.ret (.cons (.var .tmp1) (.cons (.var .tmp2) .nil))))

/-- /repo/edlisp/testing/testing.go:97-99 `RunTest` -/
def tgRunTest : TgS :=
  (.seq (.callFn [.tmp1] .runTestWithTrace (.cons (.var .testCase) (.cons (.var .env) (.cons .nil .nil)))) <|
  (.ret (.cons (.var .tmp1) .nil)))

/-- /repo/edlisp/testing/testing.go:102-210 `RunTestWithTrace` -/
def tgRunTestWithTrace : TgS :=
  (.seq (.set .name (.call .pathBase (.cons (.str (b! "unknown")) .nil))) <|
  .seq (.set .result (.call .newTestResult (.cons (.var .name) (.cons (.bool false) (.cons .nil (.cons (.str []) (.cons (.str []) .nil))))))) <|
  .seq (.set .buffer (.call .newBuffer (.cons (.call (.field .buffer) (.cons (.var .testCase) .nil)) .nil))) <|
  .seq (.set .program .noVals) <|
  .seq (.set .err .nil) <|
  .seq (.set .input (.call .trimSpace (.cons (.call (.field .inputText) (.cons (.var .testCase) .nil)) .nil))) <|
  .seq (.if_ (.bin .eq (.var .input) (.str (b! "")))
    (.set .program .noVals)
    (.seq (.setMany [.program, .err] (.call .parseString (.cons (.var .input) .nil))) <|
    (.if_ (.bin .ne (.var .err) .nil)
      (.seq (.setField .result .error (.call .errorf (.cons (.str (b! "parsing input: ")) (.cons (.var .err) .nil)))) <|
      (.ret (.cons (.var .result) .nil)))
      .skip))) <|
  .seq (.evalTrace .evalResult .evalErr (.var .program) (.var .env) .buffer (.var .traceCallback)) <|
  .seq (.set .expectedError (.call .trimSpace (.cons (.call (.field .errorText) (.cons (.var .testCase) .nil)) .nil))) <|
  .seq (.if_ (.bin .ne (.var .expectedError) (.str (b! "")))
    (.seq (.if_ (.bin .eq (.var .evalErr) .nil)
      (.seq (.setField .result .error (.call .errorf (.cons (.str (b! "expected error ")) (.cons (.call .quote (.cons (.var .expectedError) .nil)) (.cons (.str (b! " but got none")) .nil))))) <|
      (.ret (.cons (.var .result) .nil)))
      .skip) <|
    .seq (.if_ (.not (.call .contains (.cons (.call .errorText (.cons (.var .evalErr) .nil)) (.cons (.call .trim (.cons (.var .expectedError) (.cons (.str (b! "()")) .nil))) .nil))))
      (.seq (.setField .result .error (.call .errorf (.cons (.str (b! "expected error containing ")) (.cons (.call .quote (.cons (.var .expectedError) .nil)) (.cons (.str (b! " but got ")) (.cons (.call .quote (.cons (.call .errorText (.cons (.var .evalErr) .nil)) .nil)) .nil)))))) <|
      (.ret (.cons (.var .result) .nil)))
      .skip) <|
    .seq (.setField .result .passed (.bool true)) <|
    (.ret (.cons (.var .result) .nil)))
    .skip) <|
  .seq (.if_ (.bin .ne (.var .evalErr) .nil)
    (.seq (.setField .result .error (.call .errorf (.cons (.str (b! "unexpected error: ")) (.cons (.var .evalErr) .nil)))) <|
    (.ret (.cons (.var .result) .nil)))
    .skip) <|
  .seq (.set .hasOutputExpectation (.bin .ne (.call (.field .output) (.cons (.var .testCase) .nil)) (.str (b! "")))) <|
  .seq (.set .expectedResult (.call .trimSpace (.cons (.call (.field .resultText) (.cons (.var .testCase) .nil)) .nil))) <|
  .seq (.set .hasResultExpectation (.bin .ne (.var .expectedResult) (.str (b! "")))) <|
  .seq (.if_ (.bin .and (.not (.var .hasOutputExpectation)) (.not (.var .hasResultExpectation)))
    (.seq (.setField .result .error (.call .errorf (.cons (.str (b! "test case must specify at least one of <output> or <result> elements")) .nil))) <|
    (.ret (.cons (.var .result) .nil)))
    .skip) <|
  .seq (.if_ (.var .hasOutputExpectation)
    (.seq (.set .expected (.call (.field .output) (.cons (.var .testCase) .nil))) <|
    .seq (.set .actual (.call .bufferString (.cons (.var .buffer) .nil))) <|
    (.if_ (.bin .ne (.var .expected) (.var .actual))
      (.seq (.setField .result .expected (.var .expected)) <|
      .seq (.setField .result .actual (.var .actual)) <|
      .seq (.setField .result .error (.call .errorf (.cons (.str (b! "output mismatch:\nexpected: ")) (.cons (.call .quote (.cons (.var .expected) .nil)) (.cons (.str (b! "\nactual: ")) (.cons (.call .quote (.cons (.var .actual) .nil)) .nil)))))) <|
      (.ret (.cons (.var .result) .nil)))
      .skip))
    .skip) <|
  .seq (.if_ (.bin .ne (.var .expectedResult) (.str (b! "")))
    (.seq (.set .expectedValues .noVals) <|
    .seq (.set .err2 .nil) <|
    .seq (.set .lang (.call (.field .resultLang) (.cons (.var .testCase) .nil))) <|
    .seq (.if_ (.bin .eq (.var .lang) (.str (b! "")))
      (.set .lang (.str (b! "sexp")))
      .skip) <|
    .seq (.setMany [.expectedValues, .err2] (.call .parseFormat (.cons (.var .lang) (.cons (.var .expectedResult) .nil)))) <|
    .seq (.if_ (.bin .ne (.var .err2) .nil)
      (.seq (.setField .result .error (.call .errorf (.cons (.str (b! "parsing expected result with format ")) (.cons (.var .lang) (.cons (.str (b! ": ")) (.cons (.var .err2) .nil)))))) <|
      (.ret (.cons (.var .result) .nil)))
      .skip) <|
    .seq (.set .expectedValue .nil) <|
    .seq (.if_ (.bin .eq (.call .len (.cons (.var .expectedValues) .nil)) (.int 0))
      (.set .expectedValue .nil)
      (.if_ (.bin .eq (.call .len (.cons (.var .expectedValues) .nil)) (.int 1))
        (.set .expectedValue (.call .index (.cons (.var .expectedValues) (.cons (.int 0) .nil))))
        (.seq (.setField .result .error (.call .errorf (.cons (.str (b! "expected result should contain exactly one expression, got ")) (.cons (.call .decimal (.cons (.call .len (.cons (.var .expectedValues) .nil)) .nil)) .nil)))) <|
        (.ret (.cons (.var .result) .nil))))) <|
    (.if_ (.not (.call .equal (.cons (.var .expectedValue) (.cons (.var .evalResult) .nil))))
      (.seq (.callFn [.tmp1] .formatValue (.cons (.var .expectedValue) .nil)) <|
      .seq (.setField .result .expected (.var .tmp1)) <|
      .seq (.callFn [.tmp2] .formatValue (.cons (.var .evalResult) .nil)) <|
      .seq (.setField .result .actual (.var .tmp2)) <|
      .seq (.setField .result .error (.call .errorf (.cons (.str (b! "result mismatch:\nexpected: ")) (.cons (.call .quote (.cons (.call (.field .expected) (.cons (.var .result) .nil)) .nil)) (.cons (.str (b! "\nactual: ")) (.cons (.call .quote (.cons (.call (.field .actual) (.cons (.var .result) .nil)) .nil)) .nil)))))) <|
      (.ret (.cons (.var .result) .nil)))
      .skip))
    .skip) <|
  .seq (.setField .result .passed (.bool true)) <|
  (.ret (.cons (.var .result) .nil)))

/-- /repo/edlisp/testing/testing.go:213-215 `RunTestFile` -/
def tgRunTestFile : TgS :=
  (.seq (.callFn [.tmp1] .runTestFileWithTrace (.cons (.var .filename) (.cons (.var .env) (.cons .nil .nil)))) <|
  (.ret (.cons (.var .tmp1) .nil)))

/-- /repo/edlisp/testing/testing.go:218-230 `RunTestFileWithTrace` -/
def tgRunTestFileWithTrace : TgS :=
  (.seq (.callFn [.testCase, .err] .parseTestFile (.cons (.var .filename) .nil)) <|
  .seq (.if_ (.bin .ne (.var .err) .nil)
    (.ret (.cons (.call .newTestResult (.cons (.call .pathBase (.cons (.var .filename) .nil)) (.cons (.bool false) (.cons (.var .err) (.cons (.str []) (.cons (.str []) .nil)))))) .nil))
    .skip) <|
  .seq (.callFn [.result] .runTestWithTrace (.cons (.var .testCase) (.cons (.var .env) (.cons (.var .traceCallback) .nil)))) <|
  .seq (.setField .result .name (.call .pathBase (.cons (.var .filename) .nil))) <|
  (.ret (.cons (.var .result) .nil)))

/-- /repo/edlisp/testing/testing.go:233-262 `formatValue` -/
def tgFormatValue : TgS :=
  (.seq (.if_ (.bin .eq (.var .value) .nil)
    (.ret (.cons (.str (b! "nil")) .nil))
    .skip) <|
  (.if_ (.call (.isA .string) (.cons (.var .value) .nil))
    (.seq (.set .str (.call (.as .string) (.cons (.var .value) .nil))) <|
      (.ret (.cons (.call .sprintf (.cons (.str (b! "\"")) (.cons (.call (.field .value) (.cons (.var .str) .nil)) (.cons (.str (b! "\"")) .nil)))) .nil)))
    (.if_ (.call (.isA .number) (.cons (.var .value) .nil))
    (.seq (.set .num (.call (.as .number) (.cons (.var .value) .nil))) <|
      .seq (.if_ (.bin .eq (.call (.field .value) (.cons (.var .num) .nil)) (.call .float64 (.cons (.call .int (.cons (.call (.field .value) (.cons (.var .num) .nil)) .nil)) .nil)))
        (.ret (.cons (.call .sprintf (.cons (.call .decimal (.cons (.call .int (.cons (.call (.field .value) (.cons (.var .num) .nil)) .nil)) .nil)) .nil)) .nil))
        .skip) <|
      (.ret (.cons (.call .sprintf (.cons (.call .fmtG (.cons (.call (.field .value) (.cons (.var .num) .nil)) .nil)) .nil)) .nil)))
    (.if_ (.call (.isA .symbol) (.cons (.var .value) .nil))
    (.seq (.set .sym (.call (.as .symbol) (.cons (.var .value) .nil))) <|
      (.ret (.cons (.call (.field .name) (.cons (.var .sym) .nil)) .nil)))
    (.if_ (.call (.isA .list) (.cons (.var .value) .nil))
    (.seq (.set .list (.call (.as .list) (.cons (.var .value) .nil))) <|
      .seq (.set .parts .noStrs) <|
      .seq (.set .i (.int 0)) <|
      .seq (.while (.bin .lt (.var .i) (.call .listLen (.cons (.var .list) .nil))) (.set .i (.bin .add (.var .i) (.int 1)))
        (.seq (.callFn [.tmp1] .formatValue (.cons (.call .listGet (.cons (.var .list) (.cons (.var .i) .nil))) .nil)) <|
        (.set .parts (.call .append (.cons (.var .parts) (.cons (.var .tmp1) .nil)))))) <|
      (.ret (.cons (.call .sprintf (.cons (.str (b! "(")) (.cons (.call .join (.cons (.var .parts) (.cons (.str (b! " ")) .nil))) (.cons (.str (b! ")")) .nil)))) .nil)))
    (.ret (.cons (.call .sprintf (.cons (.call .verb (.cons (.var .value) .nil)) .nil)) .nil)))))))

/-- /repo/commands/test.go:63-141 `runTests` -/
def tgRunTests : TgS :=
  (.seq (.set .filesToTest .noStrs) <|
  .seq (.if_ (.bin .eq (.call .len (.cons (.var .args_testFiles) .nil)) (.int 0))
    (.seq (.setMany [.matches, .err] .glob) <|
    .seq (.if_ (.bin .ne (.var .err) .nil)
      (.seq (.print (.call .sprintf (.cons (.str (b! "Error finding test files: ")) (.cons (.var .err) (.cons (.str (b! "\n")) .nil))))) <|
      (.exit (.int 1)))
      .skip) <|
    (.set .filesToTest (.var .matches)))
    (.set .filesToTest (.var .args_testFiles))) <|
  .seq (.if_ (.bin .gt (.call .len (.cons (.var .args_includePatterns) .nil)) (.int 0))
    (.seq (.set .filtered .noStrs) <|
    .seq (.range .blank .file (.var .filesToTest)
      (.seq (.set .basename (.call .pathBase (.cons (.var .file) .nil))) <|
      (.range .blank .pattern (.var .args_includePatterns)
        (.seq (.setMany [.matched, .err2] (.call .matchString (.cons (.var .pattern) (.cons (.var .basename) .nil)))) <|
        .seq (.if_ (.bin .ne (.var .err2) .nil)
          (.seq (.print (.call .sprintf (.cons (.str (b! "Error: invalid pattern ")) (.cons (.var .pattern) (.cons (.str (b! ": ")) (.cons (.var .err2) (.cons (.str (b! "\n")) .nil))))))) <|
          (.exit (.int 1)))
          .skip) <|
        (.if_ (.var .matched)
          (.seq (.set .filtered (.call .append (.cons (.var .filtered) (.cons (.var .file) .nil)))) <|
          .brk)
          .skip))))) <|
    (.set .filesToTest (.var .filtered)))
    .skip) <|
  .seq (.if_ (.bin .eq (.call .len (.cons (.var .filesToTest) .nil)) (.int 0))
    (.seq (.print (.str (b! "No test files found\n"))) <|
    (.ret .nil))
    .skip) <|
  .seq (.set .env (.call .newEnv .nil)) <|
  .seq (.set .results .noResults) <|
  .seq (.set .totalTests (.int 0)) <|
  .seq (.set .passedTests (.int 0)) <|
  .seq (.range .blank .testFile (.var .filesToTest)
    (.seq (.set .result .nil) <|
    .seq (.if_ (.var .args_trace)
      (.seq (.callFn [.traceCallback] .createTraceCallback .nil) <|
      (.callFn [.result] .runTestFileWithTrace (.cons (.var .testFile) (.cons (.var .env) (.cons (.var .traceCallback) .nil)))))
      (.callFn [.result] .runTestFile (.cons (.var .testFile) (.cons (.var .env) .nil)))) <|
    .seq (.set .results (.call .append (.cons (.var .results) (.cons (.var .result) .nil)))) <|
    .seq (.set .totalTests (.bin .add (.var .totalTests) (.int 1))) <|
    (.if_ (.call (.field .passed) (.cons (.var .result) .nil))
      (.set .passedTests (.bin .add (.var .passedTests) (.int 1)))
      .skip))) <|
  .seq (.if_ (.not (.var .args_quiet))
    (.range .blank .result2 (.var .results)
      (.seq (.if_ (.bin .and (.var .args_failOnly) (.call (.field .passed) (.cons (.var .result2) .nil)))
        .cont
        .skip) <|
      (.callFn [] .printTestResult (.cons (.var .result2) (.cons (.var .args_verbose) .nil)))))
    .skip) <|
  .seq (.print (.call .sprintf (.cons (.str (b! "\nTests: ")) (.cons (.call .decimal (.cons (.var .passedTests) .nil)) (.cons (.str (b! " passed, ")) (.cons (.call .decimal (.cons (.bin .sub (.var .totalTests) (.var .passedTests)) .nil)) (.cons (.str (b! " failed, ")) (.cons (.call .decimal (.cons (.var .totalTests) .nil)) (.cons (.str (b! " total\n")) .nil))))))))) <|
  .seq (.if_ (.bin .lt (.var .passedTests) (.var .totalTests))
    (.exit (.int 1))
    .skip) <|
  (.ret .nil))

/-- /repo/commands/test.go:144-166 `printTestResult` -/
def tgPrintTestResult : TgS :=
  (.seq (.set .status (.str (b! "PASS"))) <|
  .seq (.if_ (.not (.call (.field .passed) (.cons (.var .result) .nil)))
    (.set .status (.str (b! "FAIL")))
    .skip) <|
  .seq (.print (.call .sprintf (.cons (.str (b! "[")) (.cons (.var .status) (.cons (.str (b! "] ")) (.cons (.call (.field .name) (.cons (.var .result) .nil)) (.cons (.str (b! "\n")) .nil))))))) <|
  .seq (.if_ (.bin .ne (.call (.field .error) (.cons (.var .result) .nil)) .nil)
    (.seq (.print (.call .sprintf (.cons (.str (b! "  Error: ")) (.cons (.call (.field .error) (.cons (.var .result) .nil)) (.cons (.str (b! "\n")) .nil))))) <|
    (.ret .nil))
    .skip) <|
  .seq (.if_ (.bin .or (.not (.call (.field .passed) (.cons (.var .result) .nil))) (.var .verbose))
    (.if_ (.bin .and (.bin .and (.var .verbose) (.bin .ne (.call (.field .expected) (.cons (.var .result) .nil)) (.str (b! "")))) (.bin .ne (.call (.field .actual) (.cons (.var .result) .nil)) (.str (b! ""))))
      (.seq (.print (.call .sprintf (.cons (.str (b! "  Expected: ")) (.cons (.call .quote (.cons (.call (.field .expected) (.cons (.var .result) .nil)) .nil)) (.cons (.str (b! "\n")) .nil))))) <|
      (.print (.call .sprintf (.cons (.str (b! "  Actual:   ")) (.cons (.call .quote (.cons (.call (.field .actual) (.cons (.var .result) .nil)) .nil)) (.cons (.str (b! "\n")) .nil))))))
      (.if_ (.not (.call (.field .passed) (.cons (.var .result) .nil)))
        (.seq (.print (.call .sprintf (.cons (.str (b! "  Expected: ")) (.cons (.call .quote (.cons (.call (.field .expected) (.cons (.var .result) .nil)) .nil)) (.cons (.str (b! "\n")) .nil))))) <|
        (.print (.call .sprintf (.cons (.str (b! "  Actual:   ")) (.cons (.call .quote (.cons (.call (.field .actual) (.cons (.var .result) .nil)) .nil)) (.cons (.str (b! "\n")) .nil))))))
        .skip))
    .skip) <|
  (.ret .nil))

/-- /repo/commands/test.go:169-176 `createTraceCallback` -/
def tgCreateTraceCallback : TgS :=
  (.ret (.cons .hook .nil))

/-- /repo/commands/test.go:179-207 `formatInstruction` -/
def tgFormatInstruction : TgS :=
  (.seq (.if_ (.bin .eq (.var .instruction) .nil)
    (.ret (.cons (.str (b! "nil")) .nil))
    .skip) <|
  (.if_ (.call (.isA .string) (.cons (.var .instruction) .nil))
    (.seq (.set .str (.call (.as .string) (.cons (.var .instruction) .nil))) <|
      (.ret (.cons (.call .sprintf (.cons (.str (b! "\"")) (.cons (.call (.field .value) (.cons (.var .str) .nil)) (.cons (.str (b! "\"")) .nil)))) .nil)))
    (.if_ (.call (.isA .number) (.cons (.var .instruction) .nil))
    (.seq (.set .num (.call (.as .number) (.cons (.var .instruction) .nil))) <|
      .seq (.if_ (.bin .eq (.call (.field .value) (.cons (.var .num) .nil)) (.call .float64 (.cons (.call .int (.cons (.call (.field .value) (.cons (.var .num) .nil)) .nil)) .nil)))
        (.ret (.cons (.call .sprintf (.cons (.call .decimal (.cons (.call .int (.cons (.call (.field .value) (.cons (.var .num) .nil)) .nil)) .nil)) .nil)) .nil))
        .skip) <|
      (.ret (.cons (.call .sprintf (.cons (.call .fmtG (.cons (.call (.field .value) (.cons (.var .num) .nil)) .nil)) .nil)) .nil)))
    (.if_ (.call (.isA .symbol) (.cons (.var .instruction) .nil))
    (.seq (.set .sym (.call (.as .symbol) (.cons (.var .instruction) .nil))) <|
      (.ret (.cons (.call (.field .name) (.cons (.var .sym) .nil)) .nil)))
    (.if_ (.call (.isA .list) (.cons (.var .instruction) .nil))
    (.seq (.set .list (.call (.as .list) (.cons (.var .instruction) .nil))) <|
      .seq (.set .parts .noStrs) <|
      .seq (.set .i (.int 0)) <|
      .seq (.while (.bin .lt (.var .i) (.call .listLen (.cons (.var .list) .nil))) (.set .i (.bin .add (.var .i) (.int 1)))
        (.seq (.callFn [.tmp1] .formatInstruction (.cons (.call .listGet (.cons (.var .list) (.cons (.var .i) .nil))) .nil)) <|
        (.set .parts (.call .append (.cons (.var .parts) (.cons (.var .tmp1) .nil)))))) <|
      (.ret (.cons (.call .sprintf (.cons (.str (b! "(")) (.cons (.call .join (.cons (.var .parts) (.cons (.str (b! " ")) .nil))) (.cons (.str (b! ")")) .nil)))) .nil)))
    (.ret (.cons (.call .sprintf (.cons (.call .verb (.cons (.var .instruction) .nil)) .nil)) .nil)))))))

/-- /repo/edlisp/documentation_registry.go:18-22 `RegisterDocumentation` -/
def tgRegisterDocumentation : TgS :=
  (.seq (.register (.call (.field .name) (.cons (.var .doc) .nil)) (.var .doc)) <|
  (.ret .nil))

/-- /repo/edlisp/documentation_registry.go:26-31 `GetDocumentation` -/
def tgGetDocumentation : TgS :=
  (.seq (.setMany [.doc, .exists] (.call .lookup (.cons .registry (.cons (.var .name) .nil)))) <|
  (.ret (.cons (.var .doc) (.cons (.var .exists) .nil))))

/-- /repo/edlisp/documentation_registry.go:35-50 `GetAllDocumentation` -/
def tgGetAllDocumentation : TgS :=
  (.seq (.set .docs .noDocs) <|
  .seq (.rangeMap .blank .doc .registry
    (.set .docs (.call .append (.cons (.var .docs) (.cons (.var .doc) .nil))))) <|
  .seq (.sortDocs .docs .name) <|
  (.ret (.cons (.var .docs) .nil)))

/-- /repo/edlisp/documentation_registry.go:54-71 `GetDocumentationByCategory` -/
def tgGetDocumentationByCategory : TgS :=
  (.seq (.set .docs .noDocs) <|
  .seq (.rangeMap .blank .doc .registry
    (.if_ (.bin .eq (.call (.field .category) (.cons (.var .doc) .nil)) (.var .category))
      (.set .docs (.call .append (.cons (.var .docs) (.cons (.var .doc) .nil))))
      .skip)) <|
  .seq (.sortDocs .docs .name) <|
  (.ret (.cons (.var .docs) .nil)))

/-- /repo/edlisp/documentation_registry.go:75-93 `GetCategories` -/
def tgGetCategories : TgS :=
  (.seq (.set .categorySet .noFlags) <|
  .seq (.rangeMap .blank .doc .registry
    (.if_ (.bin .ne (.call (.field .category) (.cons (.var .doc) .nil)) (.str (b! "")))
      (.setAt .categorySet (.call (.field .category) (.cons (.var .doc) .nil)) (.bool true))
      .skip)) <|
  .seq (.set .categories .noStrs) <|
  .seq (.rangeMap .category .blank (.var .categorySet)
    (.set .categories (.call .append (.cons (.var .categories) (.cons (.var .category) .nil))))) <|
  .seq (.sortStrs .categories) <|
  (.ret (.cons (.var .categories) .nil)))

/-- /repo/edlisp/documentation_registry.go:96-100 `GetRegisteredFunctionCount` -/
def tgGetRegisteredFunctionCount : TgS :=
  (.ret (.cons (.call .len (.cons .registry .nil)) .nil))

/-- /repo/tools/texted_doc.go:36-58 `TextedDocHandler` -/
def tgTextedDocHandler : TgS :=
  (.seq (.set .functionName (.call .getString (.cons (.var .request) (.cons (.str (b! "function_name")) (.cons (.str (b! "")) .nil))))) <|
  .seq (.set .category (.call .getString (.cons (.var .request) (.cons (.str (b! "category")) (.cons (.str (b! "")) .nil))))) <|
  .seq (.set .verbose (.call .getBool (.cons (.var .request) (.cons (.str (b! "verbose")) (.cons (.bool false) .nil))))) <|
  .seq (.if_ (.bin .and (.bin .ne (.var .functionName) (.str (b! ""))) (.bin .ne (.var .category) (.str (b! ""))))
    (.ret (.cons (.call .toolError (.cons (.str (b! "function_name and category parameters are mutually exclusive")) .nil)) (.cons .nil .nil)))
    .skip) <|
  .seq (.if_ (.bin .ne (.var .functionName) (.str (b! "")))
    (.seq (.callFn [.tmp1, .tmp2] .handleFunctionDoc (.cons (.var .functionName) .nil)) <|
    (.ret (.cons (.var .tmp1) (.cons (.var .tmp2) .nil))))
    .skip) <|
  .seq (.if_ (.bin .ne (.var .category) (.str (b! "")))
    (.seq (.callFn [.tmp3, .tmp4] .handleCategoryListing (.cons (.var .category) (.cons (.var .verbose) .nil))) <|
    (.ret (.cons (.var .tmp3) (.cons (.var .tmp4) .nil))))
    .skip) <|
  .seq (.callFn [.tmp5, .tmp6] .handleAllFunctions (.cons (.var .verbose) .nil)) <|
  (.ret (.cons (.var .tmp5) (.cons (.var .tmp6) .nil))))

/-- /repo/tools/texted_doc.go:60-84 `handleFunctionDoc` -/
def tgHandleFunctionDoc : TgS :=
  (.seq (.callFn [.doc, .exists] .getDocumentation (.cons (.var .functionName) .nil)) <|
  .seq (.if_ (.not (.var .exists))
    (.seq (.callFn [.allDocs] .getAllDocumentation .nil) <|
    .seq (.set .suggestions .noStrs) <|
    .seq (.range .blank .d (.var .allDocs)
      (.if_ (.bin .or (.call .contains (.cons (.call (.field .name) (.cons (.var .d) .nil)) (.cons (.var .functionName) .nil))) (.call .contains (.cons (.var .functionName) (.cons (.call (.field .name) (.cons (.var .d) .nil)) .nil))))
        (.seq (.set .suggestions (.call .append (.cons (.var .suggestions) (.cons (.call (.field .name) (.cons (.var .d) .nil)) .nil)))) <|
        (.if_ (.bin .ge (.call .len (.cons (.var .suggestions) .nil)) (.int 3))
          .brk
          .skip))
        .skip)) <|
    .seq (.set .errorMsg (.call .sprintf (.cons (.str (b! "Function '")) (.cons (.var .functionName) (.cons (.str (b! "' not found")) .nil))))) <|
    .seq (.if_ (.bin .gt (.call .len (.cons (.var .suggestions) .nil)) (.int 0))
      (.set .errorMsg (.bin .add (.var .errorMsg) (.call .sprintf (.cons (.str (b! ". Did you mean: ")) (.cons (.call .join (.cons (.var .suggestions) (.cons (.str (b! ", ")) .nil))) .nil)))))
      .skip) <|
    (.ret (.cons (.call .toolError (.cons (.var .errorMsg) .nil)) (.cons .nil .nil))))
    .skip) <|
  .seq (.callFn [.output] .formatFunctionDoc (.cons (.var .doc) .nil)) <|
  (.ret (.cons (.call .toolText (.cons (.var .output) .nil)) (.cons .nil .nil))))

/-- /repo/tools/texted_doc.go:86-100 `handleCategoryListing` -/
def tgHandleCategoryListing : TgS :=
  (.seq (.callFn [.docs] .getDocumentationByCategory (.cons (.var .category) .nil)) <|
  .seq (.if_ (.bin .eq (.call .len (.cons (.var .docs) .nil)) (.int 0))
    (.seq (.callFn [.categories] .getCategories .nil) <|
    .seq (.set .errorMsg (.call .sprintf (.cons (.str (b! "No functions found in category '")) (.cons (.var .category) (.cons (.str (b! "'")) .nil))))) <|
    .seq (.if_ (.bin .gt (.call .len (.cons (.var .categories) .nil)) (.int 0))
      (.set .errorMsg (.bin .add (.var .errorMsg) (.call .sprintf (.cons (.str (b! ". Available categories: ")) (.cons (.call .join (.cons (.var .categories) (.cons (.str (b! ", ")) .nil))) .nil)))))
      .skip) <|
    (.ret (.cons (.call .toolError (.cons (.var .errorMsg) .nil)) (.cons .nil .nil))))
    .skip) <|
  .seq (.callFn [.output] .formatFunctionList (.cons (.var .docs) (.cons (.call .sprintf (.cons (.str (b! "Functions in category '")) (.cons (.var .category) (.cons (.str (b! "'")) .nil)))) (.cons (.var .verbose) .nil)))) <|
  (.ret (.cons (.call .toolText (.cons (.var .output) .nil)) (.cons .nil .nil))))

/-- /repo/tools/texted_doc.go:102-110 `handleAllFunctions` -/
def tgHandleAllFunctions : TgS :=
  (.seq (.callFn [.docs] .getAllDocumentation .nil) <|
  .seq (.if_ (.bin .eq (.call .len (.cons (.var .docs) .nil)) (.int 0))
    (.ret (.cons (.call .toolError (.cons (.str (b! "No functions documented")) .nil)) (.cons .nil .nil)))
    .skip) <|
  .seq (.callFn [.output] .formatFunctionList (.cons (.var .docs) (.cons (.str (b! "All functions")) (.cons (.var .verbose) .nil)))) <|
  (.ret (.cons (.call .toolText (.cons (.var .output) .nil)) (.cons .nil .nil))))

/-- /repo/tools/texted_doc.go:112-165 `formatFunctionDoc` -/
def tgFormatFunctionDoc : TgS :=
  (.seq (.set .output .noText) <|
  .seq (.set .output (.call .writeString (.cons (.var .output) (.cons (.call .sprintf (.cons (.str (b! "# ")) (.cons (.call (.field .name) (.cons (.var .doc) .nil)) (.cons (.str (b! "\n\n")) .nil)))) .nil)))) <|
  .seq (.if_ (.bin .ne (.call (.field .summary) (.cons (.var .doc) .nil)) (.str (b! "")))
    (.set .output (.call .writeString (.cons (.var .output) (.cons (.call .sprintf (.cons (.str (b! "**")) (.cons (.call (.field .summary) (.cons (.var .doc) .nil)) (.cons (.str (b! "**\n\n")) .nil)))) .nil))))
    .skip) <|
  .seq (.if_ (.bin .ne (.call (.field .description) (.cons (.var .doc) .nil)) (.str (b! "")))
    (.set .output (.call .writeString (.cons (.var .output) (.cons (.call .sprintf (.cons (.call (.field .description) (.cons (.var .doc) .nil)) (.cons (.str (b! "\n\n")) .nil))) .nil))))
    .skip) <|
  .seq (.if_ (.bin .gt (.call .len (.cons (.call (.field .parameters) (.cons (.var .doc) .nil)) .nil)) (.int 0))
    (.seq (.set .output (.call .writeString (.cons (.var .output) (.cons (.str (b! "## Parameters\n\n")) .nil)))) <|
    .seq (.range .blank .param (.call (.field .parameters) (.cons (.var .doc) .nil))
      (.seq (.set .output (.call .writeString (.cons (.var .output) (.cons (.call .sprintf (.cons (.str (b! "- **")) (.cons (.call (.field .name) (.cons (.var .param) .nil)) (.cons (.str (b! "** (")) (.cons (.call (.field .type) (.cons (.var .param) .nil)) (.cons (.str (b! ")")) .nil)))))) .nil)))) <|
      .seq (.if_ (.bin .ne (.call (.field .description) (.cons (.var .param) .nil)) (.str (b! "")))
        (.set .output (.call .writeString (.cons (.var .output) (.cons (.call .sprintf (.cons (.str (b! ": ")) (.cons (.call (.field .description) (.cons (.var .param) .nil)) .nil))) .nil))))
        .skip) <|
      (.set .output (.call .writeString (.cons (.var .output) (.cons (.str (b! "\n")) .nil)))))) <|
    (.set .output (.call .writeString (.cons (.var .output) (.cons (.str (b! "\n")) .nil)))))
    .skip) <|
  .seq (.if_ (.bin .gt (.call .len (.cons (.call (.field .examples) (.cons (.var .doc) .nil)) .nil)) (.int 0))
    (.seq (.set .output (.call .writeString (.cons (.var .output) (.cons (.str (b! "## Examples\n\n")) .nil)))) <|
    (.range .blank .«example» (.call (.field .examples) (.cons (.var .doc) .nil))
      (.seq (.if_ (.bin .ne (.call (.field .description) (.cons (.var .«example») .nil)) (.str (b! "")))
        (.set .output (.call .writeString (.cons (.var .output) (.cons (.call .sprintf (.cons (.call (.field .description) (.cons (.var .«example») .nil)) (.cons (.str (b! "\n\n")) .nil))) .nil))))
        .skip) <|
      .seq (.set .output (.call .writeString (.cons (.var .output) (.cons (.str (b! "```\n")) .nil)))) <|
      .seq (.set .output (.call .writeString (.cons (.var .output) (.cons (.call .sprintf (.cons (.call (.field .input) (.cons (.var .«example») .nil)) (.cons (.str (b! "\n")) .nil))) .nil)))) <|
      (.set .output (.call .writeString (.cons (.var .output) (.cons (.str (b! "```\n\n")) .nil)))))))
    .skip) <|
  .seq (.if_ (.bin .ne (.call (.field .category) (.cons (.var .doc) .nil)) (.str (b! "")))
    (.set .output (.call .writeString (.cons (.var .output) (.cons (.call .sprintf (.cons (.str (b! "**Category:** ")) (.cons (.call (.field .category) (.cons (.var .doc) .nil)) (.cons (.str (b! "\n\n")) .nil)))) .nil))))
    .skip) <|
  .seq (.if_ (.bin .gt (.call .len (.cons (.call (.field .seeAlso) (.cons (.var .doc) .nil)) .nil)) (.int 0))
    (.seq (.set .output (.call .writeString (.cons (.var .output) (.cons (.str (b! "**See also:** ")) .nil)))) <|
    .seq (.set .output (.call .writeString (.cons (.var .output) (.cons (.call .join (.cons (.call (.field .seeAlso) (.cons (.var .doc) .nil)) (.cons (.str (b! ", ")) .nil))) .nil)))) <|
    (.set .output (.call .writeString (.cons (.var .output) (.cons (.str (b! "\n")) .nil)))))
    .skip) <|
  (.ret (.cons (.call .trimSpace (.cons (.call .builderString (.cons (.var .output) .nil)) .nil)) .nil)))

/-- /repo/tools/texted_doc.go:167-210 `formatFunctionList` -/
def tgFormatFunctionList : TgS :=
  (.seq (.set .output .noText) <|
  .seq (.set .output (.call .writeString (.cons (.var .output) (.cons (.call .sprintf (.cons (.str (b! "# ")) (.cons (.var .title) (.cons (.str (b! "\n\n")) .nil)))) .nil)))) <|
  .seq (.set .output (.call .writeString (.cons (.var .output) (.cons (.call .sprintf (.cons (.str (b! "Found ")) (.cons (.call .decimal (.cons (.call .len (.cons (.var .docs) .nil)) .nil)) (.cons (.str (b! " function(s):\n\n")) .nil)))) .nil)))) <|
  .seq (.if_ (.var .verbose)
    (.seq (.set .categoryMap .noGroups) <|
    .seq (.range .blank .doc (.var .docs)
      (.seq (.set .category (.call (.field .category) (.cons (.var .doc) .nil))) <|
      .seq (.if_ (.bin .eq (.var .category) (.str (b! "")))
        (.set .category (.str (b! "Uncategorized")))
        .skip) <|
      (.setAt .categoryMap (.var .category) (.call .append (.cons (.call .index (.cons (.var .categoryMap) (.cons (.var .category) .nil))) (.cons (.var .doc) .nil)))))) <|
    .seq (.set .categories .noStrs) <|
    .seq (.rangeMap .category2 .blank (.var .categoryMap)
      (.set .categories (.call .append (.cons (.var .categories) (.cons (.var .category2) .nil))))) <|
    (.range .blank .category3 (.var .categories)
      (.seq (.set .output (.call .writeString (.cons (.var .output) (.cons (.call .sprintf (.cons (.str (b! "## ")) (.cons (.var .category3) (.cons (.str (b! "\n\n")) .nil)))) .nil)))) <|
      .seq (.range .blank .doc2 (.call .index (.cons (.var .categoryMap) (.cons (.var .category3) .nil)))
        (.seq (.set .output (.call .writeString (.cons (.var .output) (.cons (.call .sprintf (.cons (.str (b! "- **")) (.cons (.call (.field .name) (.cons (.var .doc2) .nil)) (.cons (.str (b! "**")) .nil)))) .nil)))) <|
        .seq (.if_ (.bin .ne (.call (.field .summary) (.cons (.var .doc2) .nil)) (.str (b! "")))
          (.set .output (.call .writeString (.cons (.var .output) (.cons (.call .sprintf (.cons (.str (b! ": ")) (.cons (.call (.field .summary) (.cons (.var .doc2) .nil)) .nil))) .nil))))
          .skip) <|
        (.set .output (.call .writeString (.cons (.var .output) (.cons (.str (b! "\n")) .nil)))))) <|
      (.set .output (.call .writeString (.cons (.var .output) (.cons (.str (b! "\n")) .nil)))))))
    (.range .blank .doc3 (.var .docs)
      (.set .output (.call .writeString (.cons (.var .output) (.cons (.call .sprintf (.cons (.str (b! "- ")) (.cons (.call (.field .name) (.cons (.var .doc3) .nil)) (.cons (.str (b! "\n")) .nil)))) .nil)))))) <|
  (.ret (.cons (.call .trimSpace (.cons (.call .builderString (.cons (.var .output) .nil)) .nil)) .nil)))

/-- /repo/commands/doc.go:41-54 `runDoc` -/
def tgRunDoc : TgS :=
  (.seq (.if_ (.bin .eq (.call .len (.cons (.var .args) .nil)) (.int 1))
    (.seq (.callFn [.tmp1] .showFunctionDoc (.cons (.call .index (.cons (.var .args) (.cons (.int 0) .nil))) .nil)) <|
    (.ret (.cons (.var .tmp1) .nil)))
    .skip) <|
  .seq (.if_ (.bin .gt (.call .len (.cons (.var .args) .nil)) (.int 1))
    (.ret (.cons (.call .errorf (.cons (.str (b! "doc command accepts at most one argument (function name)")) .nil)) .nil))
    .skip) <|
  .seq (.callFn [.tmp2] .listFunctions (.cons (.var .category) (.cons (.var .verbose) .nil))) <|
  (.ret (.cons (.var .tmp2) .nil)))

/-- /repo/commands/doc.go:57-117 `showFunctionDoc` -/
def tgShowFunctionDoc : TgS :=
  (.seq (.callFn [.doc, .exists] .getDocumentation (.cons (.var .functionName) .nil)) <|
  .seq (.if_ (.not (.var .exists))
    (.ret (.cons (.call .errorf (.cons (.str (b! "no documentation found for function: ")) (.cons (.var .functionName) .nil))) .nil))
    .skip) <|
  .seq (.print (.call .sprintf (.cons (.str (b! "# ")) (.cons (.call (.field .name) (.cons (.var .doc) .nil)) (.cons (.str (b! "\n\n")) .nil))))) <|
  .seq (.print (.call .sprintf (.cons (.str (b! "**")) (.cons (.call (.field .summary) (.cons (.var .doc) .nil)) (.cons (.str (b! "**\n\n")) .nil))))) <|
  .seq (.if_ (.bin .ne (.call (.field .description) (.cons (.var .doc) .nil)) (.str (b! "")))
    (.print (.call .sprintf (.cons (.str (b! "## Description\n\n")) (.cons (.call (.field .description) (.cons (.var .doc) .nil)) (.cons (.str (b! "\n\n")) .nil)))))
    .skip) <|
  .seq (.if_ (.bin .gt (.call .len (.cons (.call (.field .parameters) (.cons (.var .doc) .nil)) .nil)) (.int 0))
    (.seq (.print (.call .sprintf (.cons (.str (b! "## Parameters\n\n")) .nil))) <|
    .seq (.range .blank .param (.call (.field .parameters) (.cons (.var .doc) .nil))
      (.seq (.set .optional (.str (b! ""))) <|
      .seq (.if_ (.call (.field .optional) (.cons (.var .param) .nil))
        (.set .optional (.str (b! " (optional)")))
        .skip) <|
      (.print (.call .sprintf (.cons (.str (b! "- **")) (.cons (.call (.field .name) (.cons (.var .param) .nil)) (.cons (.str (b! "** (")) (.cons (.call (.field .type) (.cons (.var .param) .nil)) (.cons (.str (b! ")")) (.cons (.var .optional) (.cons (.str (b! ": ")) (.cons (.call (.field .description) (.cons (.var .param) .nil)) (.cons (.str (b! "\n")) .nil))))))))))))) <|
    (.print (.call .sprintf (.cons (.str (b! "\n")) .nil))))
    .skip) <|
  .seq (.if_ (.bin .gt (.call .len (.cons (.call (.field .examples) (.cons (.var .doc) .nil)) .nil)) (.int 0))
    (.seq (.print (.call .sprintf (.cons (.str (b! "## Examples\n\n")) .nil))) <|
    .seq (.range .i .«example» (.call (.field .examples) (.cons (.var .doc) .nil))
      (.seq (.if_ (.bin .gt (.var .i) (.int 0))
        (.print (.call .sprintf (.cons (.str (b! "\n")) .nil)))
        .skip) <|
      .seq (.print (.call .sprintf (.cons (.str (b! "### ")) (.cons (.call (.field .description) (.cons (.var .«example») .nil)) (.cons (.str (b! "\n\n")) .nil))))) <|
      .seq (.if_ (.bin .ne (.call (.field .buffer) (.cons (.var .«example») .nil)) (.str (b! "")))
        (.print (.call .sprintf (.cons (.str (b! "**Initial buffer:**\n```\n")) (.cons (.call (.field .buffer) (.cons (.var .«example») .nil)) (.cons (.str (b! "\n```\n\n")) .nil)))))
        .skip) <|
      .seq (.print (.call .sprintf (.cons (.str (b! "**Command:**\n```\n")) (.cons (.call (.field .input) (.cons (.var .«example») .nil)) (.cons (.str (b! "\n```\n\n")) .nil))))) <|
      (.print (.call .sprintf (.cons (.str (b! "**Result:**\n")) (.cons (.call (.field .output) (.cons (.var .«example») .nil)) (.cons (.str (b! "\n")) .nil))))))) <|
    (.print (.call .sprintf (.cons (.str (b! "\n")) .nil))))
    .skip) <|
  .seq (.if_ (.bin .ne (.call (.field .category) (.cons (.var .doc) .nil)) (.str (b! "")))
    (.print (.call .sprintf (.cons (.str (b! "## Category\n\n")) (.cons (.call (.field .category) (.cons (.var .doc) .nil)) (.cons (.str (b! "\n\n")) .nil)))))
    .skip) <|
  .seq (.if_ (.bin .gt (.call .len (.cons (.call (.field .seeAlso) (.cons (.var .doc) .nil)) .nil)) (.int 0))
    (.seq (.print (.call .sprintf (.cons (.str (b! "## See Also\n\n")) .nil))) <|
    .seq (.range .blank .related (.call (.field .seeAlso) (.cons (.var .doc) .nil))
      (.print (.call .sprintf (.cons (.str (b! "- ")) (.cons (.var .related) (.cons (.str (b! "\n")) .nil)))))) <|
    (.print (.call .sprintf (.cons (.str (b! "\n")) .nil))))
    .skip) <|
  (.ret (.cons .nil .nil)))

/-- /repo/commands/doc.go:120-172 `listFunctions` -/
def tgListFunctions : TgS :=
  (.seq (.set .docs .noDocs) <|
  .seq (.if_ (.bin .ne (.var .category) (.str (b! "")))
    (.seq (.callFn [.docs] .getDocumentationByCategory (.cons (.var .category) .nil)) <|
    (.if_ (.bin .eq (.call .len (.cons (.var .docs) .nil)) (.int 0))
      (.ret (.cons (.call .errorf (.cons (.str (b! "no functions found in category: ")) (.cons (.var .category) .nil))) .nil))
      .skip))
    (.callFn [.docs] .getAllDocumentation .nil)) <|
  .seq (.if_ (.bin .eq (.call .len (.cons (.var .docs) .nil)) (.int 0))
    (.seq (.print (.str (b! "No documented functions found.\n"))) <|
    (.ret (.cons .nil .nil)))
    .skip) <|
  .seq (.if_ (.bin .ne (.var .category) (.str (b! "")))
    (.print (.call .sprintf (.cons (.str (b! "Functions in category '")) (.cons (.var .category) (.cons (.str (b! "':\n\n")) .nil)))))
    (.print (.call .sprintf (.cons (.str (b! "Available functions (")) (.cons (.call .decimal (.cons (.call .len (.cons (.var .docs) .nil)) .nil)) (.cons (.str (b! " total):\n\n")) .nil)))))) <|
  .seq (.if_ (.var .verbose)
    (.seq (.set .categoryMap .noGroups) <|
    .seq (.range .blank .doc (.var .docs)
      (.seq (.set .cat (.call (.field .category) (.cons (.var .doc) .nil))) <|
      .seq (.if_ (.bin .eq (.var .cat) (.str (b! "")))
        (.set .cat (.str (b! "other")))
        .skip) <|
      (.setAt .categoryMap (.var .cat) (.call .append (.cons (.call .index (.cons (.var .categoryMap) (.cons (.var .cat) .nil))) (.cons (.var .doc) .nil)))))) <|
    (.rangeMap .catName .catDocs (.var .categoryMap)
      (.seq (.print (.call .sprintf (.cons (.str (b! "## ")) (.cons (.call .title (.cons (.var .catName) .nil)) (.cons (.str (b! "\n\n")) .nil))))) <|
      .seq (.range .blank .doc2 (.var .catDocs)
        (.print (.call .sprintf (.cons (.str (b! "- **")) (.cons (.call (.field .name) (.cons (.var .doc2) .nil)) (.cons (.str (b! "**: ")) (.cons (.call (.field .summary) (.cons (.var .doc2) .nil)) (.cons (.str (b! "\n")) .nil)))))))) <|
      (.print (.call .sprintf (.cons (.str (b! "\n")) .nil))))))
    (.seq (.range .blank .doc3 (.var .docs)
      (.print (.call .sprintf (.cons (.str (b! "  ")) (.cons (.call (.field .name) (.cons (.var .doc3) .nil)) (.cons (.str (b! "\n")) .nil)))))) <|
    .seq (.print (.call .sprintf (.cons (.str (b! "\nUse 'texted doc <function-name>' for detailed documentation.\n")) .nil))) <|
    (.print (.call .sprintf (.cons (.str (b! "Use 'texted doc --verbose' to see function summaries.\n")) .nil))))) <|
  (.ret (.cons .nil .nil)))

/-- /repo/commands/test.go:170-175 the function that `createTraceCallback` returns -/
def tgTraceHook : TgS :=
  (.seq (.callFn [.tmp1] .formatInstruction (.cons (.call (.field .instruction) (.cons (.var .ctx) .nil)) .nil)) <|
  .seq (.print (.call .sprintf (.cons (.str (b! "TRACE: Executed instruction: ")) (.cons (.var .tmp1) (.cons (.str (b! "\n")) .nil))))) <|
  .seq (.print (.call .sprintf (.cons (.str (b! "  Buffer content: ")) (.cons (.call .quote (.cons (.call .bufferString (.cons (.call (.field .buffer) (.cons (.var .ctx) .nil)) .nil)) .nil)) (.cons (.str (b! "\n")) .nil))))) <|
  .seq (.print (.call .sprintf (.cons (.str (b! "  Point: ")) (.cons (.call .decimal (.cons (.call .point (.cons (.call (.field .buffer) (.cons (.var .ctx) .nil)) .nil)) .nil)) (.cons (.str (b! ", Mark: ")) (.cons (.call .decimal (.cons (.call .mark (.cons (.call (.field .buffer) (.cons (.var .ctx) .nil)) .nil)) .nil)) (.cons (.str (b! "\n")) .nil))))))) <|
  .seq (.print (.str (b! "\n"))) <|
  (.ret .nil))

/-- The parameters of the functions (a struct of arguments field by field, in the order of its declaration; without the context, which is not used). -/
def TgFn.params : TgFn → List TgVar
  | .parseTestCase => [.r]
  | .parseTestFile => [.filename]
  | .runTest => [.testCase, .env]
  | .runTestWithTrace => [.testCase, .env, .traceCallback]
  | .runTestFile => [.filename, .env]
  | .runTestFileWithTrace => [.filename, .env, .traceCallback]
  | .formatValue => [.value]
  | .runTests => [.args_testFiles, .args_includePatterns, .args_verbose, .args_quiet, .args_failOnly, .args_trace]
  | .printTestResult => [.result, .verbose]
  | .createTraceCallback => []
  | .formatInstruction => [.instruction]
  | .registerDocumentation => [.doc]
  | .getDocumentation => [.name]
  | .getAllDocumentation => []
  | .getDocumentationByCategory => [.category]
  | .getCategories => []
  | .getRegisteredFunctionCount => []
  | .textedDocHandler => [.request]
  | .handleFunctionDoc => [.functionName]
  | .handleCategoryListing => [.category, .verbose]
  | .handleAllFunctions => [.verbose]
  | .formatFunctionDoc => [.doc]
  | .formatFunctionList => [.docs, .title, .verbose]
  | .runDoc => [.args, .category, .verbose]
  | .showFunctionDoc => [.functionName]
  | .listFunctions => [.category, .verbose]
  | .traceHook => [.ctx]

/-- The bodies of the functions. -/
def TgFn.body : TgFn → TgS
  | .parseTestCase => tgParseTestCase
  | .parseTestFile => tgParseTestFile
  | .runTest => tgRunTest
  | .runTestWithTrace => tgRunTestWithTrace
  | .runTestFile => tgRunTestFile
  | .runTestFileWithTrace => tgRunTestFileWithTrace
  | .formatValue => tgFormatValue
  | .runTests => tgRunTests
  | .printTestResult => tgPrintTestResult
  | .createTraceCallback => tgCreateTraceCallback
  | .formatInstruction => tgFormatInstruction
  | .registerDocumentation => tgRegisterDocumentation
  | .getDocumentation => tgGetDocumentation
  | .getAllDocumentation => tgGetAllDocumentation
  | .getDocumentationByCategory => tgGetDocumentationByCategory
  | .getCategories => tgGetCategories
  | .getRegisteredFunctionCount => tgGetRegisteredFunctionCount
  | .textedDocHandler => tgTextedDocHandler
  | .handleFunctionDoc => tgHandleFunctionDoc
  | .handleCategoryListing => tgHandleCategoryListing
  | .handleAllFunctions => tgHandleAllFunctions
  | .formatFunctionDoc => tgFormatFunctionDoc
  | .formatFunctionList => tgFormatFunctionList
  | .runDoc => tgRunDoc
  | .showFunctionDoc => tgShowFunctionDoc
  | .listFunctions => tgListFunctions
  | .traceHook => tgTraceHook

end Texted
