import Verif.Model.Fg
/- GENERATED by tools/go2fg.py from /repo: functions as they are written in Go. Do not edit. -/
namespace Texted

/-- /repo/texted.go:142-149 `IsValidFormat` -/
def fgIsValidFormat : FgS :=
  (.if_ (.bin .or (.bin .or (.bin .eq (.var .format) (.str (b! "shell"))) (.bin .eq (.var .format) (.str (b! "sexp")))) (.bin .eq (.var .format) (.str (b! "json"))))
    (.ret (.cons (.bool true) .nil))
    (.ret (.cons (.bool false) .nil)))

/-- /repo/texted.go:19-34 `ExecuteScript` -/
def fgExecuteScript : FgS :=
  (.seq (.set .buf (.call .newBuffer (.cons (.var .input) .nil))) <|
  .seq (.op [.program, .err] .parseString (.cons (.var .script) .nil)) <|
  .seq (.if_ (.bin .ne (.var .err) .nil)
    (.ret (.cons (.str (b! "")) (.cons (.call .errorf (.cons (.str (b! "parsing script: ")) (.cons (.var .err) .nil))) .nil)))
    .skip) <|
  .seq (.set .env (.call .newEnv .nil)) <|
  .seq (.op [.blank, .err, .buf] .eval (.cons (.var .program) (.cons (.var .env) (.cons (.var .buf) .nil)))) <|
  .seq (.if_ (.bin .ne (.var .err) .nil)
    (.ret (.cons (.str (b! "")) (.cons (.call .errorf (.cons (.str (b! "script execution failed: ")) (.cons (.var .err) .nil))) .nil)))
    .skip) <|
  (.ret (.cons (.call .bufferString (.cons (.var .buf) .nil)) (.cons .nil .nil))))

/-- /repo/texted.go:37-67 `ExecuteScriptWithFormat` -/
def fgExecuteScriptWithFormat : FgS :=
  (.seq (.callFn [.tmp1] .IsValidFormat (.cons (.var .format) .nil)) <|
  .seq (.if_ (.not (.var .tmp1))
    (.ret (.cons (.str (b! "")) (.cons (.call .errorf (.cons (.str (b! "invalid script format: ")) (.cons (.var .format) (.cons (.str (b! " (must be shell, sexp, or json)")) .nil)))) .nil)))
    .skip) <|
  .seq (.set .buf (.call .newBuffer (.cons (.var .input) .nil))) <|
  .seq (.set .program .noVals) <|
  .seq (.set .err .nil) <|
  .seq (.if_ (.bin .or (.bin .eq (.var .format) (.str (b! "shell"))) (.bin .eq (.var .format) (.str (b! "sexp"))))
    (.op [.program, .err] .parseString (.cons (.var .script) .nil))
    (.if_ (.bin .eq (.var .format) (.str (b! "json")))
    (.op [.program, .err] .parseJSONString (.cons (.var .script) .nil))
    (.ret (.cons (.str (b! "")) (.cons (.call .errorf (.cons (.str (b! "unsupported script format: ")) (.cons (.var .format) .nil))) .nil))))) <|
  .seq (.if_ (.bin .ne (.var .err) .nil)
    (.ret (.cons (.str (b! "")) (.cons (.call .errorf (.cons (.str (b! "parsing script: ")) (.cons (.var .err) .nil))) .nil)))
    .skip) <|
  .seq (.set .env (.call .newEnv .nil)) <|
  .seq (.op [.blank, .err, .buf] .eval (.cons (.var .program) (.cons (.var .env) (.cons (.var .buf) .nil)))) <|
  .seq (.if_ (.bin .ne (.var .err) .nil)
    (.ret (.cons (.str (b! "")) (.cons (.call .errorf (.cons (.str (b! "script execution failed: ")) (.cons (.var .err) .nil))) .nil)))
    .skip) <|
  (.ret (.cons (.call .bufferString (.cons (.var .buf) .nil)) (.cons .nil .nil))))

/-- /repo/texted.go:152-158 `readFile` -/
def fgReadFile : FgS :=
  (.seq (.op [.content, .err] .readFile (.cons (.var .filename) .nil)) <|
  .seq (.if_ (.bin .ne (.var .err) .nil)
    (.ret (.cons (.str (b! "")) (.cons (.call .errorf (.cons (.str (b! "failed to read file ")) (.cons (.var .filename) (.cons (.str (b! ": ")) (.cons (.var .err) .nil))))) .nil)))
    .skip) <|
  (.ret (.cons (.var .content) (.cons .nil .nil))))

/-- /repo/texted.go:161-167 `writeFile` -/
def fgWriteFile : FgS :=
  (.seq (.op [.err] .writeFile (.cons (.var .filename) (.cons (.var .content) .nil))) <|
  .seq (.if_ (.bin .ne (.var .err) .nil)
    (.ret (.cons (.call .errorf (.cons (.str (b! "failed to write file ")) (.cons (.var .filename) (.cons (.str (b! ": ")) (.cons (.var .err) .nil))))) .nil))
    .skip) <|
  (.ret (.cons .nil .nil)))

/-- /repo/texted.go:70-82 `EditFile` -/
def fgEditFile : FgS :=
  (.seq (.callFn [.content, .err] .readFile (.cons (.var .filename) .nil)) <|
  .seq (.if_ (.bin .ne (.var .err) .nil)
    (.ret (.cons (.var .err) .nil))
    .skip) <|
  .seq (.callFn [.modified, .err] .ExecuteScript (.cons (.var .content) (.cons (.var .script) .nil))) <|
  .seq (.if_ (.bin .ne (.var .err) .nil)
    (.ret (.cons (.var .err) .nil))
    .skip) <|
  .seq (.callFn [.tmp1] .writeFile (.cons (.var .filename) (.cons (.var .modified) .nil))) <|
  (.ret (.cons (.var .tmp1) .nil)))

/-- /repo/texted.go:85-97 `EditFileWithFormat` -/
def fgEditFileWithFormat : FgS :=
  (.seq (.callFn [.content, .err] .readFile (.cons (.var .filename) .nil)) <|
  .seq (.if_ (.bin .ne (.var .err) .nil)
    (.ret (.cons (.var .err) .nil))
    .skip) <|
  .seq (.callFn [.modified, .err] .ExecuteScriptWithFormat (.cons (.var .content) (.cons (.var .script) (.cons (.var .format) .nil)))) <|
  .seq (.if_ (.bin .ne (.var .err) .nil)
    (.ret (.cons (.var .err) .nil))
    .skip) <|
  .seq (.callFn [.tmp1] .writeFile (.cons (.var .filename) (.cons (.var .modified) .nil))) <|
  (.ret (.cons (.var .tmp1) .nil)))

/-- /repo/texted.go:100-118 `EditFiles` -/
def fgEditFiles : FgS :=
  (.seq (.set .results .noResults) <|
  .seq (.range .blank .filename (.var .files)
    (.seq (.set .result (.call .newEditResult (.cons (.var .filename) .nil))) <|
    .seq (.callFn [.err] .EditFile (.cons (.var .filename) (.cons (.var .script) .nil))) <|
    .seq (.if_ (.bin .ne (.var .err) .nil)
      (.seq (.setField .result .success (.bool false)) <|
      (.setField .result .error (.var .err)))
      (.setField .result .success (.bool true))) <|
    (.set .results (.call .append (.cons (.var .results) (.cons (.var .result) .nil)))))) <|
  (.ret (.cons (.var .results) (.cons .nil .nil))))

/-- /repo/texted.go:121-139 `EditFilesWithFormat` -/
def fgEditFilesWithFormat : FgS :=
  (.seq (.set .results .noResults) <|
  .seq (.range .blank .filename (.var .files)
    (.seq (.set .result (.call .newEditResult (.cons (.var .filename) .nil))) <|
    .seq (.callFn [.err] .EditFileWithFormat (.cons (.var .filename) (.cons (.var .script) (.cons (.var .format) .nil)))) <|
    .seq (.if_ (.bin .ne (.var .err) .nil)
      (.seq (.setField .result .success (.bool false)) <|
      (.setField .result .error (.var .err)))
      (.setField .result .success (.bool true))) <|
    (.set .results (.call .append (.cons (.var .results) (.cons (.var .result) .nil)))))) <|
  (.ret (.cons (.var .results) (.cons .nil .nil))))

/-- /repo/edlisp/writer/writer.go:26-37 `NewWriter` -/
def fgNewWriter : FgS :=
  (.if_ (.bin .eq (.var .format) (.str (b! "shell")))
    (.ret (.cons (.writer .shell) (.cons .nil .nil)))
    (.if_ (.bin .eq (.var .format) (.str (b! "sexp")))
    (.ret (.cons (.writer .sexp) (.cons .nil .nil)))
    (.if_ (.bin .eq (.var .format) (.str (b! "json")))
    (.ret (.cons (.writer .json) (.cons .nil .nil)))
    (.ret (.cons .nil (.cons (.call .errorf (.cons (.str (b! "unsupported format: ")) (.cons (.var .format) .nil))) .nil))))))

/-- /repo/edlisp/writer/sexp.go:14-24 `SExpWriter.Write` -/
def fgSexpWrite : FgS :=
  (.seq (.range .blank .expr (.var .expressions)
    (.seq (.callFn [.err, .writer] .sexpWriteValue (.cons (.var .w) (.cons (.var .writer) (.cons (.var .expr) .nil)))) <|
    .seq (.if_ (.bin .ne (.var .err) .nil)
      (.ret (.cons (.var .err) (.cons (.var .writer) .nil)))
      .skip) <|
    .seq (.op [.blank, .err2, .writer] .fprint (.cons (.var .writer) (.cons (.str (b! "\n")) .nil))) <|
    (.if_ (.bin .ne (.var .err2) .nil)
      (.ret (.cons (.var .err2) (.cons (.var .writer) .nil)))
      .skip))) <|
  (.ret (.cons .nil (.cons (.var .writer) .nil))))

/-- /repo/edlisp/writer/sexp.go:27-30 `SExpWriter.WriteValue` -/
def fgSexpWriteValue : FgS :=
  (.seq (.op [.blank, .err, .writer] .fprint (.cons (.var .writer) (.cons (.call .sexpText (.cons (.var .value) .nil)) .nil))) <|
  (.ret (.cons (.var .err) (.cons (.var .writer) .nil))))

/-- /repo/edlisp/writer/shell.go:16-26 `ShellWriter.Write` -/
def fgShellWrite : FgS :=
  (.seq (.range .blank .expr (.var .expressions)
    (.seq (.callFn [.err, .writer] .shellWriteValue (.cons (.var .w) (.cons (.var .writer) (.cons (.var .expr) .nil)))) <|
    .seq (.if_ (.bin .ne (.var .err) .nil)
      (.ret (.cons (.var .err) (.cons (.var .writer) .nil)))
      .skip) <|
    .seq (.op [.blank, .err2, .writer] .fprint (.cons (.var .writer) (.cons (.str (b! "\n")) .nil))) <|
    (.if_ (.bin .ne (.var .err2) .nil)
      (.ret (.cons (.var .err2) (.cons (.var .writer) .nil)))
      .skip))) <|
  (.ret (.cons .nil (.cons (.var .writer) .nil))))

/-- /repo/edlisp/writer/shell.go:29-36 `ShellWriter.WriteValue` -/
def fgShellWriteValue : FgS :=
  (.seq (.op [.shellStr, .err] .valueToShellString (.cons (.var .value) .nil)) <|
  .seq (.if_ (.bin .ne (.var .err) .nil)
    (.ret (.cons (.var .err) (.cons (.var .writer) .nil)))
    .skip) <|
  .seq (.op [.blank, .err, .writer] .fprint (.cons (.var .writer) (.cons (.var .shellStr) .nil))) <|
  (.ret (.cons (.var .err) (.cons (.var .writer) .nil))))

/-- /repo/edlisp/writer/json.go:15-27 `JSONWriter.Write` -/
def fgJsonWrite : FgS :=
  (.seq (.set .encoder .nil) <|
  .seq (.range .blank .expr (.var .expressions)
    (.seq (.op [.jsonValue, .err] .valueToJSON (.cons (.var .expr) .nil)) <|
    .seq (.if_ (.bin .ne (.var .err) .nil)
      (.ret (.cons (.var .err) (.cons (.var .writer) .nil)))
      .skip) <|
    .seq (.op [.err2, .writer] .encode (.cons (.var .writer) (.cons (.var .jsonValue) .nil))) <|
    (.if_ (.bin .ne (.var .err2) .nil)
      (.ret (.cons (.var .err2) (.cons (.var .writer) .nil)))
      .skip))) <|
  (.ret (.cons .nil (.cons (.var .writer) .nil))))

/-- /repo/edlisp/writer/json.go:30-37 `JSONWriter.WriteValue` -/
def fgJsonWriteValue : FgS :=
  (.seq (.op [.jsonValue, .err] .valueToJSON (.cons (.var .value) .nil)) <|
  .seq (.if_ (.bin .ne (.var .err) .nil)
    (.ret (.cons (.var .err) (.cons (.var .writer) .nil)))
    .skip) <|
  .seq (.set .encoder .nil) <|
  .seq (.op [.tmp1, .writer] .encode (.cons (.var .writer) (.cons (.var .jsonValue) .nil))) <|
  (.ret (.cons (.var .tmp1) (.cons (.var .writer) .nil))))

/-- /repo/commands/edit.go:532-612 `processFilesInPlace` -/
def fgProcessFilesInPlace : FgS :=
  (.seq (.set .hasErrors (.bool false)) <|
  .seq (.range .blank .filename (.var .args_files)
    (.seq (.if_ (.bin .and (.var .args_verbose) (.not (.var .args_quiet)))
      (.op [.blank, .blank] .print (.cons (.call .sprintf (.cons (.str (b! "Processing ")) (.cons (.var .filename) (.cons (.str (b! " in place\n")) .nil)))) .nil))
      .skip) <|
    .seq (.if_ (.var .args_dryRun)
      (.seq (.if_ (.not (.var .args_quiet))
        (.seq (.op [.blank, .blank] .print (.cons (.call .sprintf (.cons (.str (b! "Would edit ")) (.cons (.var .filename) (.cons (.str (b! " in place")) .nil)))) .nil)) <|
        .seq (.if_ (.bin .ne (.var .args_backupSuffix) (.str (b! "")))
          (.op [.blank, .blank] .print (.cons (.call .sprintf (.cons (.str (b! " (backup to ")) (.cons (.var .filename) (.cons (.var .args_backupSuffix) (.cons (.str (b! ")")) .nil))))) .nil))
          .skip) <|
        (.op [.blank, .blank] .print (.cons (.str (b! "\n")) .nil)))
        .skip) <|
      .cont)
      .skip) <|
    .seq (.if_ (.bin .ne (.var .args_backupSuffix) (.str (b! "")))
      (.seq (.set .backupFile (.bin .add (.var .filename) (.var .args_backupSuffix))) <|
      .seq (.if_ (.bin .and (.var .args_verbose) (.not (.var .args_quiet)))
        (.op [.blank, .blank] .print (.cons (.call .sprintf (.cons (.str (b! "Creating backup ")) (.cons (.var .backupFile) (.cons (.str (b! "\n")) .nil)))) .nil))
        .skip) <|
      .seq (.op [.content, .err] .readFile (.cons (.var .filename) .nil)) <|
      .seq (.if_ (.bin .ne (.var .err) .nil)
        (.seq (.if_ (.not (.var .args_quiet))
          (.op [.blank, .blank] .print (.cons (.call .sprintf (.cons (.str (b! "✗ Failed to read ")) (.cons (.var .filename) (.cons (.str (b! " for backup: ")) (.cons (.var .err) (.cons (.str (b! "\n")) .nil)))))) .nil))
          .skip) <|
        .seq (.set .hasErrors (.bool true)) <|
        .cont)
        .skip) <|
      .seq (.op [.err2] .writeFile (.cons (.var .backupFile) (.cons (.var .content) .nil))) <|
      (.if_ (.bin .ne (.var .err2) .nil)
        (.seq (.if_ (.not (.var .args_quiet))
          (.op [.blank, .blank] .print (.cons (.call .sprintf (.cons (.str (b! "✗ Failed to create backup ")) (.cons (.var .backupFile) (.cons (.str (b! ": ")) (.cons (.var .err2) (.cons (.str (b! "\n")) .nil)))))) .nil))
          .skip) <|
        .seq (.set .hasErrors (.bool true)) <|
        .cont)
        .skip))
      .skip) <|
    .seq (.op [.content2, .err3] .readFile (.cons (.var .filename) .nil)) <|
    .seq (.if_ (.bin .ne (.var .err3) .nil)
      (.seq (.if_ (.not (.var .args_quiet))
        (.op [.blank, .blank] .print (.cons (.call .sprintf (.cons (.str (b! "✗ Failed to read ")) (.cons (.var .filename) (.cons (.str (b! ": ")) (.cons (.var .err3) (.cons (.str (b! "\n")) .nil)))))) .nil))
        .skip) <|
      .seq (.set .hasErrors (.bool true)) <|
      .cont)
      .skip) <|
    .seq (.callFn [.result, .err3] .ExecuteScriptWithFormat (.cons (.var .content2) (.cons (.var .args_script) (.cons (.var .args_scriptFormat) .nil)))) <|
    .seq (.if_ (.bin .ne (.var .err3) .nil)
      (.seq (.if_ (.not (.var .args_quiet))
        (.op [.blank, .blank] .print (.cons (.call .sprintf (.cons (.str (b! "✗ Failed to process ")) (.cons (.var .filename) (.cons (.str (b! ": ")) (.cons (.var .err3) (.cons (.str (b! "\n")) .nil)))))) .nil))
        .skip) <|
      .seq (.set .hasErrors (.bool true)) <|
      .cont)
      .skip) <|
    .seq (.op [.err4] .writeFile (.cons (.var .filename) (.cons (.var .result) .nil))) <|
    .seq (.if_ (.bin .ne (.var .err4) .nil)
      (.seq (.if_ (.not (.var .args_quiet))
        (.op [.blank, .blank] .print (.cons (.call .sprintf (.cons (.str (b! "✗ Failed to write ")) (.cons (.var .filename) (.cons (.str (b! ": ")) (.cons (.var .err4) (.cons (.str (b! "\n")) .nil)))))) .nil))
        .skip) <|
      .seq (.set .hasErrors (.bool true)) <|
      .cont)
      .skip) <|
    (.if_ (.not (.var .args_quiet))
      (.op [.blank, .blank] .print (.cons (.call .sprintf (.cons (.str (b! "✓ Successfully edited ")) (.cons (.var .filename) (.cons (.str (b! "\n")) .nil)))) .nil))
      .skip))) <|
  .seq (.if_ (.var .hasErrors)
    (.ret (.cons (.call .errorf (.cons (.str (b! "some files could not be edited")) .nil)) .nil))
    .skip) <|
  (.ret (.cons .nil .nil)))

/-- /repo/commands/edit.go:505-529 `processSingleFileToStdout` -/
def fgProcessSingleFileToStdout : FgS :=
  (.seq (.if_ (.bin .and (.var .args_verbose) (.not (.var .args_quiet)))
    (.op [.blank, .blank] .print (.cons (.call .sprintf (.cons (.str (b! "Processing ")) (.cons (.var .args_filename) (.cons (.str (b! " -> stdout\n")) .nil)))) .nil))
    .skip) <|
  .seq (.if_ (.var .args_dryRun)
    (.seq (.if_ (.not (.var .args_quiet))
      (.op [.blank, .blank] .print (.cons (.call .sprintf (.cons (.str (b! "Would process ")) (.cons (.var .args_filename) (.cons (.str (b! " and write to stdout\n")) .nil)))) .nil))
      .skip) <|
    (.ret (.cons .nil .nil)))
    .skip) <|
  .seq (.op [.content, .err] .readFile (.cons (.var .args_filename) .nil)) <|
  .seq (.if_ (.bin .ne (.var .err) .nil)
    (.ret (.cons (.call .errorf (.cons (.str (b! "reading ")) (.cons (.var .args_filename) (.cons (.str (b! ": ")) (.cons (.var .err) .nil))))) .nil))
    .skip) <|
  .seq (.callFn [.result, .err] .ExecuteScriptWithFormat (.cons (.var .content) (.cons (.var .args_script) (.cons (.var .args_scriptFormat) .nil)))) <|
  .seq (.if_ (.bin .ne (.var .err) .nil)
    (.ret (.cons (.call .errorf (.cons (.str (b! "processing ")) (.cons (.var .args_filename) (.cons (.str (b! ": ")) (.cons (.var .err) .nil))))) .nil))
    .skip) <|
  .seq (.op [.blank, .err] .print (.cons (.var .result) .nil)) <|
  (.ret (.cons (.var .err) .nil)))

/-- /repo/commands/edit.go:479-502 `processSingleFileToOutput` -/
def fgProcessSingleFileToOutput : FgS :=
  (.seq (.if_ (.bin .and (.var .args_verbose) (.not (.var .args_quiet)))
    (.op [.blank, .blank] .print (.cons (.call .sprintf (.cons (.str (b! "Processing ")) (.cons (.var .args_filename) (.cons (.str (b! " -> ")) (.cons (.var .args_outputFile) (.cons (.str (b! "\n")) .nil)))))) .nil))
    .skip) <|
  .seq (.if_ (.var .args_dryRun)
    (.seq (.if_ (.not (.var .args_quiet))
      (.op [.blank, .blank] .print (.cons (.call .sprintf (.cons (.str (b! "Would process ")) (.cons (.var .args_filename) (.cons (.str (b! " and write to ")) (.cons (.var .args_outputFile) (.cons (.str (b! "\n")) .nil)))))) .nil))
      .skip) <|
    (.ret (.cons .nil .nil)))
    .skip) <|
  .seq (.op [.content, .err] .readFile (.cons (.var .args_filename) .nil)) <|
  .seq (.if_ (.bin .ne (.var .err) .nil)
    (.ret (.cons (.call .errorf (.cons (.str (b! "reading ")) (.cons (.var .args_filename) (.cons (.str (b! ": ")) (.cons (.var .err) .nil))))) .nil))
    .skip) <|
  .seq (.callFn [.result, .err] .ExecuteScriptWithFormat (.cons (.var .content) (.cons (.var .args_script) (.cons (.var .args_scriptFormat) .nil)))) <|
  .seq (.if_ (.bin .ne (.var .err) .nil)
    (.ret (.cons (.call .errorf (.cons (.str (b! "processing ")) (.cons (.var .args_filename) (.cons (.str (b! ": ")) (.cons (.var .err) .nil))))) .nil))
    .skip) <|
  .seq (.op [.tmp1] .writeFile (.cons (.var .args_outputFile) (.cons (.var .result) .nil))) <|
  (.ret (.cons (.var .tmp1) .nil)))

/-- /repo/commands/edit.go:437-476 `processFiles` -/
def fgProcessFiles : FgS :=
  (.seq (.if_ (.bin .and (.bin .eq (.call .len (.cons (.var .args_files) .nil)) (.int 1)) (.bin .ne (.var .args_outputFile) (.str (b! ""))))
    (.seq (.callFn [.tmp1] .processSingleFileToOutput (.cons (.call .index (.cons (.var .args_files) (.cons (.int 0) .nil))) (.cons (.var .args_script) (.cons (.var .args_scriptFormat) (.cons (.var .args_outputFile) (.cons (.var .args_verbose) (.cons (.var .args_quiet) (.cons (.var .args_dryRun) .nil)))))))) <|
    (.ret (.cons (.var .tmp1) .nil)))
    .skip) <|
  .seq (.if_ (.bin .and (.not (.var .args_inPlace)) (.bin .eq (.var .args_outputFile) (.str (b! ""))))
    (.seq (.if_ (.bin .eq (.call .len (.cons (.var .args_files) .nil)) (.int 1))
      (.seq (.callFn [.tmp2] .processSingleFileToStdout (.cons (.call .index (.cons (.var .args_files) (.cons (.int 0) .nil))) (.cons (.var .args_script) (.cons (.var .args_scriptFormat) (.cons (.var .args_verbose) (.cons (.var .args_quiet) (.cons (.var .args_dryRun) .nil))))))) <|
      (.ret (.cons (.var .tmp2) .nil)))
      .skip) <|
    (.ret (.cons (.call .errorf (.cons (.str (b! "multiple files require --in-place or --output flag")) .nil)) .nil)))
    .skip) <|
  .seq (.callFn [.tmp3] .processFilesInPlace (.cons (.var .args_files) (.cons (.var .args_script) (.cons (.var .args_scriptFormat) (.cons (.var .args_backupSuffix) (.cons (.var .args_verbose) (.cons (.var .args_quiet) (.cons (.var .args_dryRun) .nil)))))))) <|
  (.ret (.cons (.var .tmp3) .nil)))

/-- /repo/commands/edit.go:403-434 `processStdin` -/
def fgProcessStdin : FgS :=
  (.seq (.op [.content, .err] .readStdin .nil) <|
  .seq (.if_ (.bin .ne (.var .err) .nil)
    (.ret (.cons (.call .errorf (.cons (.str (b! "reading stdin: ")) (.cons (.var .err) .nil))) .nil))
    .skip) <|
  .seq (.if_ (.bin .and (.var .args_verbose) (.not (.var .args_quiet)))
    (.op [.blank, .blank] .print (.cons (.call .sprintf (.cons (.str (b! "Processing stdin with script in ")) (.cons (.var .args_scriptFormat) (.cons (.str (b! " format\n")) .nil)))) .nil))
    .skip) <|
  .seq (.if_ (.var .args_dryRun)
    (.seq (.if_ (.not (.var .args_quiet))
      (.op [.blank, .blank] .print (.cons (.call .sprintf (.cons (.str (b! "Would process ")) (.cons (.call .decimal (.cons (.call .len (.cons (.var .content) .nil)) .nil)) (.cons (.str (b! " bytes from stdin\n")) .nil)))) .nil))
      .skip) <|
    (.ret (.cons .nil .nil)))
    .skip) <|
  .seq (.callFn [.result, .err] .ExecuteScriptWithFormat (.cons (.var .content) (.cons (.var .args_script) (.cons (.var .args_scriptFormat) .nil)))) <|
  .seq (.if_ (.bin .ne (.var .err) .nil)
    (.ret (.cons (.var .err) .nil))
    .skip) <|
  .seq (.if_ (.bin .ne (.var .args_outputFile) (.str (b! "")))
    (.seq (.if_ (.bin .and (.var .args_verbose) (.not (.var .args_quiet)))
      (.op [.blank, .blank] .print (.cons (.call .sprintf (.cons (.str (b! "Writing output to ")) (.cons (.var .args_outputFile) (.cons (.str (b! "\n")) .nil)))) .nil))
      .skip) <|
    .seq (.op [.tmp1] .writeFile (.cons (.var .args_outputFile) (.cons (.var .result) .nil))) <|
    (.ret (.cons (.var .tmp1) .nil)))
    .skip) <|
  .seq (.op [.blank, .err] .print (.cons (.var .result) .nil)) <|
  (.ret (.cons (.var .err) .nil)))

/-- /repo/commands/edit.go:325-400 `evaluateExpressionsOnContent` -/
def fgEvaluateExpressionsOnContent : FgS :=
  (.seq (.set .buffer (.call .newBuffer (.cons (.var .args_content) .nil))) <|
  .seq (.set .env (.call .newEnv .nil)) <|
  .seq (.range .i .expr (.var .args_expressions)
    (.seq (.if_ (.bin .and (.var .args_verbose) (.not (.var .args_quiet)))
      (.op [.blank, .blank] .print (.cons (.call .sprintf (.cons (.str (b! "Evaluating expression ")) (.cons (.call .decimal (.cons (.bin .add (.var .i) (.int 1)) .nil)) (.cons (.str (b! " on ")) (.cons (.var .args_source) (.cons (.str (b! ": ")) (.cons (.var .expr) (.cons (.str (b! "\n")) .nil)))))))) .nil))
      .skip) <|
    .seq (.set .program .noVals) <|
    .seq (.set .err .nil) <|
    .seq (.if_ (.bin .or (.bin .eq (.var .args_scriptFormat) (.str (b! "shell"))) (.bin .eq (.var .args_scriptFormat) (.str (b! "sexp"))))
      (.op [.program, .err] .parseString (.cons (.var .expr) .nil))
      (.if_ (.bin .eq (.var .args_scriptFormat) (.str (b! "json")))
      (.op [.program, .err] .parseJSONString (.cons (.var .expr) .nil))
      (.ret (.cons (.call .errorf (.cons (.str (b! "unsupported script format: ")) (.cons (.var .args_scriptFormat) .nil))) .nil)))) <|
    .seq (.if_ (.bin .ne (.var .err) .nil)
      (.seq (.if_ (.not (.var .args_quiet))
        (.op [.blank, .blank] .print (.cons (.call .sprintf (.cons (.str (b! "Error parsing expression ")) (.cons (.call .decimal (.cons (.bin .add (.var .i) (.int 1)) .nil)) (.cons (.str (b! ": ")) (.cons (.var .err) (.cons (.str (b! "\n")) .nil)))))) .nil))
        .skip) <|
      (.ret (.cons (.call .errorf (.cons (.str (b! "parsing expression: ")) (.cons (.var .err) .nil))) .nil)))
      .skip) <|
    .seq (.op [.result, .err, .buffer] .eval (.cons (.var .program) (.cons (.var .env) (.cons (.var .buffer) .nil)))) <|
    .seq (.if_ (.bin .ne (.var .err) .nil)
      (.seq (.if_ (.not (.var .args_quiet))
        (.op [.blank, .blank] .print (.cons (.call .sprintf (.cons (.str (b! "Error in expression ")) (.cons (.call .decimal (.cons (.bin .add (.var .i) (.int 1)) .nil)) (.cons (.str (b! ": ")) (.cons (.var .err) (.cons (.str (b! "\n")) .nil)))))) .nil))
        .skip) <|
      (.ret (.cons (.var .err) .nil)))
      .skip) <|
    (.if_ (.not (.var .args_quiet))
      (.seq (.set .writerFormat (.str [])) <|
      .seq (.if_ (.bin .eq (.var .args_outputFormat) (.str (b! "shell")))
        (.set .writerFormat (.str (b! "shell")))
        (.if_ (.bin .eq (.var .args_outputFormat) (.str (b! "sexp")))
        (.set .writerFormat (.str (b! "sexp")))
        (.if_ (.bin .eq (.var .args_outputFormat) (.str (b! "json")))
        (.set .writerFormat (.str (b! "json")))
        (.ret (.cons (.call .errorf (.cons (.str (b! "invalid output format: ")) (.cons (.var .args_outputFormat) (.cons (.str (b! " (must be shell, sexp, or json)")) .nil)))) .nil))))) <|
      .seq (.callFn [.w, .err2] .NewWriter (.cons (.var .writerFormat) .nil)) <|
      .seq (.if_ (.bin .ne (.var .err2) .nil)
        (.ret (.cons (.call .errorf (.cons (.str (b! "creating writer: ")) (.cons (.var .err2) .nil))) .nil))
        .skip) <|
      .seq (.set .buf .noText) <|
      .seq (.if_ (.bin .eq (.var .args_outputFormat) (.str (b! "shell")))
        (.seq (.set .list (.call .newList (.cons (.var .result) .nil))) <|
        (.callFn [.err2, .buf] .anyWriteValue (.cons (.var .w) (.cons (.var .buf) (.cons (.var .list) .nil)))))
        (.callFn [.err2, .buf] .anyWriteValue (.cons (.var .w) (.cons (.var .buf) (.cons (.var .result) .nil))))) <|
      .seq (.if_ (.bin .ne (.var .err2) .nil)
        (.ret (.cons (.call .errorf (.cons (.str (b! "writing result: ")) (.cons (.var .err2) .nil))) .nil))
        .skip) <|
      (.op [.blank, .blank] .print (.cons (.call .sprintf (.cons (.call .builderString (.cons (.var .buf) .nil)) (.cons (.str (b! "\n")) .nil))) .nil)))
      .skip))) <|
  (.ret (.cons .nil .nil)))

/-- /repo/commands/edit.go:276-322 `runExpressions` -/
def fgRunExpressions : FgS :=
  (.seq (.if_ (.bin .eq (.call .len (.cons (.var .args_files) .nil)) (.int 0))
    (.seq (.op [.content, .err] .readStdin .nil) <|
    .seq (.if_ (.bin .ne (.var .err) .nil)
      (.ret (.cons (.call .errorf (.cons (.str (b! "reading stdin: ")) (.cons (.var .err) .nil))) .nil))
      .skip) <|
    .seq (.callFn [.tmp1] .evaluateExpressionsOnContent (.cons (.var .args_expressions) (.cons (.var .args_scriptFormat) (.cons (.var .args_outputFormat) (.cons (.var .args_verbose) (.cons (.var .args_quiet) (.cons (.var .content) (.cons (.str (b! "stdin")) .nil)))))))) <|
    (.ret (.cons (.var .tmp1) .nil)))
    .skip) <|
  .seq (.range .blank .filename (.var .args_files)
    (.seq (.op [.content2, .err2] .readFile (.cons (.var .filename) .nil)) <|
    .seq (.if_ (.bin .ne (.var .err2) .nil)
      (.seq (.if_ (.not (.var .args_quiet))
        (.op [.blank, .blank] .print (.cons (.call .sprintf (.cons (.str (b! "Error reading ")) (.cons (.var .filename) (.cons (.str (b! ": ")) (.cons (.var .err2) (.cons (.str (b! "\n")) .nil)))))) .nil))
        .skip) <|
      (.ret (.cons (.call .errorf (.cons (.str (b! "reading ")) (.cons (.var .filename) (.cons (.str (b! ": ")) (.cons (.var .err2) .nil))))) .nil)))
      .skip) <|
    .seq (.if_ (.bin .and (.bin .gt (.call .len (.cons (.var .args_files) .nil)) (.int 1)) (.not (.var .args_quiet)))
      (.op [.blank, .blank] .print (.cons (.call .sprintf (.cons (.str (b! "=== ")) (.cons (.var .filename) (.cons (.str (b! " ===\n")) .nil)))) .nil))
      .skip) <|
    .seq (.callFn [.err2] .evaluateExpressionsOnContent (.cons (.var .args_expressions) (.cons (.var .args_scriptFormat) (.cons (.var .args_outputFormat) (.cons (.var .args_verbose) (.cons (.var .args_quiet) (.cons (.var .content2) (.cons (.var .filename) .nil)))))))) <|
    (.if_ (.bin .ne (.var .err2) .nil)
      (.ret (.cons (.var .err2) .nil))
      .skip))) <|
  (.ret (.cons .nil .nil)))

/-- /repo/commands/edit.go:186-273 `runEdit` -/
def fgRunEdit : FgS :=
  (.seq (.if_ (.var .args_shell)
    (.set .args_scriptFormat (.str (b! "shell")))
    (.if_ (.var .args_sexp)
      (.set .args_scriptFormat (.str (b! "sexp")))
      (.if_ (.var .args_json)
        (.set .args_scriptFormat (.str (b! "json")))
        .skip))) <|
  .seq (.callFn [.tmp1] .IsValidFormat (.cons (.var .args_scriptFormat) .nil)) <|
  .seq (.if_ (.not (.var .tmp1))
    (.ret (.cons (.call .errorf (.cons (.str (b! "invalid script format: ")) (.cons (.var .args_scriptFormat) (.cons (.str (b! " (must be shell, sexp, or json)")) .nil)))) .nil))
    .skip) <|
  .seq (.if_ (.bin .and (.bin .ne (.var .args_outputFile) (.str (b! ""))) (.bin .gt (.call .len (.cons (.var .args_files) .nil)) (.int 1)))
    (.ret (.cons (.call .errorf (.cons (.str (b! "--output can only be used with a single file")) .nil)) .nil))
    .skip) <|
  .seq (.if_ (.bin .and (.bin .ne (.var .args_backupSuffix) (.str (b! ""))) (.not (.var .args_inPlace)))
    (.ret (.cons (.call .errorf (.cons (.str (b! "--backup can only be used with --in-place")) .nil)) .nil))
    .skip) <|
  .seq (.if_ (.bin .and (.bin .ne (.var .args_outputFile) (.str (b! ""))) (.var .args_inPlace))
    (.ret (.cons (.call .errorf (.cons (.str (b! "--output and --in-place cannot be used together")) .nil)) .nil))
    .skip) <|
  .seq (.op [.expressions, .err] .flagStrings (.cons (.var .args_cmd) (.cons (.str (b! "expression")) .nil))) <|
  .seq (.if_ (.bin .ne (.var .err) .nil)
    (.ret (.cons (.call .errorf (.cons (.str (b! "getting expression flag: ")) (.cons (.var .err) .nil))) .nil))
    .skip) <|
  .seq (.if_ (.bin .gt (.call .len (.cons (.var .expressions) .nil)) (.int 0))
    (.seq (.callFn [.tmp2] .runExpressions (.cons (.var .expressions) (.cons (.var .args_scriptFormat) (.cons (.var .args_outputFormat) (.cons (.var .args_verbose) (.cons (.var .args_quiet) (.cons (.var .args_files) .nil))))))) <|
    (.ret (.cons (.var .tmp2) .nil)))
    .skip) <|
  .seq (.set .script (.str [])) <|
  .seq (.if_ (.bin .ne (.var .args_scriptFile) (.str (b! "")))
    (.seq (.op [.content, .err2] .readFile (.cons (.var .args_scriptFile) .nil)) <|
    .seq (.if_ (.bin .ne (.var .err2) .nil)
      (.ret (.cons (.call .errorf (.cons (.str (b! "reading script file: ")) (.cons (.var .err2) .nil))) .nil))
      .skip) <|
    (.set .script (.var .content)))
    (.seq (.op [.script, .err] .flagString (.cons (.var .args_cmd) (.cons (.str (b! "script")) .nil))) <|
    .seq (.if_ (.bin .ne (.var .err) .nil)
      (.ret (.cons (.call .errorf (.cons (.str (b! "getting script flag: ")) (.cons (.var .err) .nil))) .nil))
      .skip) <|
    (.if_ (.bin .eq (.var .script) (.str (b! "")))
      (.ret (.cons (.call .errorf (.cons (.str (b! "either --script, --file, or --expression must be specified")) .nil)) .nil))
      .skip))) <|
  .seq (.if_ (.bin .eq (.call .len (.cons (.var .args_files) .nil)) (.int 0))
    (.seq (.callFn [.tmp3] .processStdin (.cons (.var .script) (.cons (.var .args_scriptFormat) (.cons (.var .args_outputFile) (.cons (.var .args_verbose) (.cons (.var .args_quiet) (.cons (.var .args_dryRun) .nil))))))) <|
    (.ret (.cons (.var .tmp3) .nil)))
    .skip) <|
  .seq (.callFn [.tmp4] .processFiles (.cons (.var .args_files) (.cons (.var .script) (.cons (.var .args_scriptFormat) (.cons (.var .args_inPlace) (.cons (.var .args_outputFile) (.cons (.var .args_backupSuffix) (.cons (.var .args_verbose) (.cons (.var .args_quiet) (.cons (.var .args_dryRun) .nil)))))))))) <|
  (.ret (.cons (.var .tmp4) .nil)))

/-- /repo/commands/parse.go:69-76 `isValidFormat` -/
def fgIsValidFormatOfParse : FgS :=
  (.if_ (.bin .or (.bin .or (.bin .eq (.var .format) (.str (b! "shell"))) (.bin .eq (.var .format) (.str (b! "sexp")))) (.bin .eq (.var .format) (.str (b! "json"))))
    (.ret (.cons (.bool true) .nil))
    (.ret (.cons (.bool false) .nil)))

/-- /repo/commands/parse.go:79-90 `parseInput` -/
def fgParseInput : FgS :=
  (.if_ (.bin .eq (.var .format) (.str (b! "shell")))
    (.seq (.op [.tmp1, .tmp2] .parseReader (.cons (.var .r) .nil)) <|
      (.ret (.cons (.var .tmp1) (.cons (.var .tmp2) .nil))))
    (.if_ (.bin .eq (.var .format) (.str (b! "sexp")))
    (.seq (.op [.tmp3, .tmp4] .parseReader (.cons (.var .r) .nil)) <|
      (.ret (.cons (.var .tmp3) (.cons (.var .tmp4) .nil))))
    (.if_ (.bin .eq (.var .format) (.str (b! "json")))
    (.seq (.op [.tmp5, .tmp6] .parseJSONReader (.cons (.var .r) .nil)) <|
      (.ret (.cons (.var .tmp5) (.cons (.var .tmp6) .nil))))
    (.ret (.cons .noVals (.cons (.call .errorf (.cons (.str (b! "unsupported input format: ")) (.cons (.var .format) .nil))) .nil))))))

/-- /repo/commands/parse.go:93-99 `writeOutput` -/
def fgWriteOutput : FgS :=
  (.seq (.callFn [.writerInstance, .err] .NewWriter (.cons (.var .format) .nil)) <|
  .seq (.if_ (.bin .ne (.var .err) .nil)
    (.ret (.cons (.call .errorf (.cons (.str (b! "unsupported output format: ")) (.cons (.var .format) .nil))) (.cons (.var .w) .nil)))
    .skip) <|
  .seq (.callFn [.tmp1, .w] .anyWrite (.cons (.var .writerInstance) (.cons (.var .w) (.cons (.var .expressions) .nil)))) <|
  (.ret (.cons (.var .tmp1) (.cons (.var .w) .nil))))

/-- /repo/commands/parse.go:49-66 `runParse` -/
def fgRunParse : FgS :=
  (.seq (.callFn [.tmp1] .isValidFormat (.cons (.var .args_inputFormat) .nil)) <|
  .seq (.if_ (.not (.var .tmp1))
    (.ret (.cons (.call .errorf (.cons (.str (b! "invalid input format: ")) (.cons (.var .args_inputFormat) (.cons (.str (b! " (must be shell, sexp, or json)")) .nil)))) .nil))
    .skip) <|
  .seq (.callFn [.tmp2] .isValidFormat (.cons (.var .args_outputFormat) .nil)) <|
  .seq (.if_ (.not (.var .tmp2))
    (.ret (.cons (.call .errorf (.cons (.str (b! "invalid output format: ")) (.cons (.var .args_outputFormat) (.cons (.str (b! " (must be shell, sexp, or json)")) .nil)))) .nil))
    .skip) <|
  .seq (.callFn [.expressions, .err] .parseInput (.cons .stdin (.cons (.var .args_inputFormat) .nil))) <|
  .seq (.if_ (.bin .ne (.var .err) .nil)
    (.ret (.cons (.call .errorf (.cons (.str (b! "parsing input: ")) (.cons (.var .err) .nil))) .nil))
    .skip) <|
  .seq (.callFn [.tmp3, .blank] .writeOutput (.cons .stdout (.cons (.var .expressions) (.cons (.var .args_outputFormat) .nil)))) <|
  (.ret (.cons (.var .tmp3) .nil)))

/-- /repo/tools/edit_file.go:100-126 `editFilesWithLoop` -/
def fgEditFilesWithLoop : FgS :=
  (.seq (.set .iterations (.int 0)) <|
  .seq (.set .lastResults .noResults) <|
  (.forever
    (.seq (.set .iterations (.bin .add (.var .iterations) (.int 1))) <|
    .seq (.callFn [.results, .err] .EditFiles (.cons (.var .files) (.cons (.var .script) .nil))) <|
    .seq (.if_ (.bin .ne (.var .err) .nil)
      (.ret (.cons (.var .lastResults) (.cons (.var .iterations) (.cons (.var .err) .nil))))
      .skip) <|
    .seq (.set .hasError (.bool false)) <|
    .seq (.range .blank .result (.var .results)
      (.if_ (.not (.call (.field .success) (.cons (.var .result) .nil)))
        (.seq (.set .hasError (.bool true)) <|
        .brk)
        .skip)) <|
    .seq (.if_ (.var .hasError)
      (.ret (.cons (.var .results) (.cons (.var .iterations) (.cons .nil .nil))))
      .skip) <|
    (.set .lastResults (.var .results)))))

/-- /repo/tools/edit_file.go:37-97 `EditFileHandler` -/
def fgEditFileHandler : FgS :=
  (.seq (.op [.script, .err] .requireString (.cons (.var .request) (.cons (.str (b! "script")) .nil))) <|
  .seq (.if_ (.bin .ne (.var .err) .nil)
    (.ret (.cons (.call .toolError (.cons (.call .sprintf (.cons (.str (b! "script parameter required: ")) (.cons (.var .err) .nil))) .nil)) (.cons .nil .nil)))
    .skip) <|
  .seq (.op [.files, .err] .requireStrings (.cons (.var .request) (.cons (.str (b! "files")) .nil))) <|
  .seq (.if_ (.bin .ne (.var .err) .nil)
    (.ret (.cons (.call .toolError (.cons (.call .sprintf (.cons (.str (b! "files parameter required: ")) (.cons (.var .err) .nil))) .nil)) (.cons .nil .nil)))
    .skip) <|
  .seq (.set .loopUntilError (.call .getBool (.cons (.var .request) (.cons (.str (b! "loopUntilError")) (.cons (.bool false) .nil))))) <|
  .seq (.if_ (.bin .eq (.call .len (.cons (.var .files) .nil)) (.int 0))
    (.ret (.cons (.call .toolError (.cons (.str (b! "at least one file must be specified")) .nil)) (.cons .nil .nil)))
    .skip) <|
  .seq (.set .editResults .noResults) <|
  .seq (.set .editErr .nil) <|
  .seq (.set .iterations (.int 0)) <|
  .seq (.if_ (.var .loopUntilError)
    (.callFn [.editResults, .iterations, .editErr] .editFilesWithLoop (.cons (.var .files) (.cons (.var .script) .nil)))
    (.seq (.callFn [.editResults, .editErr] .EditFiles (.cons (.var .files) (.cons (.var .script) .nil))) <|
    (.set .iterations (.int 1)))) <|
  .seq (.if_ (.bin .ne (.var .editErr) .nil)
    (.ret (.cons (.call .toolError (.cons (.call .sprintf (.cons (.str (b! "Failed to edit files: ")) (.cons (.var .editErr) .nil))) .nil)) (.cons .nil .nil)))
    .skip) <|
  .seq (.set .results .noStrs) <|
  .seq (.set .errors .noStrs) <|
  .seq (.range .blank .result (.var .editResults)
    (.if_ (.call (.field .success) (.cons (.var .result) .nil))
      (.set .results (.call .append (.cons (.var .results) (.cons (.call .sprintf (.cons (.str (b! "Successfully edited ")) (.cons (.call (.field .filename) (.cons (.var .result) .nil)) .nil))) .nil))))
      (.set .errors (.call .append (.cons (.var .errors) (.cons (.call .sprintf (.cons (.str (b! "Failed to edit ")) (.cons (.call (.field .filename) (.cons (.var .result) .nil)) (.cons (.str (b! ": ")) (.cons (.call (.field .error) (.cons (.var .result) .nil)) .nil))))) .nil)))))) <|
  .seq (.if_ (.bin .gt (.call .len (.cons (.var .errors) .nil)) (.int 0))
    (.seq (.set .message (.call .sprintf (.cons (.str (b! "Completed with errors after ")) (.cons (.call .decimal (.cons (.var .iterations) .nil)) (.cons (.str (b! " iterations:\n")) .nil))))) <|
    .seq (.range .blank .result2 (.var .results)
      (.set .message (.bin .add (.var .message) (.call .sprintf (.cons (.str (b! "✓ ")) (.cons (.var .result2) (.cons (.str (b! "\n")) .nil))))))) <|
    .seq (.range .blank .errMsg (.var .errors)
      (.set .message (.bin .add (.var .message) (.call .sprintf (.cons (.str (b! "✗ ")) (.cons (.var .errMsg) (.cons (.str (b! "\n")) .nil))))))) <|
    (.ret (.cons (.call .toolText (.cons (.var .message) .nil)) (.cons .nil .nil))))
    .skip) <|
  .seq (.set .message2 (.call .sprintf (.cons (.str (b! "All files edited successfully after ")) (.cons (.call .decimal (.cons (.var .iterations) .nil)) (.cons (.str (b! " iterations:\n")) .nil))))) <|
  .seq (.range .blank .result3 (.var .results)
    (.set .message2 (.bin .add (.var .message2) (.call .sprintf (.cons (.str (b! "✓ ")) (.cons (.var .result3) (.cons (.str (b! "\n")) .nil))))))) <|
  (.ret (.cons (.call .toolText (.cons (.var .message2) .nil)) (.cons .nil .nil))))

/-- /repo/tools/texted_eval.go:41-89 `TextedEvalHandler` -/
def fgTextedEvalHandler : FgS :=
  (.seq (.op [.input, .err] .requireString (.cons (.var .request) (.cons (.str (b! "input")) .nil))) <|
  .seq (.if_ (.bin .ne (.var .err) .nil)
    (.ret (.cons (.call .toolError (.cons (.call .sprintf (.cons (.str (b! "input parameter required: ")) (.cons (.var .err) .nil))) .nil)) (.cons .nil .nil)))
    .skip) <|
  .seq (.op [.script, .err] .requireString (.cons (.var .request) (.cons (.str (b! "script")) .nil))) <|
  .seq (.if_ (.bin .ne (.var .err) .nil)
    (.ret (.cons (.call .toolError (.cons (.call .sprintf (.cons (.str (b! "script parameter required: ")) (.cons (.var .err) .nil))) .nil)) (.cons .nil .nil)))
    .skip) <|
  .seq (.set .outputMode (.call .getString (.cons (.var .request) (.cons (.str (b! "output")) (.cons (.str (b! "buffer")) .nil))))) <|
  .seq (.if_ (.bin .and (.bin .ne (.var .outputMode) (.str (b! "buffer"))) (.bin .ne (.var .outputMode) (.str (b! "expression"))))
    (.ret (.cons (.call .toolError (.cons (.str (b! "output parameter must be 'buffer' or 'expression'")) .nil)) (.cons .nil .nil)))
    .skip) <|
  .seq (.if_ (.bin .eq (.var .outputMode) (.str (b! "buffer")))
    (.seq (.callFn [.output, .err2] .ExecuteScript (.cons (.var .input) (.cons (.var .script) .nil))) <|
    .seq (.if_ (.bin .ne (.var .err2) .nil)
      (.ret (.cons (.call .toolError (.cons (.call .sprintf (.cons (.str (b! "script execution failed: ")) (.cons (.var .err2) .nil))) .nil)) (.cons .nil .nil)))
      .skip) <|
    (.ret (.cons (.call .toolText (.cons (.var .output) .nil)) (.cons .nil .nil))))
    .skip) <|
  .seq (.set .buf (.call .newBuffer (.cons (.var .input) .nil))) <|
  .seq (.op [.program, .err] .parseString (.cons (.var .script) .nil)) <|
  .seq (.if_ (.bin .ne (.var .err) .nil)
    (.ret (.cons (.call .toolError (.cons (.call .sprintf (.cons (.str (b! "parsing script: ")) (.cons (.var .err) .nil))) .nil)) (.cons .nil .nil)))
    .skip) <|
  .seq (.set .env (.call .newEnv .nil)) <|
  .seq (.op [.result, .err, .buf] .eval (.cons (.var .program) (.cons (.var .env) (.cons (.var .buf) .nil)))) <|
  .seq (.if_ (.bin .ne (.var .err) .nil)
    (.ret (.cons (.call .toolError (.cons (.call .sprintf (.cons (.str (b! "script execution failed: ")) (.cons (.var .err) .nil))) .nil)) (.cons .nil .nil)))
    .skip) <|
  .seq (.set .output2 .noText) <|
  .seq (.set .sexpWriter (.writer .sexp)) <|
  .seq (.callFn [.err, .output2] .anyWriteValue (.cons (.var .sexpWriter) (.cons (.var .output2) (.cons (.var .result) .nil)))) <|
  .seq (.if_ (.bin .ne (.var .err) .nil)
    (.ret (.cons (.call .toolError (.cons (.call .sprintf (.cons (.str (b! "failed to format result: ")) (.cons (.var .err) .nil))) .nil)) (.cons .nil .nil)))
    .skip) <|
  (.ret (.cons (.call .toolText (.cons (.call .builderString (.cons (.var .output2) .nil)) .nil)) (.cons .nil .nil))))

/-- A call of the method `Write` of a `writer.Writer` (/repo/edlisp/writer/writer.go:11-14): the method of the type it has. -/
def fgAnyWrite : FgS :=
  (.if_ (.call (.isWriter .shell) (.cons (.var .w) .nil))
    (.seq (.callFn [.tmp1, .writer] .shellWrite (.cons (.var .w) (.cons (.var .writer) (.cons (.var .expressions) .nil)))) (.ret (.cons (.var .tmp1) (.cons (.var .writer) .nil))))
    (.if_ (.call (.isWriter .sexp) (.cons (.var .w) .nil))
    (.seq (.callFn [.tmp1, .writer] .sexpWrite (.cons (.var .w) (.cons (.var .writer) (.cons (.var .expressions) .nil)))) (.ret (.cons (.var .tmp1) (.cons (.var .writer) .nil))))
    (.seq (.callFn [.tmp1, .writer] .jsonWrite (.cons (.var .w) (.cons (.var .writer) (.cons (.var .expressions) .nil)))) (.ret (.cons (.var .tmp1) (.cons (.var .writer) .nil))))))

/-- A call of the method `WriteValue` of a `writer.Writer` (/repo/edlisp/writer/writer.go:11-14): the method of the type it has. -/
def fgAnyWriteValue : FgS :=
  (.if_ (.call (.isWriter .shell) (.cons (.var .w) .nil))
    (.seq (.callFn [.tmp1, .writer] .shellWriteValue (.cons (.var .w) (.cons (.var .writer) (.cons (.var .value) .nil)))) (.ret (.cons (.var .tmp1) (.cons (.var .writer) .nil))))
    (.if_ (.call (.isWriter .sexp) (.cons (.var .w) .nil))
    (.seq (.callFn [.tmp1, .writer] .sexpWriteValue (.cons (.var .w) (.cons (.var .writer) (.cons (.var .value) .nil)))) (.ret (.cons (.var .tmp1) (.cons (.var .writer) .nil))))
    (.seq (.callFn [.tmp1, .writer] .jsonWriteValue (.cons (.var .w) (.cons (.var .writer) (.cons (.var .value) .nil)))) (.ret (.cons (.var .tmp1) (.cons (.var .writer) .nil))))))

/-- The parameters of the functions (a struct of arguments field by field, in the order of its declaration). -/
def FgFn.params : FgFn → List FgVar
  | .IsValidFormat => [.format]
  | .ExecuteScript => [.input, .script]
  | .ExecuteScriptWithFormat => [.input, .script, .format]
  | .readFile => [.filename]
  | .writeFile => [.filename, .content]
  | .EditFile => [.filename, .script]
  | .EditFileWithFormat => [.filename, .script, .format]
  | .EditFiles => [.files, .script]
  | .EditFilesWithFormat => [.files, .script, .format]
  | .NewWriter => [.format]
  | .sexpWrite => [.w, .writer, .expressions]
  | .sexpWriteValue => [.w, .writer, .value]
  | .shellWrite => [.w, .writer, .expressions]
  | .shellWriteValue => [.w, .writer, .value]
  | .jsonWrite => [.w, .writer, .expressions]
  | .jsonWriteValue => [.w, .writer, .value]
  | .processFilesInPlace => [.args_files, .args_script, .args_scriptFormat, .args_backupSuffix, .args_verbose, .args_quiet, .args_dryRun]
  | .processSingleFileToStdout => [.args_filename, .args_script, .args_scriptFormat, .args_verbose, .args_quiet, .args_dryRun]
  | .processSingleFileToOutput => [.args_filename, .args_script, .args_scriptFormat, .args_outputFile, .args_verbose, .args_quiet, .args_dryRun]
  | .processFiles => [.args_files, .args_script, .args_scriptFormat, .args_inPlace, .args_outputFile, .args_backupSuffix, .args_verbose, .args_quiet, .args_dryRun]
  | .processStdin => [.args_script, .args_scriptFormat, .args_outputFile, .args_verbose, .args_quiet, .args_dryRun]
  | .evaluateExpressionsOnContent => [.args_expressions, .args_scriptFormat, .args_outputFormat, .args_verbose, .args_quiet, .args_content, .args_source]
  | .runExpressions => [.args_expressions, .args_scriptFormat, .args_outputFormat, .args_verbose, .args_quiet, .args_files]
  | .runEdit => [.args_cmd, .args_scriptFormat, .args_scriptFile, .args_inPlace, .args_outputFile, .args_backupSuffix, .args_verbose, .args_quiet, .args_dryRun, .args_shell, .args_sexp, .args_json, .args_outputFormat, .args_files]
  | .isValidFormat => [.format]
  | .parseInput => [.r, .format]
  | .writeOutput => [.w, .expressions, .format]
  | .runParse => [.args_inputFormat, .args_outputFormat]
  | .editFilesWithLoop => [.files, .script]
  | .EditFileHandler => [.ctx, .request]
  | .TextedEvalHandler => [.ctx, .request]
  | .anyWrite => [.w, .writer, .expressions]
  | .anyWriteValue => [.w, .writer, .value]

/-- The bodies of the functions. -/
def FgFn.body : FgFn → FgS
  | .IsValidFormat => fgIsValidFormat
  | .ExecuteScript => fgExecuteScript
  | .ExecuteScriptWithFormat => fgExecuteScriptWithFormat
  | .readFile => fgReadFile
  | .writeFile => fgWriteFile
  | .EditFile => fgEditFile
  | .EditFileWithFormat => fgEditFileWithFormat
  | .EditFiles => fgEditFiles
  | .EditFilesWithFormat => fgEditFilesWithFormat
  | .NewWriter => fgNewWriter
  | .sexpWrite => fgSexpWrite
  | .sexpWriteValue => fgSexpWriteValue
  | .shellWrite => fgShellWrite
  | .shellWriteValue => fgShellWriteValue
  | .jsonWrite => fgJsonWrite
  | .jsonWriteValue => fgJsonWriteValue
  | .processFilesInPlace => fgProcessFilesInPlace
  | .processSingleFileToStdout => fgProcessSingleFileToStdout
  | .processSingleFileToOutput => fgProcessSingleFileToOutput
  | .processFiles => fgProcessFiles
  | .processStdin => fgProcessStdin
  | .evaluateExpressionsOnContent => fgEvaluateExpressionsOnContent
  | .runExpressions => fgRunExpressions
  | .runEdit => fgRunEdit
  | .isValidFormat => fgIsValidFormatOfParse
  | .parseInput => fgParseInput
  | .writeOutput => fgWriteOutput
  | .runParse => fgRunParse
  | .editFilesWithLoop => fgEditFilesWithLoop
  | .EditFileHandler => fgEditFileHandler
  | .TextedEvalHandler => fgTextedEvalHandler
  | .anyWrite => fgAnyWrite
  | .anyWriteValue => fgAnyWriteValue

end Texted
