import Verif.Model.Basic
/- GENERATED by tools/go2fg.py: the variables and the names of the functions in Model/FgSource. -/
namespace Texted

/-- The variables of the functions in Model/FgSource (/repo/texted.go, commands, edlisp/writer, tools). -/
inductive FgVar where
  | args_backupSuffix
  | args_cmd
  | args_content
  | args_dryRun
  | args_expressions
  | args_filename
  | args_files
  | args_inPlace
  | args_inputFormat
  | args_json
  | args_outputFile
  | args_outputFormat
  | args_quiet
  | args_script
  | args_scriptFile
  | args_scriptFormat
  | args_sexp
  | args_shell
  | args_source
  | args_verbose
  | backupFile
  | blank
  | buf
  | buffer
  | content
  | content2
  | ctx
  | editErr
  | editResults
  | encoder
  | env
  | err
  | err2
  | err3
  | err4
  | errMsg
  | errors
  | expr
  | expressions
  | filename
  | files
  | format
  | hasError
  | hasErrors
  | i
  | input
  | iterations
  | jsonValue
  | lastResults
  | list
  | loopUntilError
  | message
  | message2
  | modified
  | output
  | output2
  | outputMode
  | program
  | r
  | request
  | result
  | result2
  | result3
  | results
  | script
  | sexpWriter
  | shellStr
  | tmp1
  | tmp2
  | tmp3
  | tmp4
  | tmp5
  | tmp6
  | value
  | w
  | writer
  | writerFormat
  | writerInstance
  deriving DecidableEq

/-- The functions in Model/FgSource. -/
inductive FgFn where
  | IsValidFormat
  | ExecuteScript
  | ExecuteScriptWithFormat
  | readFile
  | writeFile
  | EditFile
  | EditFileWithFormat
  | EditFiles
  | EditFilesWithFormat
  | NewWriter
  | sexpWrite
  | sexpWriteValue
  | shellWrite
  | shellWriteValue
  | jsonWrite
  | jsonWriteValue
  | processFilesInPlace
  | processSingleFileToStdout
  | processSingleFileToOutput
  | processFiles
  | processStdin
  | evaluateExpressionsOnContent
  | runExpressions
  | runEdit
  | isValidFormat
  | parseInput
  | writeOutput
  | runParse
  | editFilesWithLoop
  | EditFileHandler
  | TextedEvalHandler
  | anyWrite
  | anyWriteValue
  deriving DecidableEq

end Texted
