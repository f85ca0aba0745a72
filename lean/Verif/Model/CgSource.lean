import Verif.Model.Cg
/- GENERATED by tools/go2cg.py from /repo: the commands, options and tools as they are declared in Go. Do not edit. -/
namespace Texted

/-- /repo/commands/edit.go:112-183 `NewEditCommand` -/
def cgEditCommand : CgCommand where
  use := (b! "edit [flags] [files...]")
  vars := [(.scriptFormat, .str []), (.scriptFile, .str []), (.inPlace, .bool false), (.outputFile, .str []), (.backupSuffix, .str []), (.verbose, .bool false), (.quiet, .bool false), (.dryRun, .bool false), (.shell, .bool false), (.sexp, .bool false), (.«json», .bool false), (.outputFormat, .str [])]
  options := [⟨none, (b! "script"), (b! "s"), .str []⟩,
    ⟨(some .scriptFile), (b! "file"), (b! "f"), .str []⟩,
    ⟨none, (b! "expression"), (b! "e"), .strs []⟩,
    ⟨(some .inPlace), (b! "in-place"), (b! "i"), .bool false⟩,
    ⟨(some .outputFile), (b! "output"), (b! "o"), .str []⟩,
    ⟨(some .backupSuffix), (b! "backup"), [], .str []⟩,
    ⟨(some .scriptFormat), (b! "format"), [], .str (b! "shell")⟩,
    ⟨(some .shell), (b! "shell"), [], .bool false⟩,
    ⟨(some .sexp), (b! "sexp"), [], .bool false⟩,
    ⟨(some .«json»), (b! "json"), [], .bool false⟩,
    ⟨(some .verbose), (b! "verbose"), (b! "v"), .bool false⟩,
    ⟨(some .quiet), (b! "quiet"), (b! "q"), .bool false⟩,
    ⟨(some .dryRun), (b! "dry-run"), (b! "n"), .bool false⟩,
    ⟨(some .outputFormat), (b! "output-format"), [], .str (b! "shell")⟩]
  calls := .runEdit
  passes := [.cmd, .var .scriptFormat, .var .scriptFile, .var .inPlace, .var .outputFile, .var .backupSuffix, .var .verbose, .var .quiet, .var .dryRun, .var .shell, .var .sexp, .var .«json», .var .outputFormat, .operands]
  fails := true

/-- /repo/commands/parse.go:22-46 `NewParseCommand` -/
def cgParseCommand : CgCommand where
  use := (b! "parse")
  vars := [(.inputFormat, .str []), (.outputFormat, .str [])]
  options := [⟨(some .inputFormat), (b! "input-format"), [], .str (b! "shell")⟩,
    ⟨(some .outputFormat), (b! "output-format"), [], .str (b! "sexp")⟩]
  calls := .runParse
  passes := [.var .inputFormat, .var .outputFormat]
  fails := true

/-- /repo/commands/test.go:27-60 `NewTestCommand` -/
def cgTestCommand : CgCommand where
  use := (b! "test [TEST_FILES...]")
  vars := [(.verbose, .bool false), (.quiet, .bool false), (.failOnly, .bool false), (.trace, .bool false), (.«include», .strs [])]
  options := [⟨(some .verbose), (b! "verbose"), (b! "v"), .bool false⟩,
    ⟨(some .quiet), (b! "quiet"), (b! "q"), .bool false⟩,
    ⟨(some .failOnly), (b! "fail-only"), [], .bool false⟩,
    ⟨(some .trace), (b! "trace"), [], .bool false⟩,
    ⟨(some .«include»), (b! "include"), (b! "i"), .strs []⟩]
  calls := .runTests
  passes := [.operands, .var .«include», .var .verbose, .var .quiet, .var .failOnly, .var .trace]
  fails := false

/-- /repo/commands/doc.go:13-38 `NewDocCommand` -/
def cgDocCommand : CgCommand where
  use := (b! "doc [function-name]")
  vars := [(.category, .str []), (.verbose, .bool false)]
  options := [⟨(some .category), (b! "category"), [], .str []⟩,
    ⟨(some .verbose), (b! "verbose"), (b! "v"), .bool false⟩]
  calls := .runDoc
  passes := [.operands, .var .category, .var .verbose]
  fails := true

/-- /repo/commands/mcp.go:13-37 `NewMCPCommand` -/
def cgMCPCommand : CgCommand where
  use := (b! "mcp")
  vars := [(.«prefix», .str [])]
  options := [⟨(some .«prefix»), (b! "prefix"), [], .str []⟩]
  calls := .runMCPServer
  passes := [.var .«prefix»]
  fails := true

/-- /repo/tools/edit_file.go:15-35 `NewEditFileToolWithPrefix` -/
def cgEditFileToolWithPrefix : CgTool where
  name := (b! "edit_file")
  test := .differ .pre (.lit [])
  longer := .plus .pre .name
  params := [⟨(b! "script"), .string, true⟩, ⟨(b! "files"), .array, true⟩, ⟨(b! "loopUntilError"), .boolean, false⟩]

/-- /repo/tools/texted_eval.go:19-39 `NewTextedEvalToolWithPrefix` -/
def cgTextedEvalToolWithPrefix : CgTool where
  name := (b! "texted_eval")
  test := .differ .pre (.lit [])
  longer := .plus .pre .name
  params := [⟨(b! "input"), .string, true⟩, ⟨(b! "script"), .string, true⟩, ⟨(b! "output"), .string, false⟩]

/-- /repo/tools/texted_doc.go:16-34 `NewTextedDocToolWithPrefix` -/
def cgTextedDocToolWithPrefix : CgTool where
  name := (b! "texted_doc")
  test := .differ .pre (.lit [])
  longer := .plus .pre .name
  params := [⟨(b! "function_name"), .string, false⟩, ⟨(b! "category"), .string, false⟩, ⟨(b! "verbose"), .boolean, false⟩]

/-- /repo/cmd/texted/main.go:11-28 `main` -/
def cgMain : CgProgram where
  use := (b! "texted")
  commands := [cgEditCommand, cgParseCommand, cgTestCommand, cgDocCommand, cgMCPCommand]
  onError := 1

/-- /repo/commands/mcp.go:39-60 `runMCPServer`: the tools with their handlers, in the order in which they are added. -/
def cgServer : List (CgTool × CgHandler) := [(cgEditFileToolWithPrefix, .editFile), (cgTextedEvalToolWithPrefix, .textedEval), (cgTextedDocToolWithPrefix, .textedDoc)]

end Texted
