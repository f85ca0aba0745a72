import Verif.Model.Script
/-
The tools served over MCP: /repo/tools/edit_file.go, /repo/tools/texted_eval.go. How mcp-go reads the request is not modelled: each
parameter is what its accessor returns (`RequireString`, `RequireStringSlice`, `GetString`, `GetBool`: a value or an error text).
-/
namespace Texted

/-- `mcp.NewToolResultText(t)`, `mcp.NewToolResultError(e)`. -/
inductive ToolResult where
  | text (t : Bytes)
  | error (e : Bytes)
  deriving DecidableEq

/-- /repo/tools/edit_file.go:100-126 `editFilesWithLoop`. The loop has no bound: the model runs at most `fuel` rounds and answers
`none` if it is still running then; every finite part of the real loop is the model's for some `fuel`. `iterations` counts the rounds
done. (`texted.EditFiles` never returns an error of its own, so lines 107-109 are unreachable.) -/
def editFilesWithLoop [Ext] (files : List Bytes) (script : Bytes) : (fuel iterations : Nat) → Proc (Option (List EditResult × Nat))
  | 0, _ => .ret none
  | fuel + 1, iterations =>
    (editFiles files script).bind fun results =>
      if results.any (fun r => !r.success) then .ret (some (results, iterations + 1))
      else editFilesWithLoop files script fuel (iterations + 1)

/-- `fmt.Sprintf("✓ %s\n", "Successfully edited f")`. -/
def successLine (f : Bytes) : Bytes := b! "✓ Successfully edited " ++ f ++ [nl]

/-- `fmt.Sprintf("✗ %s\n", "Failed to edit f: e")`. -/
def failureLine (f e : Bytes) : Bytes := b! "✗ Failed to edit " ++ f ++ b! ": " ++ e ++ [nl]

/-- The lines about the files (/repo/tools/edit_file.go:70-94): first those of the edited files, then those of the others. -/
def reportLines (results : List EditResult) : Bytes :=
  (results.flatMap fun r => match r.error with | none => successLine r.filename | some _ => []) ++
  (results.flatMap fun r => match r.error with | none => [] | some e => failureLine r.filename e)

/-- /repo/tools/edit_file.go:67-97: the message. -/
def editReport (results : List EditResult) (iterations : Nat) : Bytes :=
  if results.any (fun r => !r.success) then b! "Completed with errors after " ++ natDec iterations ++ b! " iterations:\n" ++ reportLines results
  else b! "All files edited successfully after " ++ natDec iterations ++ b! " iterations:\n" ++ reportLines results

/-- The parameters of edit_file. -/
structure EditFileRequest where
  script : Except Bytes Bytes
  files : Except Bytes (List Bytes)
  loopUntilError : Bool

/-- /repo/tools/edit_file.go:37-98 `EditFileHandler` (its second result is always nil). `fuel` bounds the rounds of the loop; the
answer `none` means that it is still looping. -/
def editFileHandler [Ext] (fuel : Nat) (req : EditFileRequest) : Proc (Option ToolResult) :=
  match req.script with
  | .error e => .ret (some (.error (b! "script parameter required: " ++ e)))
  | .ok script =>
    match req.files with
    | .error e => .ret (some (.error (b! "files parameter required: " ++ e)))
    | .ok files =>
      if files.isEmpty then .ret (some (.error (b! "at least one file must be specified")))
      else if req.loopUntilError then
        (editFilesWithLoop files script fuel 0).bind fun r =>
          match r with
          | none => .ret none
          | some (results, iterations) => .ret (some (.text (editReport results iterations)))
      else (editFiles files script).bind fun results => .ret (some (.text (editReport results 1)))

/-- The parameters of texted_eval. -/
structure EvalRequest where
  input : Except Bytes Bytes
  script : Except Bytes Bytes
  output : Bytes := b! "buffer"

/-- /repo/tools/texted_eval.go:41-89 `TextedEvalHandler` (its second result is always nil). -/
def textedEvalHandler [Ext] (req : EvalRequest) : Proc ToolResult :=
  match req.input with
  | .error e => .ret (.error (b! "input parameter required: " ++ e))
  | .ok input =>
    match req.script with
    | .error e => .ret (.error (b! "script parameter required: " ++ e))
    | .ok script =>
      if req.output ≠ b! "buffer" ∧ req.output ≠ b! "expression" then .ret (.error (b! "output parameter must be 'buffer' or 'expression'"))
      else if req.output = b! "buffer" then
        match executeScript input script with
        | .panic => .panic
        | .err e => .ret (.error (b! "script execution failed: " ++ e))
        | .ok output => .ret (.text output)
      else
        match parseString script with
        | .panic => .panic
        | .err e => .ret (.error (b! "parsing script: " ++ e))
        | .ok program =>
          match eval defaultEnv program (newBuffer input) with
          | (.panic, _) => .panic
          | (.err e, _) => .ret (.error (b! "script execution failed: " ++ e.message))
          | (.ok v, _) => .ret (.text v.toStr)

end Texted
