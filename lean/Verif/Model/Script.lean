import Verif.Model.Eval
import Verif.Model.Writer
import Verif.Model.Proc
/-
Running scripts on texts and files: /repo/texted.go.
-/
namespace Texted

/-- /repo/texted.go:142-149 `IsValidFormat` (and its copy /repo/commands/parse.go:69-76). -/
def isValidFormat (format : Bytes) : Bool := format = b! "shell" || format = b! "sexp" || format = b! "json"

/-- An `Except` as a result that does not panic. -/
def Res.ofExcept {ε α : Type} : Except ε α → Res ε α
  | .ok a => .ok a
  | .error e => .err e

/-- Evaluate a program on a text in the default environment: the value and the text afterwards, or the text of the error. -/
def evalOn [Ext] (input : Bytes) (program : List Value) : Res Bytes (Value × Bytes) :=
  match eval defaultEnv program (newBuffer input) with
  | (.ok v, b) => .ok (v, b.content)
  | (.err e, _) => .err (b! "script execution failed: " ++ e.message)
  | (.panic, _) => .panic

/-- /repo/texted.go:27-31 and :58-66: evaluate an already parsed script. Go returns `""` beside an error; the model's result
is then only the error. -/
def executeParsed [Ext] (input : Bytes) (parsed : Res Bytes (List Value)) : Res Bytes Bytes :=
  match parsed with
  | .err e => .err (b! "parsing script: " ++ e)
  | .panic => .panic
  | .ok program =>
    match evalOn input program with
    | .ok (_, text) => .ok text
    | .err e => .err e
    | .panic => .panic

/-- /repo/texted.go:19-34 `ExecuteScript`. -/
def executeScript [Ext] (input script : Bytes) : Res Bytes Bytes := executeParsed input (parseString script)

/-- /repo/texted.go:45-52: parsing by format (the `default` case is unreachable behind `IsValidFormat`). -/
def parseScript (format script : Bytes) : Res Bytes (List Value) :=
  if format = b! "json" then Res.ofExcept (parseJsonString script) else parseString script

/-- /repo/texted.go:37-67 `ExecuteScriptWithFormat`. -/
def executeScriptWithFormat [Ext] (input script format : Bytes) : Res Bytes Bytes :=
  if isValidFormat format then executeParsed input (parseScript format script)
  else .err (b! "invalid script format: " ++ format ++ b! " (must be shell, sexp, or json)")

/-- /repo/texted.go:70-82 and :85-97, for a script given as the function it computes: `EditFile`, `EditFileWithFormat`. The
result is the error, if any. -/
def editFileBy (exec : Bytes → Res Bytes Bytes) (filename : Bytes) : Proc (Option Bytes) :=
  .act (.read filename) fun r =>
    match r with
    | .error e => .ret (some (b! "failed to read file " ++ filename ++ b! ": " ++ e))
    | .ok content =>
      match exec content with
      | .err e => .ret (some e)
      | .panic => .panic
      | .ok modified => .act (.write filename modified) fun r =>
        match r with
        | .error e => .ret (some (b! "failed to write file " ++ filename ++ b! ": " ++ e))
        | .ok _ => .ret none

/-- /repo/texted.go:70-82 `EditFile`. -/
def editFile [Ext] (filename script : Bytes) : Proc (Option Bytes) :=
  editFileBy (fun content => executeScript content script) filename

/-- /repo/texted.go:85-97 `EditFileWithFormat`. -/
def editFileWithFormat [Ext] (filename script format : Bytes) : Proc (Option Bytes) :=
  editFileBy (fun content => executeScriptWithFormat content script format) filename

/-- /repo/texted.go:11-15 `EditResult`; `Success` is the absence of an error (lines 109-114). -/
structure EditResult where
  filename : Bytes
  error : Option Bytes
  deriving DecidableEq

/-- `EditResult.Success`. -/
def EditResult.success (r : EditResult) : Bool := r.error.isNone

/-- The loop of `EditFiles` (/repo/texted.go:101-117). -/
def editFilesBy (edit : Bytes → Proc (Option Bytes)) : List Bytes → Proc (List EditResult)
  | [] => .ret []
  | f :: rest => (edit f).bind fun e => (editFilesBy edit rest).bind fun rs => .ret ({ filename := f, error := e } :: rs)

/-- /repo/texted.go:100-118 `EditFiles` (its second result is always nil). -/
def editFiles [Ext] (files : List Bytes) (script : Bytes) : Proc (List EditResult) := editFilesBy (fun f => editFile f script) files

/-- /repo/texted.go:121-139 `EditFilesWithFormat`. -/
def editFilesWithFormat [Ext] (files : List Bytes) (script format : Bytes) : Proc (List EditResult) :=
  editFilesBy (fun f => editFileWithFormat f script format) files

end Texted
