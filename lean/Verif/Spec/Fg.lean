import Verif.Model.FgRun
import Verif.Model.ParseCmd
import Verif.Model.Tools
/-
Specification for C95: how the arguments and results of the Go functions are written down, and what `texted parse` prints piece by piece.
-/
namespace Texted.Spec
open Texted
variable [Ext]

/-- Print the pieces one after the other; a failed print ends it with that error, otherwise `e` is the error. -/
def printPieces : List Bytes → Option Bytes → Proc (Option Bytes)
  | [], e => .ret e
  | t :: ts, e => .act (.print t) fun r => match r with
    | .ok _ => printPieces ts e
    | .error e' => .ret (some e')

/-- What the S-expression writer prints. -/
def sexpPieces : List Value → List Bytes × Option Bytes
  | [] => ([], none)
  | v :: vs => (v.toStr :: [nl] :: (sexpPieces vs).1, (sexpPieces vs).2)

/-- What the shell writer prints. -/
def shellPieces : List Value → List Bytes × Option Bytes
  | [] => ([], none)
  | v :: vs => match shellString v with
    | .error e => ([], some e)
    | .ok t => (t :: [nl] :: (shellPieces vs).1, (shellPieces vs).2)

/-- What the JSON writer prints. -/
def jsonPieces : List Value → List Bytes × Option Bytes
  | [] => ([], none)
  | v :: vs => match writeJsonValue v with
    | none => ([], some jsonUnsupported)
    | some t => (t :: (jsonPieces vs).1, (jsonPieces vs).2)

/-- What `texted parse` prints in a format: the pieces and the error behind them. -/
def outPieces (format : Bytes) (l : List Value) : List Bytes × Option Bytes :=
  if format = b! "shell" then shellPieces l else if format = b! "sexp" then sexpPieces l else jsonPieces l

/-- `texted parse` as a program: it reads standard input, then prints piece by piece; a failed read or print is its error. -/
def parseProc (inputFormat outputFormat : Bytes) : Proc (Option Bytes) :=
  if !isValidFormat inputFormat then .ret (some (b! "invalid input format: " ++ inputFormat ++ b! " (must be shell, sexp, or json)"))
  else if !isValidFormat outputFormat then .ret (some (b! "invalid output format: " ++ outputFormat ++ b! " (must be shell, sexp, or json)"))
  else .act .stdin fun r => match r with
    | .error e => .ret (some (b! "parsing input: " ++ e))
    | .ok s => match parseInput s inputFormat with
      | .err e => .ret (some (b! "parsing input: " ++ e))
      | .panic => .panic
      | .ok p => printPieces (outPieces outputFormat p).1 (outPieces outputFormat p).2

/-! ### What a call of a function written in Go does -/

/-- The function `f` as it is written in Go, called with `args`, is the program `p`: the same actions in the same order, whatever the replies,
then the same results or the same crash. -/
def GoDoes (f : FgFn) (args : List FgV) (p : Proc (List FgV)) : Prop := ∃ n d, fgRun n d f args = p.bind fun vs => .ret (.ret vs)

/-- The call, started in the world `w`, can be at a moment at which the world is `w'` (what a crash of the machine would leave behind). -/
def CallSees (f : FgFn) (args : List FgV) (w w' : World) : Prop := ∃ n d, Sees (fgRun n d f args) w w'

/-- The call, started in the world `w`, can return `vs` and leave the world as `w'`. -/
def CallEnds (f : FgFn) (args : List FgV) (w : World) (vs : List FgV) (w' : World) : Prop := ∃ n d, Ends (fgRun n d f args) w (.ret vs) w'

/-! ### How the results of Go's functions are written down -/

/-- A function whose result is an error, or nil. -/
def failing (p : Proc (Option Bytes)) : Proc (List FgV) := p.bind fun e => .ret [fgError e]

/-- A function that returns a string and an error. -/
def textAndError : Res Bytes Bytes → Proc (List FgV)
  | .ok t => .ret [.str t, .nil]
  | .err e => .ret [.str [], .err e]
  | .panic => .panic

/-- An `EditResult`, field by field. -/
def editResult (r : EditResult) : FgResult := ⟨r.filename, r.success, r.error⟩

/-- A function that returns a list of `EditResult` and an error that is always nil. -/
def resultsAndNil (p : Proc (List EditResult)) : Proc (List FgV) := p.bind fun rs => .ret [.results (rs.map editResult), .nil]

/-- A tool handler: its answer, and an error that is always nil. -/
def toolAndNil (p : Proc ToolResult) : Proc (List FgV) := p.bind fun r => .ret [.tool r, .nil]

/-- The flags and the file names of the edit command (`cmd` is the command line, from which `--script` and `--expression` are read). -/
def editCall (a : EditArgs) : List FgV :=
  [.cmd a.script a.expressions, .str a.scriptFormat, .str a.scriptFile, .bool a.inPlace, .str a.outputFile, .str a.backupSuffix, .bool a.verbose,
    .bool a.quiet, .bool a.dryRun, .bool a.shell, .bool a.sexp, .bool a.json, .str a.outputFormat, .strs a.files]

/-- A writer that appends to what a `strings.Builder` holds (`s`): its error, and the builder afterwards. -/
def appended (s : Bytes) (r : Written) : Proc (List FgV) := .ret [fgError r.err, .builder (s ++ r.out)]

/-- A writer that prints to standard output: its error, and standard output. -/
def printed (p : List Bytes × Option Bytes) : Proc (List FgV) := (printPieces p.1 p.2).bind fun e => .ret [fgError e, .stdout]

end Texted.Spec
