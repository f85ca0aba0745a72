import Verif.Model.Script
import Verif.Model.Writer
/-
The command `texted parse`: /repo/commands/parse.go. Standard input is a byte string, standard output the bytes written.
-/
namespace Texted

/-- /repo/commands/parse.go:79-90 `parseInput`. -/
def parseInput (stdin f : Bytes) : Res Bytes (List Value) :=
  if f = b! "shell" then parseString stdin
  else if f = b! "sexp" then parseString stdin
  else if f = b! "json" then Res.ofExcept (parseJsonReader stdin)
  else .err (b! "unsupported input format: " ++ f)

/-- /repo/commands/parse.go:93-99 `writeOutput`, with /repo/edlisp/writer/writer.go:26-37 `NewWriter`. -/
def writeOutput [Ext] (exprs : List Value) (f : Bytes) : Written :=
  if f = b! "shell" then writeShell exprs
  else if f = b! "sexp" then writeSexp exprs
  else if f = b! "json" then writeJson exprs
  else { out := [], err := some (b! "unsupported output format: " ++ f) }

/-- /repo/commands/parse.go:49-66 `runParse`: what is written to standard output and the command's error. `none`: the
process crashes. -/
def runParse [Ext] (inputFormat outputFormat stdin : Bytes) : Option Written :=
  if !isValidFormat inputFormat then
    some { out := [], err := some (b! "invalid input format: " ++ inputFormat ++ b! " (must be shell, sexp, or json)") }
  else if !isValidFormat outputFormat then
    some { out := [], err := some (b! "invalid output format: " ++ outputFormat ++ b! " (must be shell, sexp, or json)") }
  else match parseInput stdin inputFormat with
    | .err e => some { out := [], err := some (b! "parsing input: " ++ e) }
    | .panic => none
    | .ok p => some (writeOutput p outputFormat)

end Texted
