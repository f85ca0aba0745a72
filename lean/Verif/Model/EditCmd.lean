import Verif.Model.Script
/-
The `texted edit` command: /repo/commands/edit.go, from the arguments that flag parsing stores. (What pflag makes of the command line is
in Model/CommandLine, of the values of `-e` in Model/Flags; `expressions` is the result.)
-/
namespace Texted

/-- /repo/commands/edit.go:18-33 `runEditArgs`, with the two flags read through `cmd.Flags()` (lines 213, 240). -/
structure EditArgs where
  scriptFormat : Bytes := b! "shell"
  script : Bytes := []
  scriptFile : Bytes := []
  expressions : List Bytes := []
  inPlace : Bool := false
  outputFile : Bytes := []
  backupSuffix : Bytes := []
  verbose : Bool := false
  quiet : Bool := false
  dryRun : Bool := false
  shell : Bool := false
  sexp : Bool := false
  json : Bool := false
  outputFormat : Bytes := b! "shell"
  files : List Bytes := []

/-- `args.verbose && !args.quiet`. -/
def EditArgs.loud (a : EditArgs) : Bool := a.verbose && !a.quiet

/-- /repo/commands/edit.go:187-194: the shorthand flags override `--format`. -/
def EditArgs.format (a : EditArgs) : Bytes :=
  if a.shell then b! "shell" else if a.sexp then b! "sexp" else if a.json then b! "json" else a.scriptFormat

/-- /repo/commands/edit.go:364-396: the text of a result in the output format (what is handed to `fmt.Printf("%s\n", ...)`), or
the error. The shell writer gets the result inside a one-element list. -/
def resultText [Ext] (outputFormat : Bytes) (v : Value) : Except Bytes Bytes :=
  if outputFormat = b! "shell" then
    match shellString (.list [v]) with
    | .ok t => .ok t
    | .error e => .error (b! "writing result: " ++ e)
  else if outputFormat = b! "sexp" then .ok v.toStr
  else if outputFormat = b! "json" then
    match writeJsonValue v with
    | some t => .ok t
    | none => .error (b! "writing result: " ++ jsonUnsupported)
  else .error (b! "invalid output format: " ++ outputFormat ++ b! " (must be shell, sexp, or json)")

/-- /repo/commands/edit.go:325-400 `evaluateExpressionsOnContent` from expression number `i` (counted from 0) on, with the shared
buffer as it is then. (The `default` case of the format switch is unreachable behind the validation.) -/
def evalExpressions [Ext] (a : EditArgs) (source : Bytes) : Nat → List Bytes → Buffer → Proc (Option Bytes)
  | _, [], _ => .ret none
  | i, expr :: rest, b =>
    say a.loud (b! "Evaluating expression " ++ natDec (i + 1) ++ b! " on " ++ source ++ b! ": " ++ expr ++ [nl]) <|
    match parseScript a.format expr with
    | .panic => .panic
    | .err e => say (!a.quiet) (b! "Error parsing expression " ++ natDec (i + 1) ++ b! ": " ++ e ++ [nl])
        (.ret (some (b! "parsing expression: " ++ e)))
    | .ok program =>
      match eval defaultEnv program b with
      | (.panic, _) => .panic
      | (.err e, _) => say (!a.quiet) (b! "Error in expression " ++ natDec (i + 1) ++ b! ": " ++ e.message ++ [nl])
          (.ret (some e.message))
      | (.ok v, b') =>
        if a.quiet then evalExpressions a source (i + 1) rest b'
        else
          match resultText a.outputFormat v with
          | .error e => .ret (some e)
          | .ok text => .act (.print (text ++ [nl])) fun _ => evalExpressions a source (i + 1) rest b'

/-- The file loop of `runExpressions` (/repo/commands/edit.go:294-321); `many` is `len(args.files) > 1`. -/
def expressionsOnFiles [Ext] (a : EditArgs) (many : Bool) : List Bytes → Proc (Option Bytes)
  | [] => .ret none
  | f :: rest =>
    .act (.read f) fun r =>
      match r with
      | .error e => say (!a.quiet) (b! "Error reading " ++ f ++ b! ": " ++ e ++ [nl]) (.ret (some (b! "reading " ++ f ++ b! ": " ++ e)))
      | .ok content =>
        say (many && !a.quiet) (b! "=== " ++ f ++ b! " ===\n") <|
        (evalExpressions a f 0 a.expressions (newBuffer content)).bind fun e =>
          match e with
          | some e => .ret (some e)
          | none => expressionsOnFiles a many rest

/-- /repo/commands/edit.go:276-322 `runExpressions`. -/
def runExpressions [Ext] (a : EditArgs) : Proc (Option Bytes) :=
  if a.files.isEmpty then
    .act .stdin fun r =>
      match r with
      | .error e => .ret (some (b! "reading stdin: " ++ e))
      | .ok content => evalExpressions a (b! "stdin") 0 a.expressions (newBuffer content)
  else expressionsOnFiles a (decide (a.files.length > 1)) a.files

/-- `return os.WriteFile(...)` and `_, err = os.Stdout.WriteString(...); return err`. -/
def returnErr (r : Except Bytes Bytes) : Proc (Option Bytes) :=
  match r with
  | .ok _ => .ret none
  | .error e => .ret (some e)

/-- /repo/commands/edit.go:403-434 `processStdin`. -/
def processStdin [Ext] (a : EditArgs) (script : Bytes) : Proc (Option Bytes) :=
  .act .stdin fun r =>
    match r with
    | .error e => .ret (some (b! "reading stdin: " ++ e))
    | .ok content =>
      say a.loud (b! "Processing stdin with script in " ++ a.format ++ b! " format\n") <|
      if a.dryRun then
        say (!a.quiet) (b! "Would process " ++ natDec content.length ++ b! " bytes from stdin\n") (.ret none)
      else
        match executeScriptWithFormat content script a.format with
        | .panic => .panic
        | .err e => .ret (some e)
        | .ok result =>
          if a.outputFile ≠ [] then
            say a.loud (b! "Writing output to " ++ a.outputFile ++ [nl]) <|
            .act (.write a.outputFile result) returnErr
          else .act (.print result) returnErr

/-- /repo/commands/edit.go:479-502 `processSingleFileToOutput` and :505-529 `processSingleFileToStdout`: `dest` names the
destination in messages and `act` writes the result there. -/
def processSingle [Ext] (a : EditArgs) (script f dest : Bytes) (act : Bytes → Act) : Proc (Option Bytes) :=
  say a.loud (b! "Processing " ++ f ++ b! " -> " ++ dest ++ [nl]) <|
  if a.dryRun then
    say (!a.quiet) (b! "Would process " ++ f ++ b! " and write to " ++ dest ++ [nl]) (.ret none)
  else
    .act (.read f) fun r =>
      match r with
      | .error e => .ret (some (b! "reading " ++ f ++ b! ": " ++ e))
      | .ok content =>
        match executeScriptWithFormat content script a.format with
        | .panic => .panic
        | .err e => .ret (some (b! "processing " ++ f ++ b! ": " ++ e))
        | .ok result => .act (act result) returnErr

/-- A failed file in `processFilesInPlace`: a message unless quiet, `hasErrors = true`, `continue`. -/
def complain (a : EditArgs) (text : Bytes) : Proc Bool := say (!a.quiet) text (.ret true)

/-- /repo/commands/edit.go:575-604: the second half of the loop body of `processFilesInPlace`. The result is whether the file
could not be edited. -/
def inPlaceEdit [Ext] (a : EditArgs) (script f : Bytes) : Proc Bool :=
  .act (.read f) fun r =>
    match r with
    | .error e => complain a (b! "✗ Failed to read " ++ f ++ b! ": " ++ e ++ [nl])
    | .ok content =>
      match executeScriptWithFormat content script a.format with
      | .panic => .panic
      | .err e => complain a (b! "✗ Failed to process " ++ f ++ b! ": " ++ e ++ [nl])
      | .ok result =>
        .act (.write f result) fun r =>
          match r with
          | .error e => complain a (b! "✗ Failed to write " ++ f ++ b! ": " ++ e ++ [nl])
          | .ok _ => say (!a.quiet) (b! "✓ Successfully edited " ++ f ++ [nl]) (.ret false)

/-- /repo/commands/edit.go:535-604: the loop body of `processFilesInPlace`. -/
def inPlaceOne [Ext] (a : EditArgs) (script f : Bytes) : Proc Bool :=
  say a.loud (b! "Processing " ++ f ++ b! " in place\n") <|
  if a.dryRun then
    say (!a.quiet) (b! "Would edit " ++ f ++ b! " in place") <|
    say (!a.quiet && a.backupSuffix ≠ []) (b! " (backup to " ++ f ++ a.backupSuffix ++ b! ")") <|
    say (!a.quiet) [nl] (.ret false)
  else if a.backupSuffix ≠ [] then
    say a.loud (b! "Creating backup " ++ (f ++ a.backupSuffix) ++ [nl]) <|
    .act (.read f) fun r =>
      match r with
      | .error e => complain a (b! "✗ Failed to read " ++ f ++ b! " for backup: " ++ e ++ [nl])
      | .ok content =>
        .act (.write (f ++ a.backupSuffix) content) fun r =>
          match r with
          | .error e => complain a (b! "✗ Failed to create backup " ++ (f ++ a.backupSuffix) ++ b! ": " ++ e ++ [nl])
          | .ok _ => inPlaceEdit a script f
  else inPlaceEdit a script f

/-- The loop of `processFilesInPlace` (/repo/commands/edit.go:533-605): whether some file could not be edited. -/
def inPlaceLoop [Ext] (a : EditArgs) (script : Bytes) : List Bytes → Proc Bool
  | [] => .ret false
  | f :: rest => (inPlaceOne a script f).bind fun bad => (inPlaceLoop a script rest).bind fun bad' => .ret (bad || bad')

/-- /repo/commands/edit.go:532-612 `processFilesInPlace`. -/
def processFilesInPlace [Ext] (a : EditArgs) (script : Bytes) : Proc (Option Bytes) :=
  (inPlaceLoop a script a.files).bind fun bad => .ret (if bad then some (b! "some files could not be edited") else none)

/-- /repo/commands/edit.go:437-476 `processFiles` (called with at least one file). -/
def processFiles [Ext] (a : EditArgs) (script : Bytes) : Proc (Option Bytes) :=
  match a.files with
  | [f] =>
    if a.outputFile ≠ [] then processSingle a script f a.outputFile (.write a.outputFile)
    else if a.inPlace then processFilesInPlace a script
    else processSingle a script f (b! "stdout") .print
  | _ =>
    if !a.inPlace && a.outputFile = [] then .ret (some (b! "multiple files require --in-place or --output flag"))
    else processFilesInPlace a script

/-- /repo/commands/edit.go:249-273: apply the script to standard input or to the files. -/
def applyScript [Ext] (a : EditArgs) (script : Bytes) : Proc (Option Bytes) :=
  if a.files.isEmpty then processStdin a script else processFiles a script

/-- /repo/commands/edit.go:229-247: get the script, then apply it. -/
def runScript [Ext] (a : EditArgs) : Proc (Option Bytes) :=
  if a.scriptFile ≠ [] then
    .act (.read a.scriptFile) fun r =>
      match r with
      | .error e => .ret (some (b! "reading script file: " ++ e))
      | .ok script => applyScript a script
  else if a.script = [] then .ret (some (b! "either --script, --file, or --expression must be specified"))
  else applyScript a a.script

/-- /repo/commands/edit.go:186-273 `runEdit`: the result is the error, if any. -/
def runEdit [Ext] (a : EditArgs) : Proc (Option Bytes) :=
  if !isValidFormat a.format then
    .ret (some (b! "invalid script format: " ++ a.format ++ b! " (must be shell, sexp, or json)"))
  else if a.outputFile ≠ [] ∧ a.files.length > 1 then .ret (some (b! "--output can only be used with a single file"))
  else if a.backupSuffix ≠ [] ∧ !a.inPlace then .ret (some (b! "--backup can only be used with --in-place"))
  else if a.outputFile ≠ [] ∧ a.inPlace then .ret (some (b! "--output and --in-place cannot be used together"))
  else if a.expressions.length > 0 then runExpressions a
  else runScript a

end Texted
