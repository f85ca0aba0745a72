import Verif.Model.Flags
import Verif.Model.ParseCmd
import Verif.Model.TestRunner
import Verif.Model.Docs
/-
From the words of the command line to the arguments of a subcommand. The options are registered in /repo/commands/*.go; the words are cut
into options and operands by pflag v1.0.6 (/repo/go.mod:13), called by cobra v1.9.1 (`Command.execute`). Modelled: the words behind the name
of the subcommand (`texted edit ARGS...`), i.e. pflag's `FlagSet.Parse` with interspersed operands, then cobra's test of the help flag and
the call of `RunE`. Not modelled: how cobra picks the subcommand, completion, the texts of help and usage (a parameter and left out).
-/
namespace Texted

/-- What kind of value an option takes: `Bool` (no value needed), `String`, `StringSlice`. -/
inductive FlagKind
  | bool
  | str
  | slice
  deriving DecidableEq, Repr

/-- A registered option (pflag's `Flag`): name, one-letter shorthand, kind. -/
structure FlagDef where
  name : Bytes
  short : Option UInt8 := none
  kind : FlagKind
  deriving DecidableEq, Repr

/-- cobra's `InitDefaultHelpFlag`: every command has `-h`, `--help`. -/
def helpFlag : FlagDef := { name := b! "help", short := some 104, kind := .bool }

/-- /repo/commands/edit.go:160-183. -/
def editFlags : List FlagDef :=
  [{ name := b! "script", short := some 115, kind := .str },
   { name := b! "file", short := some 102, kind := .str },
   { name := b! "expression", short := some 101, kind := .slice },
   { name := b! "in-place", short := some 105, kind := .bool },
   { name := b! "output", short := some 111, kind := .str },
   { name := b! "backup", kind := .str },
   { name := b! "format", kind := .str },
   { name := b! "shell", kind := .bool },
   { name := b! "sexp", kind := .bool },
   { name := b! "json", kind := .bool },
   { name := b! "verbose", short := some 118, kind := .bool },
   { name := b! "quiet", short := some 113, kind := .bool },
   { name := b! "dry-run", short := some 110, kind := .bool },
   { name := b! "output-format", kind := .str },
   helpFlag]

/-- /repo/commands/parse.go:42-43. -/
def parseFlags : List FlagDef :=
  [{ name := b! "input-format", kind := .str }, { name := b! "output-format", kind := .str }, helpFlag]

/-- /repo/commands/test.go:53-57. -/
def testFlags : List FlagDef :=
  [{ name := b! "verbose", short := some 118, kind := .bool },
   { name := b! "quiet", short := some 113, kind := .bool },
   { name := b! "fail-only", kind := .bool },
   { name := b! "trace", kind := .bool },
   { name := b! "include", short := some 105, kind := .slice },
   helpFlag]

/-- /repo/commands/doc.go:34-35. -/
def docFlags : List FlagDef :=
  [{ name := b! "category", kind := .str }, { name := b! "verbose", short := some 118, kind := .bool }, helpFlag]

/-- Why pflag refuses a command line. -/
inductive FlagError
  /-- `bad flag syntax: %s` -/
  | syntax (word : Bytes)
  /-- `unknown flag: --%s` -/
  | unknown (name : Bytes)
  /-- `unknown shorthand flag: %q in -%s` -/
  | unknownShort (c : UInt8) (word : Bytes)
  /-- `flag needs an argument: %s` -/
  | needsValue (word : Bytes)
  /-- `flag needs an argument: %q in -%s` -/
  | needsValueShort (c : UInt8) (word : Bytes)
  /-- `invalid argument %q for %q flag: %v` -/
  | invalid (value : Bytes) (flag : FlagDef) (reason : Bytes)
  deriving DecidableEq

/-- `strconv.QuoteRune` of the rune with a byte's number (`%q` of a byte). -/
def quoteByteRune [Ext] (c : UInt8) : Bytes :=
  [39] ++ (if c = 39 ∨ c = 92 then [92, c] else if isPrintRune (Char.ofNat c.toNat) then encodeRune (Char.ofNat c.toNat) else escapeNamed c.toNat) ++ [39]

/-- The name of an option in a message (pflag's `FlagSet.Set`). -/
def FlagDef.shown (f : FlagDef) : Bytes :=
  match f.short with
  | some c => b! "-" ++ [c] ++ b! ", --" ++ f.name
  | none => b! "--" ++ f.name

/-- The text of the error. -/
def FlagError.text [Ext] : FlagError → Bytes
  | .syntax w => b! "bad flag syntax: " ++ w
  | .unknown n => b! "unknown flag: --" ++ n
  | .unknownShort c w => b! "unknown shorthand flag: " ++ quoteByteRune c ++ b! " in -" ++ w
  | .needsValue w => b! "flag needs an argument: " ++ w
  | .needsValueShort c w => b! "flag needs an argument: " ++ quoteByteRune c ++ b! " in -" ++ w
  | .invalid v f e => invalidArgument f.shown v e

/-- `strconv.ParseBool`. -/
def parseBool (v : Bytes) : Option Bool :=
  if v = b! "1" ∨ v = b! "t" ∨ v = b! "T" ∨ v = b! "TRUE" ∨ v = b! "true" ∨ v = b! "True" then some true
  else if v = b! "0" ∨ v = b! "f" ∨ v = b! "F" ∨ v = b! "FALSE" ∨ v = b! "false" ∨ v = b! "False" then some false
  else none

/-- `Value.Set` as far as it can fail: a boolean must be one, the value of a slice must be a CSV record. -/
def checkValue [Ext] (f : FlagDef) (v : Bytes) : Except FlagError (FlagDef × Bytes) :=
  match f.kind with
  | .str => .ok (f, v)
  | .bool =>
    match parseBool v with
    | some _ => .ok (f, v)
    | none => .error (.invalid v f (b! "strconv.ParseBool: parsing " ++ quote v ++ b! ": invalid syntax"))
  | .slice =>
    match readAsCSV v with
    | .ok _ => .ok (f, v)
    | .error e => .error (.invalid v f e)

/-- `f.formal[name]`: names are distinct. -/
def findLong (defs : List FlagDef) (n : Bytes) : Option FlagDef := defs.find? (fun f => f.name = n)

/-- `f.shorthands[c]`. -/
def findShort (defs : List FlagDef) (c : UInt8) : Option FlagDef := defs.find? (fun f => f.short = some c)

/-- `strings.SplitN(name, "=", 2)`: the part before the first `=` and, if there is one, the part behind it. -/
def cutEquals : Bytes → Bytes × Option Bytes
  | [] => ([], none)
  | c :: r => if c = 61 then ([], some r) else ((c :: (cutEquals r).1), (cutEquals r).2)

/-- What one word with options gives: settings, and the option that still needs the next word as its value. -/
abbrev WordRead := List (FlagDef × Bytes) × Option FlagDef

/-- pflag's `parseLongArg` for the word `--` ++ `name`, without the next word. -/
def readLong [Ext] (defs : List FlagDef) (name : Bytes) : Except FlagError WordRead :=
  if name.head? = some 45 ∨ name.head? = some 61 then .error (.syntax (b! "--" ++ name))
  else
    match findLong defs (cutEquals name).1 with
    | none => .error (.unknown (cutEquals name).1)
    | some f =>
      match (cutEquals name).2 with
      | some v => (checkValue f v).map fun s => ([s], none)
      | none => if f.kind = .bool then .ok ([(f, b! "true")], none) else .ok ([], some f)

/-- pflag's `parseShortArg` with `parseSingleShortArg` for the word `-` ++ `s`, without the next word. A rest that begins with `test.` is
skipped (an allowance for the flags of `go test`). -/
def readShort [Ext] (defs : List FlagDef) : Bytes → Except FlagError WordRead
  | [] => .ok ([], none)
  | c :: r =>
    if b! "test." <+: c :: r then .ok ([], none)
    else
      match findShort defs c with
      | none => .error (.unknownShort c (c :: r))
      | some f =>
        if r.length > 1 ∧ r.head? = some 61 then (checkValue f (r.drop 1)).map fun s => ([s], none)
        else if f.kind = .bool then
          match readShort defs r with
          | .error e => .error e
          | .ok (l, need) => .ok ((f, b! "true") :: l, need)
        else if r ≠ [] then (checkValue f r).map fun s => ([s], none)
        else .ok ([], some f)

/-- One word with options: it begins with `-`, and is neither `-` nor `--`. -/
def readWord [Ext] (defs : List FlagDef) (w : Bytes) : Except FlagError WordRead :=
  if b! "--" <+: w then readLong defs (w.drop 2) else readShort defs (w.drop 1)

/-- The error when the value is missing: `parseLongArg` and `parseSingleShortArg`. -/
def missingValue (w : Bytes) (f : FlagDef) : FlagError :=
  if b! "--" <+: w then .needsValue w
  else .needsValueShort (f.short.getD 0) [f.short.getD 0]

/-- Settings in front of what the rest of the line gives. -/
def addSettings (l : List (FlagDef × Bytes)) : Except FlagError (List (FlagDef × Bytes) × List Bytes) → Except FlagError (List (FlagDef × Bytes) × List Bytes)
  | .ok (s, files) => .ok (l ++ s, files)
  | .error e => .error e

/-- pflag's `FlagSet.parseArgs` (interspersed operands, cobra's default): the settings in order, and the operands. -/
def parseWords [Ext] (defs : List FlagDef) : List Bytes → Except FlagError (List (FlagDef × Bytes) × List Bytes)
  | [] => .ok ([], [])
  | w :: rest =>
    if w.head? ≠ some 45 ∨ w.length = 1 then
      match parseWords defs rest with
      | .ok (s, files) => .ok (s, w :: files)
      | .error e => .error e
    else if w = b! "--" then .ok ([], rest)
    else
      match readWord defs w with
      | .error e => .error e
      | .ok (l, none) => addSettings l (parseWords defs rest)
      | .ok (l, some f) =>
        match rest with
        | [] => .error (missingValue w f)
        | v :: rest' =>
          match checkValue f v with
          | .error e => .error e
          | .ok s => addSettings (l ++ [s]) (parseWords defs rest')

/-- The variable behind a `String` option after all settings: the last one, or the default. -/
def strSetting (l : List (FlagDef × Bytes)) (n dflt : Bytes) : Bytes :=
  l.foldl (fun acc s => if s.1.name = n then s.2 else acc) dflt

/-- The variable behind a `Bool` option (default false). -/
def boolSetting (l : List (FlagDef × Bytes)) (n : Bytes) : Bool :=
  l.foldl (fun acc s => if s.1.name = n then (parseBool s.2).getD acc else acc) false

/-- The values given to a `StringSlice` option, one for each occurrence. -/
def sliceSettings (l : List (FlagDef × Bytes)) (n : Bytes) : List Bytes := (l.filter (fun s => s.1.name = n)).map (·.2)

/-- /repo/commands/edit.go:115-158: the variables of `NewEditCommand` after parsing, and what `RunE` passes on (`expressions` is read
later, in `runEdit`). -/
def editArgs (l : List (FlagDef × Bytes)) (files : List Bytes) : EditArgs :=
  { scriptFormat := strSetting l (b! "format") (b! "shell")
    script := strSetting l (b! "script") []
    scriptFile := strSetting l (b! "file") []
    expressions := []
    inPlace := boolSetting l (b! "in-place")
    outputFile := strSetting l (b! "output") []
    backupSuffix := strSetting l (b! "backup") []
    verbose := boolSetting l (b! "verbose")
    quiet := boolSetting l (b! "quiet")
    dryRun := boolSetting l (b! "dry-run")
    shell := boolSetting l (b! "shell")
    sexp := boolSetting l (b! "sexp")
    json := boolSetting l (b! "json")
    outputFormat := strSetting l (b! "output-format") (b! "shell")
    files := files }

/-- `texted edit ARGS...` (/repo/commands/edit.go:111-184 run by cobra): a refused command line is an error before `RunE`; with the help
flag the help is printed and that is all. The error is what `Execute` returns; that it is also printed, with the usage, to standard error is
left out. -/
def editMain [Ext] (help : Bytes) (words : List Bytes) : Proc (Option Bytes) :=
  match parseWords editFlags words with
  | .error e => .ret (some e.text)
  | .ok (l, files) =>
    if boolSetting l (b! "help") then .act (.print help) fun _ => .ret none
    else editCommand (sliceSettings l (b! "expression")) (editArgs l files)

/-- `texted parse ARGS...` (/repo/commands/parse.go:23-46): operands are ignored. What is written to standard output and the command's
error; `none`: the process crashes. -/
def parseMain [Ext] (help : Bytes) (words : List Bytes) (stdin : Bytes) : Option Written :=
  match parseWords parseFlags words with
  | .error e => some { out := [], err := some e.text }
  | .ok (l, _) =>
    if boolSetting l (b! "help") then some { out := help, err := none }
    else runParse (strSetting l (b! "input-format") (b! "shell")) (strSetting l (b! "output-format") (b! "sexp")) stdin

/-- `texted test ARGS...` (/repo/commands/test.go:27-60): what is printed, and the exit status. (`include` is the variable pflag
fills, see `setStringSlice`; its error case cannot occur behind `parseWords`.) -/
def testMain [Ext] (help : Bytes) (load : Bytes → Except Bytes TestCase) (glob : List Bytes) (words : List Bytes) : Option (Bytes × Nat) :=
  match parseWords testFlags words with
  | .error _ => some ([], 1)
  | .ok (l, files) =>
    if boolSetting l (b! "help") then some (help, 0)
    else match setStringSlice (sliceSettings l (b! "include")) with
      | .error _ => some ([], 1)
      | .ok pats => runTests load glob
          { testFiles := files, includePatterns := pats, verbose := boolSetting l (b! "verbose"), quiet := boolSetting l (b! "quiet"),
            failOnly := boolSetting l (b! "fail-only"), trace := boolSetting l (b! "trace") }

/-- `texted doc ARGS...` (/repo/commands/doc.go:14-38): what can be printed, or the error. -/
def DocMain [Ext] (help : Bytes) (title : Bytes → Bytes) (reg : Registry) (words : List Bytes) (out : Except Bytes Bytes) : Prop :=
  match parseWords docFlags words with
  | .error e => out = .error e.text
  | .ok (l, args) =>
    if boolSetting l (b! "help") then out = .ok help
    else RunDoc title reg args (strSetting l (b! "category") []) (boolSetting l (b! "verbose")) out

end Texted
