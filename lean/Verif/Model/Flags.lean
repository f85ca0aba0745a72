import Verif.Model.EditCmd
/-
The repeatable options: `-e`, `--expression` of `texted edit` is registered with pflag's `StringSliceP` and read with
`GetStringSlice` (/repo/commands/edit.go:163, 213), `-i`, `--include` of `texted test` with `StringSliceVarP`
(/repo/commands/test.go:57). pflag v1.0.6 (/repo/go.mod:13) takes each value for one record of comma-separated values
(package encoding/csv, default settings). Not modelled: the position in the error texts of encoding/csv. (How the command
line is cut into options and values is in Model/CommandLine.)
-/
namespace Texted

/-- `csv.Reader.readLine` over a whole text: CR LF becomes LF, a CR at the very end is dropped. -/
def csvNormal : Bytes → Bytes
  | [] => []
  | 13 :: r =>
    match r with
    | [] => []
    | 10 :: r' => 10 :: csvNormal r'
    | c :: r' => 13 :: csvNormal (c :: r')
  | c :: r => c :: csvNormal r

/-- Where `csv.Reader.readRecord` is: at the start of a field, in a field without quotes, in a quoted field, behind a quote in
a quoted field. -/
inductive CsvMode
  | start
  | bare (field : Bytes)
  | quoted (field : Bytes)
  | closed (field : Bytes)
  deriving DecidableEq

/-- `csv.ErrBareQuote`. -/
def errBareQuote : Bytes := b! "bare \" in non-quoted field"

/-- `csv.ErrQuote`. -/
def errQuote : Bytes := b! "extraneous or missing \" in quoted-field"

/-- One more field in front, unless the record is broken. -/
def csvEmit (f : Bytes) : Except Bytes (List Bytes) → Except Bytes (List Bytes)
  | .ok fs => .ok (f :: fs)
  | .error e => .error e

/-- `csv.Reader.readRecord` (Comma `,`, no Comment, LazyQuotes and TrimLeadingSpace off), byte by byte: the record ends with the
first newline outside quotes or with the text. -/
def csvScan : CsvMode → Bytes → Except Bytes (List Bytes)
  | .start, [] => .ok [[]]
  | .start, c :: r =>
    if c = nl then .ok [[]]
    else if c = 34 then csvScan (.quoted []) r
    else if c = 44 then csvEmit [] (csvScan .start r)
    else csvScan (.bare [c]) r
  | .bare f, [] => .ok [f]
  | .bare f, c :: r =>
    if c = nl then .ok [f]
    else if c = 34 then .error errBareQuote
    else if c = 44 then csvEmit f (csvScan .start r)
    else csvScan (.bare (f ++ [c])) r
  | .quoted _, [] => .error errQuote
  | .quoted f, c :: r => if c = 34 then csvScan (.closed f) r else csvScan (.quoted (f ++ [c])) r
  | .closed f, [] => .ok [f]
  | .closed f, c :: r =>
    if c = 34 then csvScan (.quoted (f ++ [34])) r
    else if c = 44 then csvEmit f (csvScan .start r)
    else if c = nl then .ok [f]
    else .error errQuote

/-- pflag's `readAsCSV`: the first record of the text, empty lines before it skipped (`csv.Reader.Read`). -/
def readAsCSV (val : Bytes) : Except Bytes (List Bytes) :=
  if val = [] then .ok []
  else match (csvNormal val).dropWhile (· = nl) with
    | [] => .error b! "EOF"
    | s => csvScan .start s

/-- `csv.Writer.fieldNeedsQuotes`. -/
def csvNeedsQuotes (f : Bytes) : Bool :=
  f ≠ [] && (f = b! "\\." || f.any (fun c => c = nl || c = 13 || c = 34 || c = 44) || isSpace (decodeRune f).1)

/-- The inside of a quoted field as `csv.Writer.Write` puts it: quotes doubled. -/
def csvEscape : Bytes → Bytes
  | [] => []
  | c :: r => if c = 34 then 34 :: 34 :: csvEscape r else c :: csvEscape r

/-- One field of `csv.Writer.Write`. -/
def csvField (f : Bytes) : Bytes := if csvNeedsQuotes f then [34] ++ csvEscape f ++ [34] else f

/-- pflag's `writeAsCSV`: one record without the newline at its end. -/
def writeAsCSV (vals : List Bytes) : Bytes := joinWith [44] (vals.map csvField)

/-- pflag's `stringSliceValue.Set` for every occurrence of the option, in order: the value of the option, or the occurrence
that was refused and why. -/
def setStringSlice : List Bytes → Except (Bytes × Bytes) (List Bytes)
  | [] => .ok []
  | v :: r =>
    match readAsCSV v with
    | .error e => .error (v, e)
    | .ok l =>
      match setStringSlice r with
      | .error e => .error e
      | .ok l' => .ok (l ++ l')

/-- pflag's `GetStringSlice`: the value is printed in brackets (`stringSliceValue.String`), the brackets are cut off and the
text is read again (`stringSliceConv`). -/
def getStringSlice (vals : List Bytes) : Except Bytes (List Bytes) := readAsCSV (writeAsCSV vals)

/-- pflag's error for a refused value, as the command returns it (the position is left out of `e`). -/
def invalidArgument [Ext] (flag v e : Bytes) : Bytes :=
  b! "invalid argument " ++ quote v ++ b! " for " ++ quote flag ++ b! " flag: " ++ e

/-- `texted edit` with the given values of `-e`: /repo/commands/edit.go:163 and 213-216. If a value is refused, `runEdit` is not
reached. (The last case cannot occur, see `C68_second_reading`; the checks of `runEdit` before line 213 are not repeated in it.) -/
def editCommand [Ext] (occurrences : List Bytes) (a : EditArgs) : Proc (Option Bytes) :=
  match setStringSlice occurrences with
  | .error (v, e) => .ret (some (invalidArgument (b! "-e, --expression") v e))
  | .ok vals =>
    match getStringSlice vals with
    | .ok es => runEdit { a with expressions := es }
    | .error e => .ret (some (b! "getting expression flag: " ++ e))

end Texted
