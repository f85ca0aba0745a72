import Verif.Model.CommandLine
import Verif.Spec.Flags
/-
What the words of a command line mean, independently of how they are read: the ways to write an option, in terms of the table of
registered options (`FlagDef` is data only), and what a list of settings amounts to.
-/
namespace Texted
namespace Spec

/-! ### Values of repeatable options: one record of comma-separated values -/

/-- The text with every CR LF turned into LF and a CR at the very end dropped. -/
def csvLines (v : Bytes) : Bytes := if (unCRLF v).getLast? = some 13 then (unCRLF v).dropLast else unCRLF v

/-- A field: without quotes, commas and line ends it stands for itself; in quotes anything is possible. -/
inductive CsvField : Bytes → Bytes → Prop
  | bare {f} : (∀ c ∈ f, c ≠ 34 ∧ c ≠ 44 ∧ c ≠ 10) → CsvField f f
  | quoted {f} : CsvField (csvQuoted f) f

/-- Fields between commas, up to the end of the line or of the text. -/
inductive CsvFields : Bytes → List Bytes → Prop
  | last {t f rest} : CsvField t f → (rest = [] ∨ ∃ r, rest = 10 :: r) → CsvFields (t ++ rest) [f]
  | more {t f rest fs} : CsvField t f → CsvFields rest fs → CsvFields (t ++ 44 :: rest) (f :: fs)

/-- The strings in one value of a repeatable option: none in an empty value; otherwise the fields of the first line that is not empty. -/
inductive CsvValue : Bytes → List Bytes → Prop
  | empty : CsvValue [] []
  | record {v n rest fs} : csvLines v = List.replicate n 10 ++ rest → rest ≠ [] → rest.head? ≠ some 10 → CsvFields rest fs → CsvValue v fs

/-! ### Options -/

/-- The values a boolean option can be given. -/
def trueWords : List Bytes := [b! "1", b! "t", b! "T", b! "true", b! "True", b! "TRUE"]
def falseWords : List Bytes := [b! "0", b! "f", b! "F", b! "false", b! "False", b! "FALSE"]

/-- The option can be given this value. -/
def Accepts (f : FlagDef) (v : Bytes) : Prop :=
  match f.kind with
  | .str => True
  | .bool => v ∈ trueWords ∨ v ∈ falseWords
  | .slice => ∃ fs, CsvValue v fs

/-- A sensible table of options: names are not empty, do not begin with `-` and have no `=` in them; names and letters are distinct; no
option is called `-t` (for the words that begin with `-test.`) or `--`. -/
structure GoodTable (defs : List FlagDef) : Prop where
  name : ∀ f ∈ defs, f.name ≠ [] ∧ f.name.head? ≠ some 45 ∧ 61 ∉ f.name
  distinct : ∀ f ∈ defs, ∀ g ∈ defs, f.name = g.name → f = g
  letters : ∀ f ∈ defs, ∀ g ∈ defs, f.short ≠ none → f.short = g.short → f = g
  noT : ∀ f ∈ defs, f.short ≠ some 116 ∧ f.short ≠ some 45

/-- The option needs a value. -/
def TakesValue (f : FlagDef) : Prop := f.kind ≠ .bool

/-- The rest of a word with one-letter options is an explicit value: `=` and something. -/
def Assigns (r : Bytes) : Prop := ∃ v, v ≠ [] ∧ r = 61 :: v

/-- A word with one-letter options, without its `-`: the settings it gives, and the option whose value is the next word. -/
inductive Cluster (defs : List FlagDef) : Bytes → List (FlagDef × Bytes) → Option FlagDef → Prop
  /-- nothing more -/
  | done : Cluster defs [] [] none
  /-- a boolean option, then more of them -/
  | switch {f c r l need} : f ∈ defs → f.short = some c → f.kind = .bool → ¬ Assigns r → Cluster defs r l need →
      Cluster defs (c :: r) ((f, b! "true") :: l) need
  /-- `-o=value` -/
  | equals {f c v} : f ∈ defs → f.short = some c → v ≠ [] → Accepts f v → Cluster defs (c :: 61 :: v) [(f, v)] none
  /-- `-ovalue` -/
  | joined {f c v} : f ∈ defs → f.short = some c → TakesValue f → v ≠ [] → ¬ Assigns v → Accepts f v → Cluster defs (c :: v) [(f, v)] none
  /-- `-o value` -/
  | next {f c} : f ∈ defs → f.short = some c → TakesValue f → Cluster defs [c] [] (some f)
  /-- a rest that begins with `test.` is ignored -/
  | ignored {r} : Cluster defs (b! "test." ++ r) [] none

/-- Options as they are written, in one or two words. -/
inductive OptionWords (defs : List FlagDef) : List Bytes → List (FlagDef × Bytes) → Prop
  /-- `--name` -/
  | switch {f} : f ∈ defs → f.kind = .bool → OptionWords defs [b! "--" ++ f.name] [(f, b! "true")]
  /-- `--name=value` -/
  | assigned {f v} : f ∈ defs → Accepts f v → OptionWords defs [b! "--" ++ f.name ++ b! "=" ++ v] [(f, v)]
  /-- `--name value` -/
  | separate {f v} : f ∈ defs → TakesValue f → Accepts f v → OptionWords defs [b! "--" ++ f.name, v] [(f, v)]
  /-- `-abc`, `-o=value`, `-ovalue` -/
  | letters {r l} : r ≠ [] → r.head? ≠ some 45 → Cluster defs r l none → OptionWords defs [b! "-" ++ r] l
  /-- `-o value`, `-abo value` -/
  | lettersValue {r l f v} : r.head? ≠ some 45 → Cluster defs r l (some f) → Accepts f v → OptionWords defs [b! "-" ++ r, v] (l ++ [(f, v)])

/-- An operand: a word that does not begin with `-`, or just `-`. -/
def Operand (w : Bytes) : Prop := w.head? ≠ some 45 ∨ w = b! "-"

/-- A whole command line: options and operands in any order; behind `--` all words are operands. -/
inductive CommandLine (defs : List FlagDef) : List Bytes → List (FlagDef × Bytes) → List Bytes → Prop
  | nil : CommandLine defs [] [] []
  | dashes {files} : CommandLine defs (b! "--" :: files) [] files
  | operand {w ws l files} : Operand w → CommandLine defs ws l files → CommandLine defs (w :: ws) l (w :: files)
  | option {o ws s l files} : OptionWords defs o s → CommandLine defs ws l files → CommandLine defs (o ++ ws) (s ++ l) files

/-- Words that are complete in themselves and do not end the options: what may stand before any other words. -/
inductive Whole (defs : List FlagDef) : List Bytes → Prop
  | nil : Whole defs []
  | operand {w ws} : Operand w → Whole defs ws → Whole defs (w :: ws)
  | option {o ws s} : OptionWords defs o s → Whole defs ws → Whole defs (o ++ ws)

/-! ### What the settings amount to -/

/-- The last value given to the option; the default if it is not given. -/
inductive Last (l : List (FlagDef × Bytes)) (name dflt : Bytes) : Bytes → Prop
  | given {pre f v post} : l = pre ++ (f, v) :: post → f.name = name → (∀ s ∈ post, s.1.name ≠ name) → Last l name dflt v
  | absent : (∀ s ∈ l, s.1.name ≠ name) → Last l name dflt dflt

/-- The option is on: the last value given to it is a true one. -/
def On (l : List (FlagDef × Bytes)) (name : Bytes) : Prop := ∃ v, Last l name (b! "false") v ∧ v ∈ trueWords

/-- The strings given to a repeatable option, over all its occurrences. -/
inductive Strings (name : Bytes) : List (FlagDef × Bytes) → List Bytes → Prop
  | nil : Strings name [] []
  | other {f v l fs} : f.name ≠ name → Strings name l fs → Strings name ((f, v) :: l) fs
  | given {f v l fs fs'} : f.name = name → CsvValue v fs → Strings name l fs' → Strings name ((f, v) :: l) (fs ++ fs')

/-- The arguments of `texted edit` that settings and operands stand for. (CR LF in the expressions becomes LF, and a single empty
expression is none.) -/
structure EditMeaning (l : List (FlagDef × Bytes)) (files : List Bytes) (a : EditArgs) : Prop where
  script : Last l (b! "script") [] a.script
  scriptFile : Last l (b! "file") [] a.scriptFile
  scriptFormat : Last l (b! "format") (b! "shell") a.scriptFormat
  outputFile : Last l (b! "output") [] a.outputFile
  backupSuffix : Last l (b! "backup") [] a.backupSuffix
  outputFormat : Last l (b! "output-format") (b! "shell") a.outputFormat
  inPlace : a.inPlace = true ↔ On l (b! "in-place")
  verbose : a.verbose = true ↔ On l (b! "verbose")
  quiet : a.quiet = true ↔ On l (b! "quiet")
  dryRun : a.dryRun = true ↔ On l (b! "dry-run")
  shell : a.shell = true ↔ On l (b! "shell")
  sexp : a.sexp = true ↔ On l (b! "sexp")
  json : a.json = true ↔ On l (b! "json")
  expressions : ∃ fs, Strings (b! "expression") l fs ∧ a.expressions = if fs = [[]] then [] else fs.map unCRLF
  files : a.files = files

end Spec
end Texted
