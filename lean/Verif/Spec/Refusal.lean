import Verif.Spec.CommandLine
/-
Why a command line is refused, and what the message says: C68, C71. Independent of how the words are read.
-/
namespace Texted
namespace Spec
variable [Ext]

/-! ### Values of repeatable options that are not records -/

/-- What is wrong with the fields of a line. -/
inductive CsvBad : Bytes → Bytes → Prop
  /-- a quote inside a field that does not begin with one -/
  | bare {f rest} : f ≠ [] → (∀ c ∈ f, c ≠ 34 ∧ c ≠ 44 ∧ c ≠ 10) → CsvBad (f ++ 34 :: rest) (b! "bare \" in non-quoted field")
  /-- something behind the closing quote that is neither a comma nor the end of the line -/
  | behind {f c rest} : c ≠ 34 → c ≠ 44 → c ≠ 10 → CsvBad (csvQuoted f ++ c :: rest) (b! "extraneous or missing \" in quoted-field")
  /-- a quote that is never closed -/
  | unclosed {t f} : t ++ [34] = csvQuoted f → CsvBad t (b! "extraneous or missing \" in quoted-field")
  /-- the same further on -/
  | more {t f rest e} : CsvField t f → CsvBad rest e → CsvBad (t ++ 44 :: rest) e

/-- What is wrong with a value of a repeatable option: there is no line in it, or the first line that is not empty is broken. -/
inductive CsvWrong : Bytes → Bytes → Prop
  | noLine {v n} : v ≠ [] → csvLines v = List.replicate n 10 → CsvWrong v (b! "EOF")
  | line {v n rest e} : csvLines v = List.replicate n 10 ++ rest → rest.head? ≠ some 10 → CsvBad rest e → CsvWrong v e

/-! ### Options -/

/-- The option as messages show it: `-s, --script`, or `--backup` if it has no letter. -/
def optionShown (f : FlagDef) : Bytes :=
  match f.short with
  | some c => [45, c] ++ b! ", --" ++ f.name
  | none => b! "--" ++ f.name

/-- A letter as messages show it: in single quotes. (Other bytes are escaped as in a Go character literal.) -/
def letterShown (c : UInt8) : Bytes := if 32 ≤ c ∧ c < 127 ∧ c ≠ 39 ∧ c ≠ 92 then [39, c, 39] else quoteByteRune c

/-- The option does not take the value: what the message says. -/
inductive BadValue (f : FlagDef) (v : Bytes) : Bytes → Prop
  | switch : f.kind = .bool → v ∉ trueWords → v ∉ falseWords →
      BadValue f v (b! "invalid argument " ++ quote v ++ b! " for " ++ quote (optionShown f) ++ b! " flag: strconv.ParseBool: parsing " ++ quote v ++
        b! ": invalid syntax")
  | list {e} : f.kind = .slice → CsvWrong v e → BadValue f v (b! "invalid argument " ++ quote v ++ b! " for " ++ quote (optionShown f) ++ b! " flag: " ++ e)

/-- What is wrong with a word of one-letter options (given without its `-`) by itself. -/
inductive BadLetters (defs : List FlagDef) : Bytes → Bytes → Prop
  /-- there is no such letter; the message shows it with the letters behind it -/
  | unknown {c r} : (∀ f ∈ defs, f.short ≠ some c) → ¬ b! "test." <+: c :: r →
      BadLetters defs (c :: r) (b! "unknown shorthand flag: " ++ letterShown c ++ b! " in -" ++ c :: r)
  /-- `-o=value` -/
  | equals {f c v m} : f ∈ defs → f.short = some c → v ≠ [] → BadValue f v m → BadLetters defs (c :: 61 :: v) m
  /-- `-ovalue` -/
  | joined {f c v m} : f ∈ defs → f.short = some c → TakesValue f → ¬ Assigns v → v ≠ [] → BadValue f v m → BadLetters defs (c :: v) m
  /-- the same behind a boolean option -/
  | more {f c r m} : f ∈ defs → f.short = some c → f.kind = .bool → ¬ Assigns r → BadLetters defs r m → BadLetters defs (c :: r) m

/-- What is wrong with a word of options by itself. -/
inductive BadWord (defs : List FlagDef) : Bytes → Bytes → Prop
  /-- `---x`, `--=x` -/
  | dashes {r} : r.head? = some 45 ∨ r.head? = some 61 → BadWord defs (b! "--" ++ r) (b! "bad flag syntax: --" ++ r)
  /-- `--unknown` -/
  | unknown {n} : n ≠ [] → n.head? ≠ some 45 → 61 ∉ n → (∀ f ∈ defs, f.name ≠ n) → BadWord defs (b! "--" ++ n) (b! "unknown flag: --" ++ n)
  /-- `--unknown=value` -/
  | unknownAssigned {n v} : n ≠ [] → n.head? ≠ some 45 → 61 ∉ n → (∀ f ∈ defs, f.name ≠ n) →
      BadWord defs (b! "--" ++ n ++ b! "=" ++ v) (b! "unknown flag: --" ++ n)
  /-- `--name=value` -/
  | assigned {f v m} : f ∈ defs → BadValue f v m → BadWord defs (b! "--" ++ f.name ++ b! "=" ++ v) m
  /-- `-abc` -/
  | letters {r m} : r.head? ≠ some 45 → BadLetters defs r m → BadWord defs (b! "-" ++ r) m

/-- The command line is refused: the first thing that is wrong with it, and the message. -/
inductive Misread (defs : List FlagDef) : List Bytes → Bytes → Prop
  /-- a word is wrong by itself -/
  | word {pre w rest m} : Whole defs pre → BadWord defs w m → Misread defs (pre ++ w :: rest) m
  /-- the last word is `--name`, and the option needs a value -/
  | missing {pre f} : Whole defs pre → f ∈ defs → TakesValue f → Misread defs (pre ++ [b! "--" ++ f.name]) (b! "flag needs an argument: --" ++ f.name)
  /-- the last word is `-o`, or other letters with such an option at their end -/
  | missingLetter {pre r l f c} : Whole defs pre → r.head? ≠ some 45 → Cluster defs r l (some f) → f.short = some c →
      Misread defs (pre ++ [b! "-" ++ r]) (b! "flag needs an argument: " ++ letterShown c ++ b! " in -" ++ [c])
  /-- `--name value` -/
  | value {pre f v rest m} : Whole defs pre → f ∈ defs → TakesValue f → BadValue f v m → Misread defs (pre ++ (b! "--" ++ f.name) :: v :: rest) m
  /-- `-o value` -/
  | valueLetter {pre r l f v rest m} : Whole defs pre → r.head? ≠ some 45 → Cluster defs r l (some f) → BadValue f v m →
      Misread defs (pre ++ (b! "-" ++ r) :: v :: rest) m

end Spec
end Texted
