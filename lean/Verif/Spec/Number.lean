import Verif.Spec.Float
import Verif.Spec.Literal
/- Which texts are numbers and which numbers they are (Go's floating-point literals with an optional sign). -/
namespace Texted
namespace Spec

/-- The byte of an ASCII character. -/
def ch (c : Char) : UInt8 := UInt8.ofNat c.toNat

/-- A digit in that base. -/
def IsDigit (base : Nat) (c : UInt8) : Prop := ∃ d, digit? (Char.ofNat c.toNat) = some d ∧ d < base

/-- Digits with underscores in between or around them. -/
def DigitRun (base : Nat) (t : Bytes) : Prop := ∀ c ∈ t, IsDigit base c ∨ c = ch '_'

/-- The text without underscores. -/
def digitsOnly (t : Bytes) : Bytes := t.filter (· ≠ ch '_')

/-- The number a run of digits stands for. -/
def runValue (base : Nat) (t : Bytes) : Nat := numeral base ((digitsOnly t).map fun c => Char.ofNat c.toNat)

/-- An optional sign; the truth value says whether it is a minus. -/
inductive SignText : Bytes → Bool → Prop
  | none : SignText [] false
  | plus : SignText [ch '+'] false
  | minus : SignText [ch '-'] true

/-- Digits with an optional point, at least one digit: the number without the point, and the number of digits behind the point. -/
def MantissaText (base : Nat) (t : Bytes) (n frac : Nat) : Prop :=
  ∃ i f, (t = i ∧ f = [] ∨ t = i ++ ch '.' :: f) ∧ DigitRun base (i ++ f) ∧ digitsOnly (i ++ f) ≠ [] ∧
    n = runValue base (i ++ f) ∧ frac = (digitsOnly f).length

/-- The exponent that is used: digits that follow once the number has reached 10000 are ignored (see `exponent_exact`: exponents below
100000 are read as they are). -/
def exponentValue (ds : Bytes) : Nat :=
  (digitsOnly ds).foldl (fun e c => if e < 10000 then e * 10 + (digit? (Char.ofNat c.toNat)).getD 0 else e) 0

/-- A letter, an optional sign and decimal digits. -/
def ExponentText (lower upper : Char) (t : Bytes) (k : Int) : Prop :=
  ∃ m sg neg ds, t = m :: (sg ++ ds) ∧ (m = ch lower ∨ m = ch upper) ∧ SignText sg neg ∧ DigitRun 10 ds ∧ (∃ c ∈ ds.head?, IsDigit 10 c) ∧
    k = if neg then -(exponentValue ds : Int) else exponentValue ds

/-- `0x` or `0X`. -/
def HexMark (t : Bytes) : Prop := t = [ch '0', ch 'x'] ∨ t = [ch '0', ch 'X']

/-- `Denotes t neg n b k`: the text stands for `n * b^k`, negated if `neg`. -/
inductive Denotes : Bytes → Bool → Nat → Nat → Int → Prop
  | decimal (sg : Bytes) (neg : Bool) (mant : Bytes) (n frac : Nat) (ex : Bytes) (k : Int) : SignText sg neg → MantissaText 10 mant n frac →
      (ex = [] ∧ k = 0 ∨ ExponentText 'e' 'E' ex k) → Denotes (sg ++ mant ++ ex) neg n 10 (k - frac)
  | hex (sg : Bytes) (neg : Bool) (mark mant : Bytes) (n frac : Nat) (ex : Bytes) (k : Int) : SignText sg neg → HexMark mark →
      MantissaText 16 mant n frac → ExponentText 'p' 'P' ex k → Denotes (sg ++ mark ++ mant ++ ex) neg n 2 (k - 4 * frac)

/-- The text is a hexadecimal number. -/
def IsHex (t : Bytes) : Prop := ∃ sg neg mark r, SignText sg neg ∧ HexMark mark ∧ t = sg ++ mark ++ r

/-- A digit as underscores may separate them. -/
def SeparatedDigit (t : Bytes) (c : UInt8) : Prop := IsDigit 10 c ∨ (IsHex t ∧ IsDigit 16 c)

/-- Every underscore stands between two digits, or between `0x` and a digit. -/
def UnderscoresSeparate (t : Bytes) : Prop :=
  ∀ a b, t = a ++ ch '_' :: b → (∃ c ∈ b.head?, SeparatedDigit t c) ∧
    ((∃ c ∈ a.getLast?, SeparatedDigit t c) ∨ ∃ sg neg mark, SignText sg neg ∧ HexMark mark ∧ a = sg ++ mark)

/-- The lower case of an ASCII letter. -/
def lower (c : UInt8) : UInt8 := if ch 'A' ≤ c ∧ c ≤ ch 'Z' then c + 32 else c

/-- The texts for infinities and NaN, in any case. -/
inductive SpecialText : Bytes → F64 → Prop
  | nan (t : Bytes) : t.map lower = b! "nan" → SpecialText t .nan
  | inf (sg : Bytes) (neg : Bool) (t : Bytes) : SignText sg neg → t.map lower = b! "inf" ∨ t.map lower = b! "infinity" →
      SpecialText (sg ++ t) (.inf neg)

/-- `NumberText t x`: the text is a number, and `x` is the float64 nearest to it. (A number that is too great is not one.) -/
def NumberText (t : Bytes) (x : F64) : Prop :=
  SpecialText t x ∨
  ∃ neg n b k, Denotes t neg n b k ∧ UnderscoresSeparate t ∧ ((n : ℚ) * (b : ℚ) ^ k) < overflow ∧ signBit x = neg ∧
    Nearest ((if neg then -1 else 1) * ((n : ℚ) * (b : ℚ) ^ k)) x

end Spec
end Texted
