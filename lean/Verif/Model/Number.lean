import Verif.Model.F64
/-
Reading and printing float64 numbers: strconv.ParseFloat and the `%g` verb of package fmt, as used by
/repo/edlisp/parser/linebased.go:314 and /repo/edlisp/number.go:41. Both are code of the Go standard library; the
model follows its source (strconv/atof.go, strconv/ftoa.go) except where noted.
-/
namespace Texted

/-- ASCII lower case of a letter, as `lower(c) = c | ('x' - 'X')` in strconv (only ever compared with letters). -/
def lowerByte (c : UInt8) : UInt8 := if 65 ≤ c ∧ c ≤ 90 then c + 32 else c

/-- Value of a digit byte in base 10 or 16. -/
def digitVal (hex : Bool) (c : UInt8) : Option Nat :=
  if 48 ≤ c ∧ c ≤ 57 then some (c.toNat - 48)
  else if hex ∧ 97 ≤ lowerByte c ∧ lowerByte c ≤ 102 then some ((lowerByte c).toNat - 87)
  else none

/-- strconv/atof.go `special`, for the whole string: infinities (optional sign) and NaN, ignoring case. -/
def parseSpecial (s : Bytes) : Option F64 :=
  let l := s.map lowerByte
  if l = b! "nan" then some .nan
  else if l = b! "inf" ∨ l = b! "infinity" ∨ l = b! "+inf" ∨ l = b! "+infinity" then some (.inf false)
  else if l = b! "-inf" ∨ l = b! "-infinity" then some (.inf true)
  else none

/-- The mantissa read so far. -/
structure Mant where
  /-- all digits, as one number -/
  digits : Nat
  /-- number of digits after the point -/
  frac : Nat
  sawDot : Bool
  sawDigits : Bool

/-- The digit loop of strconv/atof.go `readFloat`. Go keeps the first 19 (16) significant digits and a sticky bit; the
model keeps all digits, so that its result is the exact number. Returns the mantissa and the rest of the string. -/
def mantLoop (hex : Bool) : Bytes → Mant → Mant × Bytes
  | [], m => (m, [])
  | c :: rest, m =>
    if c = 95 then mantLoop hex rest m
    else if c = 46 then
      if m.sawDot then (m, c :: rest) else mantLoop hex rest { m with sawDot := true }
    else match digitVal hex c with
      | some d => mantLoop hex rest
          { m with digits := m.digits * (if hex then 16 else 10) + d, frac := if m.sawDot then m.frac + 1 else m.frac, sawDigits := true }
      | none => (m, c :: rest)

/-- The digit loop of the exponent: `if e < 10000 { e = e*10 + digit }`; anything but digits and `_` ends it. -/
def expLoop : Bytes → Nat → Nat × Bytes
  | [], e => (e, [])
  | c :: rest, e =>
    if c = 95 then expLoop rest e
    else match digitVal false c with
      | some d => expLoop rest (if e < 10000 then e * 10 + d else e)
      | none => (e, c :: rest)

/-- The exponent after its letter: optional sign, then at least one digit, then nothing else (`ParseFloat` rejects
trailing bytes). -/
def readExp (s : Bytes) : Option Int :=
  let (neg, s) := match s with
    | 43 :: r => (false, r)
    | 45 :: r => (true, r)
    | r => (false, r)
  match s with
  | [] => none
  | c :: _ =>
    match digitVal false c with
    | none => none
    | some _ =>
      let p := expLoop s 0
      if p.2 = [] then some (if neg then -(p.1 : Int) else p.1) else none

/-- strconv/atoi.go `underscoreOK`, the loop; `saw` is the last character class seen. -/
inductive Saw where
  | start | digit | under | other
  deriving DecidableEq

@[inherit_doc Saw]
def underscoreLoop (hex : Bool) : Bytes → Saw → Bool
  | [], saw => saw ≠ .under
  | c :: rest, saw =>
    if (digitVal hex c).isSome then underscoreLoop hex rest .digit
    else if c = 95 then (if saw = .digit then underscoreLoop hex rest .under else false)
    else if saw = .under then false
    else underscoreLoop hex rest .other

/-- strconv/atoi.go `underscoreOK`: underscores must separate digits. -/
def underscoreOK (s : Bytes) : Bool :=
  let s := match s with
    | 43 :: r => r
    | 45 :: r => r
    | r => r
  match s with
  | 48 :: x :: r =>
    if lowerByte x = 120 then underscoreLoop true r .digit
    else if lowerByte x = 98 ∨ lowerByte x = 111 then underscoreLoop false r .digit
    else underscoreLoop false s .start
  | _ => underscoreLoop false s .start

/-- The sign prefix. -/
def readSign : Bytes → Bool × Bytes
  | 43 :: r => (false, r)
  | 45 :: r => (true, r)
  | r => (false, r)

/-- The number `(-1)^neg * d * base^k` where `base` is 10 or 2. -/
def scaled (neg : Bool) (d : Nat) (base : Nat) (k : Int) : F64 :=
  if 0 ≤ k then F64.roundRat neg (d * base ^ k.toNat) 1 else F64.roundRat neg d (base ^ (-k).toNat)

/-- The optional `0x`, which needs at least one more byte. -/
def hexPrefix (body : Bytes) : Bool × Bytes :=
  match body with
  | 48 :: x :: y :: r => if lowerByte x = 120 then (true, y :: r) else (false, body)
  | _ => (false, body)

/-- strconv/atof.go `readFloat` followed by the (correctly rounded) conversion. `none` is a syntax error. -/
def readFloat (s : Bytes) : Option F64 :=
  let (neg, body) := readSign s
  let (hex, digits) := hexPrefix body
  let p := mantLoop hex digits { digits := 0, frac := 0, sawDot := false, sawDigits := false }
  if !p.1.sawDigits then none
  else
    let exp : Option Int := match p.2 with
      | [] => if hex then none else some 0
      | c :: r => if lowerByte c = (if hex then 112 else 101) then readExp r else none
    match exp with
    | none => none
    | some e =>
      if s.contains 95 && !underscoreOK s then none
      else if hex then some (scaled neg p.1.digits 2 (e - 4 * p.1.frac))
      else some (scaled neg p.1.digits 10 (e - p.1.frac))

/-- `strconv.ParseFloat(s, 64)`; `none` is any error (syntax, or out of range: the caller does not distinguish). -/
def parseFloat (s : Bytes) : Option F64 :=
  match parseSpecial s with
  | some x => some x
  | none => match readFloat s with
    | some (.inf _) => none
    | r => r

/-! ### `%g` -/

/-- `n` zeros. -/
def zeros (n : Nat) : Bytes := List.replicate n 48

/-- strconv/ftoa.go `%e` with the given digits: `d.ddde±dd`. `ds` is not empty. -/
def fmtE (ds : Bytes) (exp : Int) : Bytes :=
  ds.take 1 ++ (if ds.length ≤ 1 then [] else b! "." ++ ds.drop 1) ++ b! "e" ++ (if exp < 0 then b! "-" else b! "+") ++
    (if exp.natAbs < 10 then b! "0" else []) ++ natDec exp.natAbs

/-- strconv/ftoa.go `%f` with the given digits and decimal point position `dp`. -/
def fmtF (ds : Bytes) (dp : Int) : Bytes :=
  (if 0 < dp then ds.take dp.toNat ++ zeros (dp.toNat - ds.length) else b! "0") ++
    (if dp < ds.length then b! "." ++ zeros (-dp).toNat ++ ds.drop dp.toNat else [])

/-- strconv/ftoa.go, verb `%g` with shortest digits: `%e` if the exponent is below -4 or at least 6 (`eprec`),
otherwise `%f`. The number is `0.ds * 10^dp`. -/
def fmtDigits (neg : Bool) (ds : Bytes) (dp : Int) : Bytes :=
  (if neg then b! "-" else []) ++ (if dp - 1 < -4 ∨ 6 ≤ dp - 1 then fmtE ds (dp - 1) else fmtF ds dp)

/-- Decimal point position of `num/den > 0`: the least `dp` with `num/den < 10^dp`. -/
def decimalPoint (num den : Nat) : Int :=
  if den ≤ num then ((natDec (num / den)).length : Int)
  else -(((List.range 400).find? fun z => den ≤ num * 10 ^ (z + 1)).getD 400 : Nat)

/-- The two numbers with `k` significant decimal digits next to `num/den`, as digits and decimal point: the nearer one (half to even), or
else (`other`) the one on the other side. -/
def kDigits (num den k : Nat) (other : Bool) : Bytes × Int :=
  let dp := decimalPoint num den
  let s : Nat × Nat := if 0 ≤ (k : Int) - dp then (num * 10 ^ ((k : Int) - dp).toNat, den) else (num, den * 10 ^ (dp - k).toNat)
  let q := s.1 / s.2
  let r := s.1 % s.2
  let q := if decide (s.2 < 2 * r ∨ (2 * r = s.2 ∧ q % 2 = 1)) != other then q + 1 else q
  if q = 10 ^ k then (b! "1", dp + 1) else (natDec q, dp)

/-- A text that denotes the finite number exactly. -/
def exactText (neg : Bool) (m : Nat) (e : Int) : Bytes :=
  (if neg then b! "-" else []) ++
    (if 0 ≤ e then natDec (m * 2 ^ e.toNat) else natDec (m * 5 ^ (-e).toNat) ++ b! "e-" ++ natDec (-e).toNat)

/-- `fmt.Sprintf("%g", x)`: "the smallest number of digits necessary to represent the value uniquely" (strconv/ftoaryu.go
`ryuFtoaShortest`): the first of the 1-, 2-, … 17-digit texts that `ParseFloat` reads back as `x`; of two texts with the same number of
digits the nearer one is tried first. (Just above a power of two the float64s lie twice as far apart as below, so that it can happen that
the nearer one is another float64 and the farther one is not. The exact text at the end makes the definition total; C75 shows that it is
never used.) -/
def fmtG (x : F64) : Bytes :=
  match x with
  | .nan => b! "NaN"
  | .inf neg => if neg then b! "-Inf" else b! "+Inf"
  | .fin neg m e =>
    if m = 0 then (if neg then b! "-0" else b! "0")
    else
      let num := if 0 ≤ e then m * 2 ^ e.toNat else m
      let den := if 0 ≤ e then 1 else 2 ^ (-e).toNat
      let texts := (List.range 17).flatMap fun k => [false, true].map fun other =>
        let d := kDigits num den (k + 1) other; fmtDigits neg d.1 d.2
      (texts.find? fun t => parseFloat t = some x).getD (exactText neg m e)

end Texted
