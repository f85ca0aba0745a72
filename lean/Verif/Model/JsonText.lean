import Verif.Model.Json
/-
JSON texts: package encoding/json of the Go standard library as the code uses it —
`json.Unmarshal` into `[]interface{}` (/repo/edlisp/parser/json.go:47-48), `json.Decoder.Decode` into `interface{}`
(/repo/edlisp/parser/json.go:21-31) and `json.Encoder.Encode` (/repo/edlisp/writer/json.go:15-25, 30-36).
Simplification: every decoding error (syntax, number out of range, wrong top-level type) has the same text; the texts of
encoding/json are not modelled.
-/
namespace Texted

/-! ### Decoding -/

/-- encoding/json `isSpace`. -/
def jsonSpace (c : UInt8) : Bool := c = 32 || c = 9 || c = 13 || c = 10

/-- Skip white space. -/
def jws (s : Bytes) : Bytes := s.dropWhile jsonSpace

/-- `utf16.IsSurrogate`. -/
def isSurrogate (n : Nat) : Bool := 0xD800 ≤ n && n < 0xE000

/-- The escape `\uXXXX` after its `u` (encoding/json `unquoteBytes`): surrogate pairs are combined, unpaired surrogates become
U+FFFD. Returns the rune and the rest. -/
def jsonU (s : Bytes) : Option (Char × Bytes) :=
  match readHex 4 s 0 with
  | none => none
  | some (hi, r) =>
    if isSurrogate hi then
      match r with
      | 92 :: 117 :: r' =>
        match readHex 4 r' 0 with
        | some (lo, r'') =>
          if hi < 0xDC00 ∧ 0xDC00 ≤ lo ∧ lo < 0xE000 then some (Char.ofNat ((hi - 0xD800) * 1024 + (lo - 0xDC00) + 0x10000), r'')
          else some (runeError, r)
        | none => some (runeError, r)
      | _ => some (runeError, r)
    else some (Char.ofNat hi, r)

/-- One character of a string literal: the bytes it stands for and the rest; `none` is a syntax error. -/
def jsonChar : Bytes → Option (Bytes × Bytes)
  | [] => none
  | c :: s =>
    if c = 92 then
      match s with
      | [] => none
      | e :: s =>
        if e = 34 ∨ e = 92 ∨ e = 47 then some ([e], s)
        else if e = 98 then some ([8], s)
        else if e = 102 then some ([12], s)
        else if e = 110 then some ([10], s)
        else if e = 114 then some ([13], s)
        else if e = 116 then some ([9], s)
        else if e = 117 then
          match jsonU s with
          | some (r, s) => some (encodeRune r, s)
          | none => none
        else none
    else if c.toNat < 32 then none
    else if c.toNat < 128 then some ([c], s)
    else let p := decodeRune (c :: s); some (encodeRune p.1, (c :: s).drop p.2)

/-- A string literal after its opening quote (encoding/json scanner `stateInString` and `unquoteBytes`): contents and rest.
Ill-formed UTF-8 becomes U+FFFD. Fuel bounds the number of characters. -/
def jsonStr : Nat → Bytes → Option (Bytes × Bytes)
  | 0, _ => none
  | _ + 1, [] => none
  | f + 1, c :: s =>
    if c = 34 then some ([], s)
    else match jsonChar (c :: s) with
      | none => none
      | some (out, r) => match jsonStr f r with
        | none => none
        | some (more, rest) => some (out ++ more, rest)

/-- A decimal digit. -/
def isDigit (c : UInt8) : Bool := 48 ≤ c && c ≤ 57

/-- At least one digit. -/
def digits1 (s : Bytes) : Option (Bytes × Bytes) :=
  if s.takeWhile isDigit = [] then none else some (s.takeWhile isDigit, s.dropWhile isDigit)

/-- The integer part of a JSON number: `0`, or a digit 1-9 and more digits. -/
def jsonInt : Bytes → Option (Bytes × Bytes)
  | [] => none
  | c :: s => if c = 48 then some ([c], s) else digits1 (c :: s)

/-- The fraction, if there is one. -/
def jsonFrac : Bytes → Option (Bytes × Bytes)
  | 46 :: s => match digits1 s with
    | some (d, r) => some (46 :: d, r)
    | none => none
  | s => some ([], s)

/-- The sign of an exponent. -/
def jsonSign : Bytes → Bytes × Bytes
  | 43 :: s => ([43], s)
  | 45 :: s => ([45], s)
  | s => ([], s)

/-- The exponent, if there is one. -/
def jsonExp : Bytes → Option (Bytes × Bytes)
  | [] => some ([], [])
  | c :: s =>
    if c = 101 ∨ c = 69 then
      match digits1 (jsonSign s).2 with
      | some (d, r) => some (c :: ((jsonSign s).1 ++ d), r)
      | none => none
    else some ([], c :: s)

/-- The sign of a number. -/
def jsonMinus : Bytes → Bytes × Bytes
  | 45 :: r => ([45], r)
  | r => ([], r)

/-- A number literal (encoding/json scanner states `stateNeg`, `state0`, `state1`, `stateDot`, `stateDot0`, `stateE…`):
its text and the rest. -/
def jsonNumText (s : Bytes) : Option (Bytes × Bytes) :=
  match jsonInt (jsonMinus s).2 with
  | none => none
  | some (i, r) => match jsonFrac r with
    | none => none
    | some (fr, q) => match jsonExp q with
      | none => none
      | some (e, t) => some ((jsonMinus s).1 ++ i ++ fr ++ e, t)

/-- A number: `convertNumber` is `strconv.ParseFloat(s, 64)`. -/
def jsonNum (s : Bytes) : Option (F64 × Bytes) :=
  match jsonNumText s with
  | none => none
  | some (t, r) => match parseFloat t with
    | some x => some (x, r)
    | none => none

/-- encoding/json `maxNestingDepth`. -/
def maxNesting : Nat := 10000

mutual
/-- A JSON value at the start of the text, and the rest. `d` is how many arrays and objects may still be opened. Fuel
bounds the recursion. -/
def jsonValue : Nat → Nat → Bytes → Option (Json × Bytes)
  | 0, _, _ => none
  | _ + 1, _, [] => none
  | f + 1, d, c :: s =>
    if c = 34 then
      match jsonStr (s.length + 1) s with
      | some (x, r) => some (.str x, r)
      | none => none
    else if c = 91 then
      if d = 0 then none
      else match jws s with
        | 93 :: r => some (.arr [], r)
        | s' => match jsonElems f (d - 1) s' with
          | some (l, r) => some (.arr l, r)
          | none => none
    else if c = 123 then
      if d = 0 then none
      else match jws s with
        | 125 :: r => some (.obj [], r)
        | s' => match jsonFields f (d - 1) s' with
          | some (l, r) => some (.obj l, r)
          | none => none
    else if hasPrefix (c :: s) (b! "true") then some (.bool true, s.drop 3)
    else if hasPrefix (c :: s) (b! "false") then some (.bool false, s.drop 4)
    else if hasPrefix (c :: s) (b! "null") then some (.null, s.drop 3)
    else match jsonNum (c :: s) with
      | some (x, r) => some (.num x, r)
      | none => none
/-- The elements of an array up to the closing bracket. -/
def jsonElems : Nat → Nat → Bytes → Option (List Json × Bytes)
  | 0, _, _ => none
  | f + 1, d, s =>
    match jsonValue f d s with
    | none => none
    | some (v, r) => match jws r with
      | 44 :: r => match jsonElems f d (jws r) with
        | some (vs, r) => some (v :: vs, r)
        | none => none
      | 93 :: r => some ([v], r)
      | _ => none
/-- The fields of an object up to the closing brace. -/
def jsonFields : Nat → Nat → Bytes → Option (List (Bytes × Json) × Bytes)
  | 0, _, _ => none
  | f + 1, d, s =>
    match s with
    | 34 :: s => match jsonStr (s.length + 1) s with
      | none => none
      | some (k, r) => match jws r with
        | 58 :: r => match jsonValue f d (jws r) with
          | none => none
          | some (v, r) => match jws r with
            | 44 :: r => match jsonFields f d (jws r) with
              | some (vs, r) => some ((k, v) :: vs, r)
              | none => none
            | 125 :: r => some ([(k, v)], r)
            | _ => none
        | _ => none
    | _ => none
end

/-- One value from the start of a text. -/
def jsonOne (s : Bytes) : Option (Json × Bytes) := jsonValue (2 * s.length + 2) maxNesting (jws s)

/-- A whole JSON text, as `json.Unmarshal` accepts it. -/
def jsonText (s : Bytes) : Option Json :=
  match jsonOne s with
  | some (j, r) => if jws r = [] then some j else none
  | none => none

/-- /repo/edlisp/parser/json.go:46-68 `ParseJSONString`. Unmarshalling `null` into a slice gives the nil slice. -/
def parseJsonString (s : Bytes) : Except Bytes (List Value) :=
  match jsonText s with
  | some (.arr l) => convertCommands 0 l
  | some .null => .ok []
  | _ => .error (b! "JSON unmarshal error")

/-- /repo/edlisp/parser/json.go:20-43 `ParseJSONReader`: decode values until the end of the input. Fuel bounds their
number. -/
def parseJsonStream : Nat → Bytes → Except Bytes (List Value)
  | 0, _ => .error (b! "JSON decode error")
  | f + 1, s =>
    if jws s = [] then .ok []
    else match jsonOne s with
      | none => .error (b! "JSON decode error")
      | some (j, r) => match convertValue j with
        | .error e => .error e
        | .ok v => match parseJsonStream f r with
          | .ok vs => .ok (v :: vs)
          | .error e => .error e

@[inherit_doc parseJsonStream]
def parseJsonReader (s : Bytes) : Except Bytes (List Value) := parseJsonStream (s.length + 1) s

/-! ### Encoding -/

/-- One rune of a string literal (encoding/json `appendString` with HTML escaping), `c` well-formed. -/
def jsonEscape (c : Char) : Bytes :=
  let n := c.toNat
  if n = 34 ∨ n = 92 then [92, UInt8.ofNat n]
  else if n = 8 then b! "\\b"
  else if n = 12 then b! "\\f"
  else if n = 10 then b! "\\n"
  else if n = 13 then b! "\\r"
  else if n = 9 then b! "\\t"
  else if n < 32 ∨ n = 60 ∨ n = 62 ∨ n = 38 then b! "\\u00" ++ [hexDigit (n / 16 % 16), hexDigit (n % 16)]
  else if n = 0x2028 ∨ n = 0x2029 then b! "\\u202" ++ [hexDigit (n % 16)]
  else encodeRune c

/-- The body of a string literal; an ill-formed byte is written `\ufffd`. Fuel bounds the number of runes. -/
def jsonStrBody : Nat → Bytes → Bytes
  | 0, _ => []
  | _, [] => []
  | f + 1, b0 :: rest =>
    let p := decodeRune (b0 :: rest)
    if p.2 = 1 ∧ p.1 = runeError then b! "\\ufffd" ++ jsonStrBody f rest
    else jsonEscape p.1 ++ jsonStrBody f ((b0 :: rest).drop p.2)

/-- A string as JSON. -/
def jsonQuote (s : Bytes) : Bytes := [34] ++ jsonStrBody s.length s ++ [34]

/-- strconv's `%e` after encoding/json's clean-up of the exponent (`e-09` becomes `e-9`). -/
def jsonE (ds : Bytes) (exp : Int) : Bytes :=
  ds.take 1 ++ (if ds.length ≤ 1 then [] else b! "." ++ ds.drop 1) ++ b! "e" ++ (if exp < 0 then b! "-" else b! "+") ++ natDec exp.natAbs

/-- encoding/json `floatEncoder` with the given shortest digits: `%e` or `%f`. -/
def jsonDigits (sci neg : Bool) (ds : Bytes) (dp : Int) : Bytes :=
  (if neg then b! "-" else []) ++ (if sci then jsonE ds (dp - 1) else fmtF ds dp)

/-- `abs < 1e-6 || abs >= 1e21` for `abs = num/den` (encoding/json/encode.go `floatEncoder`). The float64 constant `1e-6` is
4722366482869645 / 2^72. -/
def jsonSci (num den : Nat) : Bool := num * 2 ^ 72 < 4722366482869645 * den || 10 ^ 21 * den ≤ num

/-- A number as JSON: the shortest digits that read back as the number (as for `fmtG`). NaN and infinities are errors
(`UnsupportedValueError`). -/
def jsonFloat (x : F64) : Option Bytes :=
  match x with
  | .nan => none
  | .inf _ => none
  | .fin neg m e =>
    if m = 0 then some (if neg then b! "-0" else b! "0")
    else
      let num := if 0 ≤ e then m * 2 ^ e.toNat else m
      let den := if 0 ≤ e then 1 else 2 ^ (-e).toNat
      let texts := (List.range 17).flatMap fun k => [false, true].map fun other =>
        let d := kDigits num den (k + 1) other; jsonDigits (jsonSci num den) neg d.1 d.2
      some ((texts.find? fun t => parseFloat t = some x).getD (exactText neg m e))

mutual
/-- A value as JSON, without white space. Booleans and objects never arise from values; they are printed in a simple form.
`none`: a NaN or an infinity. -/
def jsonPrint : Json → Option Bytes
  | .null => some (b! "null")
  | .bool b => some (if b then b! "true" else b! "false")
  | .num x => jsonFloat x
  | .str s => some (jsonQuote s)
  | .arr l => match jsonPrints l with
    | some t => some (b! "[" ++ t ++ b! "]")
    | none => none
  | .obj _ => none
/-- The elements separated by commas. -/
def jsonPrints : List Json → Option Bytes
  | [] => some []
  | [j] => jsonPrint j
  | j :: k :: r => match jsonPrint j, jsonPrints (k :: r) with
    | some a, some b => some (a ++ b! "," ++ b)
    | _, _ => none
end

/-- `json.Encoder.Encode` of the JSON form of a value: its text and a newline
(/repo/edlisp/writer/json.go:30-36 `WriteValue`). `none`: `json: unsupported value`. -/
def writeJsonValue (v : Value) : Option Bytes := (jsonPrint (valueToJson v)).map (· ++ [nl])

/-- Texts of the numbers JSON cannot express, as in `json: unsupported value: NaN`. The first one of the value is reported. -/
def jsonUnsupported : Bytes := b! "json: unsupported value"

end Texted
