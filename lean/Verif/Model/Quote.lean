import Verif.Model.Utf8
import Verif.Model.Number
/-
strconv.Quote (the `%q` verb of package fmt on strings) and the printed form of values.
-/
namespace Texted

/-- Lower-case hex digit, as in strconv's `lowerhex`. -/
def hexDigit (n : Nat) : UInt8 := if n < 10 then UInt8.ofNat (48 + n) else UInt8.ofNat (87 + n)

/-- `\xHH` for a byte. -/
def hexEscape (n : Nat) : Bytes := b! "\\x" ++ [hexDigit (n / 16 % 16), hexDigit (n % 16)]

/-- strconv `IsPrint`: ASCII 0x20–0x7E concretely, other runes by the parameter (0x80–0xA0 and 0xAD are
covered by the parameter as well). -/
def isPrintRune [Ext] (c : Char) : Bool :=
  if c.toNat < 0x80 then 0x20 ≤ c.toNat && c.toNat < 0x7F else Ext.isPrint c

/-- The end of strconv/quote.go `appendEscapedRune`: runes without a named escape. -/
def escapeNumeric (n : Nat) : Bytes :=
  if n < 32 ∨ n = 127 then hexEscape n
  else if n < 0x10000 then
    b! "\\u" ++ [hexDigit (n / 4096 % 16), hexDigit (n / 256 % 16), hexDigit (n / 16 % 16), hexDigit (n % 16)]
  else
    b! "\\U" ++ [hexDigit 0, hexDigit 0, hexDigit (n / 1048576 % 16), hexDigit (n / 65536 % 16),
      hexDigit (n / 4096 % 16), hexDigit (n / 256 % 16), hexDigit (n / 16 % 16), hexDigit (n % 16)]

/-- The `switch` of strconv/quote.go `appendEscapedRune`. -/
def escapeNamed (n : Nat) : Bytes :=
  if n = 7 then b! "\\a"
  else if n = 8 then b! "\\b"
  else if n = 12 then b! "\\f"
  else if n = 10 then b! "\\n"
  else if n = 13 then b! "\\r"
  else if n = 9 then b! "\\t"
  else if n = 11 then b! "\\v"
  else escapeNumeric n

/-- strconv/quote.go `appendEscapedRune` with quote `"` and neither ASCIIonly nor graphicOnly. -/
def escapeRune [Ext] (c : Char) : Bytes :=
  if c.toNat = 34 ∨ c.toNat = 92 then [92, UInt8.ofNat c.toNat]
  else if isPrintRune c then encodeRune c
  else escapeNamed c.toNat

/-- The body of strconv/quote.go `appendQuotedWith`: an ill-formed byte is written `\xHH`. Fuel bounds the
number of runes. -/
def quoteBody [Ext] : Nat → Bytes → Bytes
  | 0, _ => []
  | _, [] => []
  | f + 1, b0 :: rest =>
    let p := decodeRune (b0 :: rest)
    if p.2 = 1 ∧ p.1 = runeError then hexEscape b0.toNat ++ quoteBody f rest
    else escapeRune p.1 ++ quoteBody f ((b0 :: rest).drop p.2)

/-- `strconv.Quote(s)`, i.e. `fmt.Sprintf("%q", s)`. -/
def quote [Ext] (s : Bytes) : Bytes := [34] ++ quoteBody s.length s ++ [34]

/-- /repo/edlisp/number.go:37-42 `Number.String`. -/
def numString [Ext] (x : F64) : Bytes :=
  if F64.goEq x (F64.ofInt x.toInt) then F64.fmtF0 x else fmtG x

mutual
/-- `String()` of a value: /repo/edlisp/symbol.go:30-32, string.go:32-34, number.go:37-42, list.go:40-50
(`fmt.Sprintf("%v", element)` calls the element's `String` method). -/
def Value.toStr [Ext] : Value → Bytes
  | .sym n => n
  | .str s => quote s
  | .num x => numString x
  | .list l => b! "(" ++ Value.toStrs l ++ b! ")"
/-- The elements joined with single spaces (/repo/edlisp/list.go:45-49). -/
def Value.toStrs [Ext] : List Value → Bytes
  | [] => []
  | [v] => v.toStr
  | v :: w :: r => v.toStr ++ b! " " ++ Value.toStrs (w :: r)
end

end Texted
