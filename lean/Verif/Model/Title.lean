import Verif.Model.Parser
/- `strings.Title` (package strings), the headings of `texted doc --verbose` (/repo/commands/doc.go:156). -/
namespace Texted

/-- Unicode tables for characters that are not ASCII: `unicode.IsLetter(r) || unicode.IsDigit(r)` and `unicode.ToTitle`. -/
structure TitleExt where
  inWord : Char → Bool
  toTitle : Char → Char

/-- strings `isSeparator`. -/
def titleSeparator (x : TitleExt) (c : Char) : Bool :=
  if c.toNat ≤ 0x7F then !(c.isAlphanum || c = '_') else if x.inWord c then false else isSpace c

/-- `unicode.ToTitle`. -/
def titleRune (x : TitleExt) (c : Char) : Char :=
  if c.toNat ≤ 0x7F then (if 97 ≤ c.toNat ∧ c.toNat ≤ 122 then Char.ofNat (c.toNat - 32) else c) else x.toTitle c

/-- The closure of `strings.Title`, applied to the characters in order; `prev` is the variable it keeps. -/
def titleLoop (x : TitleExt) (prev : Char) : List Char → List Char
  | [] => []
  | c :: r => (if titleSeparator x prev then titleRune x c else c) :: titleLoop x c r

/-- `strings.Title`. (`strings.Map` writes U+FFFD for bytes that are not UTF-8.) -/
def strTitle (x : TitleExt) (s : Bytes) : Bytes := encodeAll (titleLoop x ' ' (decodeAll s))

end Texted
