import Verif.Model.Value
/-
Go's UTF-8 (package unicode/utf8) and the parts of package strings used by the code.
Runes are Lean `Char`s: Go's decoder never produces surrogates or values above U+10FFFF.
-/
namespace Texted

/-- Number of a byte. -/
def bn (b : UInt8) : Nat := b.toNat

/-- `utf8.RuneError`, U+FFFD. -/
def runeError : Char := Char.ofNat 0xFFFD

/-- Continuation byte 0x80–0xBF. -/
def isCont (b : UInt8) : Bool := 0x80 ≤ bn b && bn b ≤ 0xBF

/-- `utf8.DecodeRuneInString` on a non-empty string: rune and width; an ill-formed sequence yields
(U+FFFD, 1). (unicode/utf8, used by `for _, r := range s` in /repo/edlisp/parser/linebased.go:165,262,
strconv.Quote, strings.ToUpper/ToLower/TrimSpace.) -/
def decodeRune : Bytes → Char × Nat
  | [] => (runeError, 0)
  | b0 :: rest =>
    let x := bn b0
    if x < 0x80 then (Char.ofNat x, 1) else
    if 0xC2 ≤ x ∧ x ≤ 0xDF then
      match rest with
      | b1 :: _ => if isCont b1 then (Char.ofNat ((x - 0xC0) * 64 + (bn b1 - 0x80)), 2) else (runeError, 1)
      | _ => (runeError, 1)
    else if 0xE0 ≤ x ∧ x ≤ 0xEF then
      match rest with
      | b1 :: b2 :: _ =>
        let lo := if x = 0xE0 then 0xA0 else 0x80
        let hi := if x = 0xED then 0x9F else 0xBF
        if lo ≤ bn b1 ∧ bn b1 ≤ hi ∧ isCont b2 then
          (Char.ofNat ((x - 0xE0) * 4096 + (bn b1 - 0x80) * 64 + (bn b2 - 0x80)), 3)
        else (runeError, 1)
      | _ => (runeError, 1)
    else if 0xF0 ≤ x ∧ x ≤ 0xF4 then
      match rest with
      | b1 :: b2 :: b3 :: _ =>
        let lo := if x = 0xF0 then 0x90 else 0x80
        let hi := if x = 0xF4 then 0x8F else 0xBF
        if lo ≤ bn b1 ∧ bn b1 ≤ hi ∧ isCont b2 ∧ isCont b3 then
          (Char.ofNat ((x - 0xF0) * 262144 + (bn b1 - 0x80) * 4096 + (bn b2 - 0x80) * 64 + (bn b3 - 0x80)), 4)
        else (runeError, 1)
      | _ => (runeError, 1)
    else (runeError, 1)

/-- `utf8.AppendRune` / `strings.Builder.WriteRune`: the UTF-8 encoding of a rune. -/
def encodeRune (c : Char) : Bytes :=
  let n := c.toNat
  if n < 0x80 then [UInt8.ofNat n]
  else if n < 0x800 then [UInt8.ofNat (0xC0 + n / 64), UInt8.ofNat (0x80 + n % 64)]
  else if n < 0x10000 then
    [UInt8.ofNat (0xE0 + n / 4096), UInt8.ofNat (0x80 + n / 64 % 64), UInt8.ofNat (0x80 + n % 64)]
  else
    [UInt8.ofNat (0xF0 + n / 262144), UInt8.ofNat (0x80 + n / 4096 % 64), UInt8.ofNat (0x80 + n / 64 % 64),
     UInt8.ofNat (0x80 + n % 64)]

/-- Decode a whole string, as `for _, r := range s` does. Fuel bounds the number of runes. -/
def decodeAux : Nat → Bytes → List Char
  | 0, _ => []
  | _, [] => []
  | f + 1, s => let p := decodeRune s; p.1 :: decodeAux f (s.drop p.2)

/-- The runes of `for _, r := range s`. -/
def decodeAll (s : Bytes) : List Char := decodeAux s.length s

/-- Encode a list of runes. -/
def encodeAll (cs : List Char) : Bytes := cs.flatMap encodeRune

/-- `unicode.ToUpper`: ASCII concretely, other runes by the parameter. -/
def upperRune [Ext] (c : Char) : Char :=
  if c.toNat < 0x80 then (if 97 ≤ c.toNat ∧ c.toNat ≤ 122 then Char.ofNat (c.toNat - 32) else c) else Ext.upper c

/-- `unicode.ToLower`. -/
def lowerRune [Ext] (c : Char) : Char :=
  if c.toNat < 0x80 then (if 65 ≤ c.toNat ∧ c.toNat ≤ 90 then Char.ofNat (c.toNat + 32) else c) else Ext.lower c

/-- `strings.ToUpper` (maps rune by rune; ill-formed bytes become U+FFFD). -/
def toUpper [Ext] (s : Bytes) : Bytes := encodeAll ((decodeAll s).map upperRune)

/-- `strings.ToLower`. -/
def toLower [Ext] (s : Bytes) : Bytes := encodeAll ((decodeAll s).map lowerRune)

/-- `strings.Index(s, sep)`: smallest index where `sep` occurs, `none` for -1. -/
def indexOf (sep : Bytes) : Bytes → Option Nat
  | [] => if sep = [] then some 0 else none
  | x :: xs => if sep.isPrefixOf (x :: xs) then some 0 else (indexOf sep xs).map (· + 1)

/-- `strings.LastIndex(s, sep)`: largest index where `sep` occurs. -/
def lastIndexOf (sep : Bytes) : Bytes → Option Nat
  | [] => if sep = [] then some 0 else none
  | x :: xs =>
    match lastIndexOf sep xs with
    | some i => some (i + 1)
    | none => if sep.isPrefixOf (x :: xs) then some 0 else none

/-- `strings.Contains(s, sub)`. -/
def containsSub (s sub : Bytes) : Bool := (indexOf sub s).isSome

/-- `strings.HasPrefix(s, p)`. -/
def hasPrefix (s p : Bytes) : Bool := p.isPrefixOf s

/-- `strings.HasSuffix(s, p)`. -/
def hasSuffix (s p : Bytes) : Bool := p.isSuffixOf s

/-- `strings.Split(s, sep)` for a one-byte separator: never empty. -/
def splitByte (sep : UInt8) : Bytes → List Bytes
  | [] => [[]]
  | x :: xs =>
    if x = sep then [] :: splitByte sep xs
    else match splitByte sep xs with
      | [] => [[x]]
      | l :: ls => (x :: l) :: ls

/-- `strings.Join(parts, sep)`. -/
def joinWith (sep : Bytes) : List Bytes → Bytes
  | [] => []
  | [x] => x
  | x :: y :: r => x ++ sep ++ joinWith sep (y :: r)

end Texted
