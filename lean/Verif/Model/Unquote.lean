import Verif.Model.Utf8
/-
strconv.Unquote on a double-quoted literal, as called by /repo/edlisp/parser/linebased.go:306
(Go standard library, strconv/quote.go).
-/
namespace Texted

/-- strconv `unhex`. -/
def unhex (c : UInt8) : Option Nat :=
  let n := c.toNat
  if 48 ≤ n ∧ n ≤ 57 then some (n - 48)
  else if 97 ≤ n ∧ n ≤ 102 then some (n - 87)
  else if 65 ≤ n ∧ n ≤ 70 then some (n - 55)
  else none

/-- `n` hex digits: their value and the rest; `none` if there are fewer or one is not a hex digit. -/
def readHex : Nat → Bytes → Nat → Option (Nat × Bytes)
  | 0, s, v => some (v, s)
  | _ + 1, [], _ => none
  | n + 1, c :: s, v => match unhex c with
    | some d => readHex n s (v * 16 + d)
    | none => none

/-- `utf8.ValidRune`. -/
def validRune (n : Nat) : Bool := n < 0xD800 || (0xE000 ≤ n && n ≤ 0x10FFFF)

/-- strconv `UnquoteChar` with quote `"`, returning the bytes `unquote` appends (`byte(r)` for single bytes,
`utf8.AppendRune` otherwise) and the rest. `none` is `ErrSyntax`. -/
def unquoteChar : Bytes → Option (Bytes × Bytes)
  | [] => none
  | c :: s =>
    if c = 34 then none
    else if 0x80 ≤ c.toNat then
      let p := decodeRune (c :: s)
      some (encodeRune p.1, (c :: s).drop p.2)
    else if c ≠ 92 then some ([c], s)
    else match s with
      | [] => none
      | e :: s =>
        if e = 97 then some ([7], s)
        else if e = 98 then some ([8], s)
        else if e = 102 then some ([12], s)
        else if e = 110 then some ([10], s)
        else if e = 114 then some ([13], s)
        else if e = 116 then some ([9], s)
        else if e = 118 then some ([11], s)
        else if e = 120 then
          match readHex 2 s 0 with
          | some (v, r) => some ([UInt8.ofNat v], r)
          | none => none
        else if e = 117 ∨ e = 85 then
          match readHex (if e = 117 then 4 else 8) s 0 with
          | some (v, r) => if validRune v then some (encodeRune (Char.ofNat v), r) else none
          | none => none
        else if 48 ≤ e ∧ e ≤ 55 then
          match s with
          | x :: y :: r =>
            if 48 ≤ x ∧ x ≤ 55 ∧ 48 ≤ y ∧ y ≤ 55 then
              let v := (e.toNat - 48) * 64 + (x.toNat - 48) * 8 + (y.toNat - 48)
              if v > 255 then none else some ([UInt8.ofNat v], r)
            else none
          | _ => none
        else if e = 92 then some ([92], s)
        else if e = 34 then some ([34], s)
        else none

/-- The loop of strconv `unquote` after the opening quote: characters up to the closing quote. Returns the contents and
what follows the closing quote. Fuel bounds the number of characters. -/
def unquoteLoop : Nat → Bytes → Option (Bytes × Bytes)
  | 0, _ => none
  | _ + 1, [] => none
  | f + 1, c :: s =>
    if c = 34 then some ([], s)
    else if c = 10 then none
    else match unquoteChar (c :: s) with
      | none => none
      | some (out, r) => match unquoteLoop f r with
        | none => none
        | some (more, rest) => some (out ++ more, rest)

/-- `strconv.Unquote(s)` for `s` starting with `"`; `none` is `ErrSyntax`. Simplification: the fast path of `unquote`
(no backslash, no newline, valid UTF-8) is omitted; the loop gives the same result on such strings. -/
def unquote (s : Bytes) : Option Bytes :=
  match s with
  | 34 :: body => match unquoteLoop (body.length + 1) body with
    | some (out, []) => some out
    | _ => none
  | _ => none

end Texted
