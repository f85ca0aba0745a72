/-
Basic vocabulary of the model: byte strings, 64-bit integers, results.
-/
namespace Texted

/-- A Go `string` is an immutable sequence of bytes. (Go language; used by every file of /repo.) -/
abbrev Bytes := List UInt8

/-- Byte-string literals: `b! "abc"` is the list of the UTF-8 bytes of "abc" (Go string literals). -/
macro:max "b! " s:str : term => do
  let bs := s.getString.toUTF8.toList
  let elems ← bs.mapM fun u => `(($(Lean.quote u.toNat) : UInt8))
  `(([$(elems.toArray),*] : List UInt8))

/-- The newline byte `'\n'`. -/
def nl : UInt8 := 10

/-- Smallest and largest Go `int` on a 64-bit platform. -/
notation "minInt" => (-9223372036854775808 : Int)
@[inherit_doc «termMinInt»] notation "maxInt" => (9223372036854775807 : Int)

/-- Two's complement wrap-around of Go's 64-bit `int` arithmetic. -/
def wrap64 (x : Int) : Int :=
  (x + 9223372036854775808) % 18446744073709551616 - 9223372036854775808

/-- `x - 1` on a Go `int` (`buffer.Point() - 1`, `start--`): wraps at the smallest int. -/
def dec64 (x : Int) : Int := if x = minInt then maxInt else x - 1

/-- `pos + 1` on a Go `int` where `pos` indexes the string `c`. A Go string is shorter than `2^63 - 1`
bytes, so the addition cannot overflow while `pos` is at most its length; beyond that it wraps. -/
def incPos (c : Bytes) (pos : Int) : Int :=
  if pos ≤ c.length then pos + 1 else wrap64 (pos + 1)

/-- `if x < 0 { x = 0 }`. -/
def atLeast0 (x : Int) : Int := if x < 0 then 0 else x

/-- `if x > n { x = n }`. -/
def atMost (n x : Int) : Int := if x > n then n else x

/-- Result of a Go call that returns `(value, error)` or panics at run time. -/
inductive Res (ε α : Type) where
  | ok (a : α)
  | err (e : ε)
  | panic
  deriving Repr, DecidableEq

/-- The Go slice expression `c[i:j]`; `none` is the run-time panic "slice bounds out of range". -/
def slice (c : Bytes) (i j : Int) : Option Bytes :=
  if 0 ≤ i ∧ i ≤ j ∧ j ≤ c.length then some ((c.drop i.toNat).take (j - i).toNat) else none

/-- The Go slice expression `c[:j]`. -/
def sliceTo (c : Bytes) (j : Int) : Option Bytes :=
  if 0 ≤ j ∧ j ≤ c.length then some (c.take j.toNat) else none

/-- The Go slice expression `c[i:]`. -/
def sliceFrom (c : Bytes) (i : Int) : Option Bytes :=
  if 0 ≤ i ∧ i ≤ c.length then some (c.drop i.toNat) else none

/-- `fmt.Sprintf("%d", n)` for `n ≥ 0`: decimal digits, most significant first. Fuel bounds the number of
digits (`n + 1` is plenty). -/
def natDigits : Nat → Nat → Bytes
  | 0, _ => []
  | fuel + 1, n => if n < 10 then [UInt8.ofNat (48 + n)] else natDigits fuel (n / 10) ++ [UInt8.ofNat (48 + n % 10)]

/-- `fmt.Sprintf("%d", n)` for a non-negative int. -/
def natDec (n : Nat) : Bytes := natDigits (n.log2 + 1) n

/-- `fmt.Sprintf("%d", n)`. -/
def intDec (n : Int) : Bytes := if n < 0 then b! "-" ++ natDec n.natAbs else natDec n.natAbs

end Texted
