import Verif.Model.Basic
/-
Go `float64`, exactly: NaN, infinities, and finite dyadic numbers in canonical form.
Used by /repo/edlisp/number.go (Number.Value) and by every `int(args[i].(*Number).Value)`.
-/
namespace Texted

/-- A `float64`. `fin neg m e` is `(-1)^neg * m * 2^e`, canonical: `m` odd, or `m = 0` and `e = 0`
(so `+0` and `-0` are `fin false 0 0` and `fin true 0 0`). -/
inductive F64 where
  | nan
  | inf (neg : Bool)
  | fin (neg : Bool) (m : Nat) (e : Int)
  deriving Repr, DecidableEq

namespace F64

/-- Move factors of two from the mantissa into the exponent (at most `fuel` of them). -/
def strip : Nat → Nat → Int → Nat × Int
  | 0, q, e => (q, e)
  | f + 1, q, e => if q % 2 = 0 then strip f (q / 2) (e + 1) else (q, e)

/-- Canonical number `(-1)^neg * q * 2^e`. -/
def mk (neg : Bool) (q : Nat) (e : Int) : F64 :=
  if q = 0 then .fin neg 0 0 else let p := strip q.log2 q e; .fin neg p.1 p.2

/-- `num / (den * 2^e)` as a pair (numerator, denominator) of naturals. -/
def scale (num den : Nat) (e : Int) : Nat × Nat :=
  if 0 ≤ e then (num, den * 2 ^ e.toNat) else (num * 2 ^ (-e).toNat, den)

/-- The exponent of the last binary digit kept when rounding `num / den` to a float64: 53 significant
bits, but never below `2^-1074` (subnormals). -/
def roundExp (num den : Nat) : Int :=
  let e := (num.log2 : Int) - den.log2 - 53
  let s := scale num den e
  let e := if s.1 / s.2 < 9007199254740992 then e else e + 1
  if e < -1074 then -1074 else e

/-- IEEE 754 round-to-nearest-even of the rational `(-1)^neg * num / den` (Go: every float64 conversion
and strconv.ParseFloat). Overflow gives an infinity. -/
def roundRat (neg : Bool) (num den : Nat) : F64 :=
  if num = 0 then .fin neg 0 0 else
  let e := roundExp num den
  let s := scale num den e
  let q := s.1 / s.2
  let r := s.1 % s.2
  let q := if s.2 < 2 * r ∨ (2 * r = s.2 ∧ q % 2 = 1) then q + 1 else q
  let x := mk neg q e
  match x with
  | .fin _ m e => if 0 < e + (m.log2 : Int) - 1023 then .inf neg else x
  | x => x

/-- Go `float64(n)` for an `int` n. -/
def ofInt (n : Int) : F64 := roundRat (decide (n < 0)) n.natAbs 1

/-- The integer part of a finite number (truncation towards zero). -/
def truncAbs (m : Nat) (e : Int) : Nat := if 0 ≤ e then m * 2 ^ e.toNat else m / 2 ^ (-e).toNat

/-- Go `a == b` on float64: NaN differs from everything, `+0 == -0`. -/
def goEq : F64 → F64 → Bool
  | .nan, _ => false
  | _, .nan => false
  | .inf a, .inf b => a == b
  | .fin a m e, .fin b m' e' => (m == 0 && m' == 0) || (a == b && m == m' && e == e')
  | _, _ => false

/-- Go `fmt.Sprintf("%.0f", x)`: round half to even, print the integer. -/
def fmtF0 : F64 → Bytes
  | .nan => b! "NaN"
  | .inf neg => if neg then b! "-Inf" else b! "+Inf"
  | .fin neg m e =>
    let n := if 0 ≤ e then m * 2 ^ e.toNat else
      let d := 2 ^ (-e).toNat
      let q := m / d
      let r := m % d
      if d < 2 * r ∨ (2 * r = d ∧ q % 2 = 1) then q + 1 else q
    (if neg then b! "-" else []) ++ natDec n

/-- The numbers a `float64` can hold. -/
def Canon : F64 → Prop
  | .nan => True
  | .inf _ => True
  | .fin _ m e => (m = 0 ∧ e = 0) ∨ (m % 2 = 1 ∧ m < 9007199254740992 ∧ -1074 ≤ e ∧ e + (m.log2 : Int) ≤ 1023)

end F64
end Texted
