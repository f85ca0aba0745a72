import Verif.Spec.Number
/- The shortest decimal numbers for a float64, and the two ways to write a decimal number. -/
namespace Texted
namespace Spec

/-- Without its sign, the number a float64 stands for. -/
def magnitude (x : F64) : ℚ := |value x|

/-- `ReadsAs n j x`: of all float64s, `x` is the one that is read for `n * 10^j` (with the sign of `x`). -/
def ReadsAs (n : Nat) (j : Int) (x : F64) : Prop :=
  (n : ℚ) * 10 ^ j < overflow ∧ Nearest ((if signBit x then -1 else 1) * ((n : ℚ) * 10 ^ j)) x

/-- `n` has no more digits than `n'`. -/
def NoLonger (n n' : Nat) : Prop := ∀ d, n' < 10 ^ d → n < 10 ^ d

/-- `n * 10^j` is the shortest decimal number for `x`: it is read as `x`; no number that is read as `x` has fewer digits; of those that have
as few digits none is nearer to `x`; and if another one is just as near, then the last digit of this one is even. -/
structure Shortest (x : F64) (n : Nat) (j : Int) : Prop where
  reads : ReadsAs n j x
  fewest : ∀ n' j', ReadsAs n' j' x → NoLonger n n'
  closest : ∀ n' j', ReadsAs n' j' x → NoLonger n' n → |(n : ℚ) * 10 ^ j - magnitude x| ≤ |(n' : ℚ) * 10 ^ j' - magnitude x|
  even : ∀ n' j', ReadsAs n' j' x → NoLonger n' n → (n' : ℚ) * 10 ^ j' ≠ (n : ℚ) * 10 ^ j →
    |(n : ℚ) * 10 ^ j - magnitude x| = |(n' : ℚ) * 10 ^ j' - magnitude x| → ∃ k : ℤ, (n : ℚ) * 10 ^ j = 2 * k * 10 ^ j'

/-- A minus sign, if the number has one. -/
def minusText (x : F64) : Bytes := if signBit x then [ch '-'] else []

/-- `ds` are the decimal digits of `n`, without zeros in front. -/
def NumeralOf (n : Nat) (ds : Bytes) : Prop := (∀ c ∈ ds, IsDigit 10 c) ∧ runValue 10 ds = n ∧ ds ≠ [] ∧ ds.head? ≠ some (ch '0')

/-- The digits times `10^j`, written without exponent. -/
inductive PlainForm : Bytes → Int → Bytes → Prop
  | whole (ds : Bytes) (z : Nat) : PlainForm ds z (ds ++ List.replicate z (ch '0'))
  | point (a b : Bytes) : a ≠ [] → b ≠ [] → PlainForm (a ++ b) (-(b.length : Int)) (a ++ ch '.' :: b)
  | fraction (ds : Bytes) (z : Nat) : PlainForm ds (-((z + ds.length : Nat) : Int)) (ch '0' :: ch '.' :: (List.replicate z (ch '0') ++ ds))

/-- The digits times `10^j`, written with one digit in front of the point and an exponent of at least `w` digits. -/
inductive ExponentForm (w : Nat) : Bytes → Int → Bytes → Prop
  | mk (a : UInt8) (b : Bytes) (e : Int) (es : Bytes) : (∀ c ∈ es, IsDigit 10 c) → runValue 10 es = e.natAbs → es ≠ [] →
      (es.head? = some (ch '0') → es.length ≤ w) → w ≤ es.length →
      ExponentForm w (a :: b) (e - b.length)
        (a :: ((if b = [] then [] else ch '.' :: b) ++ ch 'e' :: (if e < 0 then ch '-' else ch '+') :: es))

end Spec
end Texted
