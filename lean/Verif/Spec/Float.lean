import Mathlib.Algebra.Order.Ring.Abs
import Mathlib.Algebra.Order.Field.Power
import Mathlib.Data.Rat.Cast.Order
import Verif.Model.F64
/- The rational number a float64 stands for, and rounding to the nearest float64 (IEEE 754, ties to even). -/
namespace Texted
namespace Spec

/-- The rational number a finite float64 stands for. -/
def value : F64 → ℚ
  | .fin neg m e => (if neg then -1 else 1) * (m : ℚ) * (2 : ℚ) ^ e
  | _ => 0

/-- Neither NaN nor an infinity. -/
def Finite : F64 → Prop
  | .fin _ _ _ => True
  | _ => False

/-- The sign bit. -/
def signBit : F64 → Bool
  | .nan => false
  | .inf neg => neg
  | .fin neg _ _ => neg

/-- From here on a number rounds to an infinity: half a unit above the greatest float64. -/
def overflow : ℚ := (2 ^ 54 - 1) * 2 ^ 970

/-- `x` is the float64 nearest to `q`. No float64 is nearer; if another one is just as near, then `x` is the one whose last binary digit
is 0 (it is an even multiple of the unit of the other one). -/
structure Nearest (q : ℚ) (x : F64) : Prop where
  finite : Finite x
  canon : x.Canon
  nearest : ∀ y : F64, Finite y → y.Canon → |value x - q| ≤ |value y - q|
  even : ∀ neg m e, F64.Canon (.fin neg m e) → value (.fin neg m e) ≠ value x → |value x - q| = |value (.fin neg m e) - q| →
    ∃ k : ℤ, value x = 2 * k * 2 ^ e

end Spec
end Texted
