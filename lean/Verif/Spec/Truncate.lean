import Verif.Spec.Float
import Verif.Model.Eval
/- C82: numbers as arguments count by their integer part. -/
namespace Texted
namespace Spec

/-- `n` is what is left of the number without its fraction: 2 of 2.9, -2 of -2.9, 0 of -0.5. It must fit in 64 bits. -/
structure IntegerPart (x : F64) (n : Int) : Prop where
  finite : Finite x
  above : 0 ≤ value x → (n : ℚ) ≤ value x ∧ value x < n + 1
  below : value x ≤ 0 → (n : ℚ) - 1 < value x ∧ value x ≤ n
  low : -9223372036854775808 ≤ n
  high : n ≤ 9223372036854775807

/-- The same, or numbers with the same integer part. -/
inductive Near : Value → Value → Prop
  | same (v : Value) : Near v v
  | num {x y : F64} {n : Int} : IntegerPart x n → IntegerPart y n → Near (.num x) (.num y)

/-- The expressions are written alike, except that numbers used as arguments need only agree in their integer part. -/
inductive Alike : Value → Value → Prop
  | same (v : Value) : Alike v v
  | num {x y : F64} {n : Int} : IntegerPart x n → IntegerPart y n → Alike (.num x) (.num y)
  | call {f : Value} {args args' : List Value} : List.Forall₂ Alike args args' → Alike (.list (f :: args)) (.list (f :: args'))

/-- Instructions that are alike: calls with arguments that are alike, or the same. -/
inductive AlikeInstr : Value → Value → Prop
  | same (v : Value) : AlikeInstr v v
  | call {f : Value} {args args' : List Value} : List.Forall₂ Alike args args' → AlikeInstr (.list (f :: args)) (.list (f :: args'))

/-- The same outcome: the same value, a crash in both cases, or the same message at the same instruction, with point and mark at the same place.
(The instructions that the errors show are alike only.) -/
inductive SameOutcome : Res ExecutionError Value → Res ExecutionError Value → Prop
  | ok (v : Value) : SameOutcome (.ok v) (.ok v)
  | panic : SameOutcome .panic .panic
  | err {e e' : ExecutionError} : e.originalError = e'.originalError → e.instructionIndex = e'.instructionIndex → e.point = e'.point →
      e.mark = e'.mark → e.bufferContents = e'.bufferContents → AlikeInstr e.currentInstruction e'.currentInstruction →
      SameOutcome (.err e) (.err e')

end Spec
end Texted
