import Verif.Model.Basic
import Verif.Model.Value
/-
Specification vocabulary for the repeatable options.
-/
namespace Texted
namespace Spec

/-- The text with every CR LF turned into LF. -/
def unCRLF : Bytes → Bytes
  | [] => []
  | 13 :: r =>
    match r with
    | [] => [13]
    | 10 :: r' => 10 :: unCRLF r'
    | c :: r' => 13 :: unCRLF (c :: r')
  | c :: r => c :: unCRLF r

/-- The text as a quoted CSV field: in double quotes, the quotes inside doubled. -/
def csvQuoted (e : Bytes) : Bytes := [34] ++ e.flatMap (fun c => if c = 34 then [34, 34] else [c]) ++ [34]

/-- No newline, carriage return or double quote. -/
def OneLine (v : Bytes) : Prop := ∀ c ∈ v, c ≠ 10 ∧ c ≠ 13 ∧ c ≠ 34

end Spec
end Texted
