import Verif.Model.Schemas
import Verif.Spec.Mcp
/-
Specification of C84: what it means that the arguments of a call follow the declaration of a tool.
-/
namespace Texted
namespace Spec

/-- The JSON values of a declared type. -/
inductive OfType : ParamType → Json → Prop
  | string (s : Bytes) : OfType .string (.str s)
  | array (l : List Json) : OfType .array (.arr l)
  | boolean (b : Bool) : OfType .boolean (.bool b)

/-- A call follows the declaration: the required parameters are given, and every parameter given has its declared type. (Parameters that
are not declared may be given: the declaration does not forbid them.) -/
def Follows (params : List ToolParam) (args : Json) : Prop :=
  ∀ p ∈ params, (p.required = true → ∃ v, Given args p.name v) ∧ ∀ v, Given args p.name v → OfType p.type v

/-- Both calls give the same for each declared parameter. -/
def SameGiven (params : List ToolParam) (args args' : Json) : Prop :=
  ∀ p ∈ params, ∀ v, Given args p.name v ↔ Given args' p.name v

/-- The value of a parameter at face value: what is given, or the default if nothing is given; nothing else can be given. -/
def FaceValue {α : Type} (args : Json) (key : Bytes) (json : α → Json) (dflt x : α) : Prop :=
  Given args key (json x) ∨ NotGiven args key ∧ x = dflt

end Spec
end Texted
