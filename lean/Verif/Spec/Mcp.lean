import Verif.Model.Mcp
import Verif.Spec.CommandLine
import Verif.Spec.Tools
/-
Specification of the calls of `texted mcp`: which arguments a call gives, and what a client sees of an answer.
-/
namespace Texted
namespace Spec

/-- The arguments of the call are an object in which the last field called `key` has the value `v`. -/
def Given (args : Json) (key : Bytes) (v : Json) : Prop :=
  ∃ before after, args = .obj (before ++ (key, v) :: after) ∧ ∀ f ∈ after, f.1 ≠ key

/-- No value is given for `key`. -/
def NotGiven (args : Json) (key : Bytes) : Prop := ∀ v, ¬ Given args key v

/-- The values that switch an option on: `true`, a number other than zero, or one of the strings for true. -/
inductive SwitchesOn : Json → Prop
  | true : SwitchesOn (.bool true)
  | number {neg : Bool} {m : Nat} {e : Int} : m ≠ 0 → SwitchesOn (.num (.fin neg m e))
  | inf {neg : Bool} : SwitchesOn (.num (.inf neg))
  | nan : SwitchesOn (.num .nan)
  | word {s : Bytes} : s ∈ trueWords → SwitchesOn (.str s)

/-- The option is on. -/
def OptionOn (args : Json) (key : Bytes) : Prop := ∃ v, Given args key v ∧ SwitchesOn v

/-- A string argument with a default: the string given; the default if nothing, or something that is no string, is given. -/
def TextOr (args : Json) (key dflt s : Bytes) : Prop :=
  Given args key (.str s) ∨ (∀ t, ¬ Given args key (.str t)) ∧ s = dflt

/-- A call of edit_file with all that it needs. -/
def EditCall (args : Json) (script : Bytes) (files : List Bytes) : Prop :=
  Given args (b! "script") (.str script) ∧ Given args (b! "files") (.arr (files.map .str)) ∧ files ≠ []

/-- What remains of a text on its way through JSON: characters stay as they are, each byte that belongs to no character becomes
U+FFFD. -/
inductive Shown : Bytes → Bytes → Prop
  | nil : Shown [] []
  | char {s t : Bytes} (c : Char) : Shown s t → Shown (encodeRune c ++ s) (encodeRune c ++ t)
  | bad {b : UInt8} {s t : Bytes} : (∀ c r, b :: s ≠ encodeRune c ++ r) → Shown s t → Shown (b :: s) ([239, 191, 189] ++ t)

end Spec
end Texted
