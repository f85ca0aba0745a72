import Verif.Model.PgRun
import Verif.Model.Json
import Verif.Spec.JsonText
/-
Specification vocabulary for C94: what it means that a function written in Go, run on arguments, ends in a certain way.
-/
namespace Texted

mutual
/-- The number of values a value consists of: itself, its elements, their elements, … -/
def Value.parts : Value → Nat
  | .list l => Value.partsAll l + 1
  | .num _ => 1
  | .str _ => 1
  | .sym _ => 1
@[inherit_doc Value.parts]
def Value.partsAll : List Value → Nat
  | [] => 0
  | v :: vs => v.parts + Value.partsAll vs
end

mutual
/-- The number of values a JSON value consists of (those inside objects not counted: they are never looked at). -/
def Json.parts : Json → Nat
  | .null => 1
  | .bool _ => 1
  | .num _ => 1
  | .str _ => 1
  | .arr l => Json.partsAll l + 1
  | .obj _ => 1
@[inherit_doc Json.parts]
def Json.partsAll : List Json → Nat
  | [] => 0
  | j :: js => j.parts + Json.partsAll js
end

namespace Spec
variable [Ext]

/-- Calling the function with these arguments ends like this, given rounds and calls enough. -/
def GoEnds (f : PgFn) (args : List PgV) (w : PgW) (o : PgOut) : Prop := o ≠ .spin ∧ ∃ n d, pgRun n d f args w = o

/-- The function returns a result and no error, and leaves the world like this. -/
def GoReturns (f : PgFn) (args : List PgV) (w : PgW) (v : PgV) (w' : PgW) : Prop := GoEnds f args w (.ret [v, .nil] w')

/-- The function returns an error and no result (or the zero value `z` of a string), and leaves the world like this. -/
def GoFails (f : PgFn) (args : List PgV) (w : PgW) (e : PgV) (w' : PgW) (z : PgV := .nil) : Prop := GoEnds f args w (.ret [z, e] w')

/-- The function crashes. -/
def GoCrashes (f : PgFn) (args : List PgV) (w : PgW) : Prop := GoEnds f args w .panic

/-- The function returns just this and changes nothing. -/
def GoIs (f : PgFn) (args : List PgV) (w : PgW) (v : PgV) : Prop := GoEnds f args w (.ret [v] w)

/-- A size that a computer can hold. -/
abbrev Held (n : Nat) : Prop := n < 1152921504606846976

/-- What a function that returns one value or an error does, if the model's definition gives this. -/
def Answers (f : PgFn) (args : List PgV) (w : PgW) (r : Res Bytes Value) : Prop :=
  match r with
  | .ok v => GoReturns f args w (.val v) w
  | .err e => GoFails f args w (.err e) w
  | .panic => GoCrashes f args w

/-- What a function that returns a slice of values or an error does, if the model's definition gives this. -/
def AnswersAll (f : PgFn) (args : List PgV) (w : PgW) (r : Res Bytes (List Value)) : Prop :=
  match r with
  | .ok vs => GoReturns f args w (.vals vs) w
  | .err e => GoFails f args w (.err e) w
  | .panic => GoCrashes f args w

/-- The text is JSON for an array (or null). -/
def IsArray (s : Bytes) : Prop := JsonText s .null ∨ ∃ l, JsonText s (.arr l)

/-- What `Eval` and `EvalWithTrace` do, if the model's definition gives this: a value, an error with its context, or a crash. -/
def Finishes (f : PgFn) (args : List PgV) (w : PgW) (r : Res ExecutionError Value) (w' : PgW) : Prop :=
  match r with
  | .ok v => GoReturns f args w (.val v) w'
  | .err e => GoFails f args w (.xerr e) w'
  | .panic => GoCrashes f args w

end Spec
end Texted
