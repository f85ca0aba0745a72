import Verif.Model.Value
import Verif.Model.Utf8
import Verif.Model.Json
/-
Specification of the programs that the JSON syntax can write down.
-/
namespace Texted
namespace Spec

mutual
/-- A command of the JSON syntax: the empty list, or a list headed by a symbol whose arguments are strings, numbers
and such commands. -/
inductive JsonCommand : Value → Prop
  | empty : JsonCommand (.list [])
  | call (name : Bytes) (args : List Value) : JsonArgs args → JsonCommand (.list (.sym name :: args))
/-- The arguments. -/
inductive JsonArgs : List Value → Prop
  | nil : JsonArgs []
  | str (s : Bytes) (rest : List Value) : JsonArgs rest → JsonArgs (.str s :: rest)
  | num (x : F64) (rest : List Value) : JsonArgs rest → JsonArgs (.num x :: rest)
  | cmd (v : Value) (rest : List Value) : JsonCommand v → JsonArgs rest → JsonArgs (v :: rest)
end

mutual
/-- All names and strings of the value are UTF-8 texts and all its numbers are finite float64s. -/
def TextValue : Value → Prop
  | .sym n => ∃ cs, n = encodeAll cs
  | .str s => ∃ cs, s = encodeAll cs
  | .num x => x.Canon ∧ ∃ neg m e, x = .fin neg m e
  | .list l => TextValues l
@[inherit_doc TextValue]
def TextValues : List Value → Prop
  | [] => True
  | v :: vs => TextValue v ∧ TextValues vs
end

mutual
/-- How deeply lists are nested. -/
def nesting : Value → Nat
  | .list l => nestingAll l + 1
  | _ => 0
@[inherit_doc nesting]
def nestingAll : List Value → Nat
  | [] => 0
  | v :: vs => max (nesting v) (nestingAll vs)
end

mutual
/-- JSON trees that texted accepts as commands: arrays that are empty or start with a string, whose other elements are
strings, numbers and such arrays. -/
inductive CommandTree : Json → Prop
  | empty : CommandTree (.arr [])
  | call (name : Bytes) (args : List Json) : ArgTrees args → CommandTree (.arr (.str name :: args))
/-- The other elements. -/
inductive ArgTrees : List Json → Prop
  | nil : ArgTrees []
  | str (s : Bytes) (rest : List Json) : ArgTrees rest → ArgTrees (.str s :: rest)
  | num (x : F64) (rest : List Json) : ArgTrees rest → ArgTrees (.num x :: rest)
  | cmd (j : Json) (rest : List Json) : CommandTree j → ArgTrees rest → ArgTrees (j :: rest)
end

end Spec
end Texted
