import Verif.Spec.JsonText
/- C43, C67: what the errors of JSON scripts say. -/
namespace Texted
namespace Spec

/-- What kind of value it is, in Go's words. -/
inductive Kind : Json → Bytes → Prop
  | null : Kind .null b! "<nil>"
  | bool {b : Bool} : Kind (.bool b) b! "bool"
  | num {x : F64} : Kind (.num x) b! "float64"
  | arr {l : List Json} : Kind (.arr l) b! "[]interface {}"
  | obj {f : List (Bytes × Json)} : Kind (.obj f) b! "map[string]interface {}"

/-- The value does not belong among the arguments of a command, and why. -/
inductive WrongItem : Json → Bytes → Prop
  | null : WrongItem .null b! "boolean and null values are not supported in texted JSON"
  | bool {b : Bool} : WrongItem (.bool b) b! "boolean and null values are not supported in texted JSON"
  | obj {f : List (Bytes × Json)} : WrongItem (.obj f) b! "objects are not supported in texted JSON"
  /-- A command without a name. -/
  | head {j : Json} {rest : List Json} {k : Bytes} : Kind j k → WrongItem (.arr (j :: rest)) (b! "first element of array must be string, got " ++ k)
  /-- The first wrong argument. The name has index 0. -/
  | inside {name : Bytes} {good : List Json} {j : Json} {rest : List Json} {e : Bytes} : ArgTrees good → WrongItem j e →
      WrongItem (.arr (.str name :: (good ++ j :: rest))) (b! "invalid element at index " ++ natDec (good.length + 1) ++ b! ": " ++ e)

/-- The value is not a command, and why. -/
inductive WrongCommand : Json → Bytes → Prop
  | str {s : Bytes} : WrongCommand (.str s) b! "top-level strings are not allowed in texted JSON"
  | num {x : F64} : WrongCommand (.num x) b! "top-level numbers are not allowed in texted JSON"
  | item {j : Json} {e : Bytes} : WrongItem j e → WrongCommand j e

/-- The JSON text is no script, and why: it is not JSON, not an array, or its first wrong command (counted from 0) is wrong. -/
inductive WrongScript (s : Bytes) : Bytes → Prop
  | text : (∀ j, ¬ JsonText s j) → WrongScript s b! "JSON unmarshal error"
  | array {j : Json} : JsonText s j → j ≠ .null → (∀ l, j ≠ .arr l) → WrongScript s b! "JSON unmarshal error"
  | command {good : List Json} {j : Json} {rest : List Json} {e : Bytes} : JsonText s (.arr (good ++ j :: rest)) → (∀ g ∈ good, CommandTree g) →
      WrongCommand j e → WrongScript s (b! "invalid format at index " ++ natDec good.length ++ b! ": " ++ e)

/-- The last field of that name. -/
def LastField (fs : List (Bytes × Json)) (k : Bytes) (j : Json) : Prop := ∃ pre post, fs = pre ++ (k, j) :: post ∧ ∀ p ∈ post, p.1 ≠ k

mutual
/-- How Go prints the value (`%v`). An object is shown with its fields in the order of their names; of fields with the same name only the last counts. -/
inductive Verb : Json → Bytes → Prop
  | null : Verb .null b! "<nil>"
  | true : Verb (.bool true) b! "true"
  | false : Verb (.bool false) b! "false"
  | num {x : F64} : Verb (.num x) (fmtG x)
  | str {s : Bytes} : Verb (.str s) s
  | arr {l : List Json} {ts : List Bytes} : VerbAll l ts → Verb (.arr l) (b! "[" ++ List.intercalate b! " " ts ++ b! "]")
  | obj {f ps : List (Bytes × Json)} {ts : List Bytes} : ps.Pairwise (fun p q => p.1 < q.1) → (∀ k j, (k, j) ∈ ps ↔ LastField f k j) → VerbFields ps ts →
      Verb (.obj f) (b! "map[" ++ List.intercalate b! " " ts ++ b! "]")
@[inherit_doc Verb]
inductive VerbAll : List Json → List Bytes → Prop
  | nil : VerbAll [] []
  | cons {j : Json} {t : Bytes} {l : List Json} {ts : List Bytes} : Verb j t → VerbAll l ts → VerbAll (j :: l) (t :: ts)
@[inherit_doc Verb]
inductive VerbFields : List (Bytes × Json) → List Bytes → Prop
  | nil : VerbFields [] []
  | cons {k : Bytes} {j : Json} {t : Bytes} {l : List (Bytes × Json)} {ts : List Bytes} : Verb j t → VerbFields l ts →
      VerbFields ((k, j) :: l) ((k ++ b! ":" ++ t) :: ts)
end

/-- The value cannot be an argument of a command that `texted parse` reads, and why. -/
inductive WrongArg : Json → Bytes → Prop
  | null : WrongArg .null b! "null values are not supported in texted JSON"
  | bool {b : Bool} : WrongArg (.bool b) b! "boolean values are not supported in texted JSON"
  | obj {f : List (Bytes × Json)} {t : Bytes} : Verb (.obj f) t →
      WrongArg (.obj f) (b! "unsupported JSON type: map[string]interface {} (value: " ++ t ++ b! ")")
  | head {j : Json} {rest : List Json} {k : Bytes} : Kind j k →
      WrongArg (.arr (j :: rest)) (b! "first element of JSON array must be a string (symbol), got " ++ k)
  | inside {name : Bytes} {good : List Json} {j : Json} {rest : List Json} {e : Bytes} : ArgTrees good → WrongArg j e →
      WrongArg (.arr (.str name :: (good ++ j :: rest))) (b! "error converting array element " ++ natDec (good.length + 1) ++ b! ": " ++ e)

/-- `texted parse` cannot read the value, and why. -/
inductive WrongEntry : Json → Bytes → Prop
  | null : WrongEntry .null b! "unsupported JSON type: <nil>"
  | bool {b : Bool} : WrongEntry (.bool b) b! "unsupported JSON type: bool"
  | obj {f : List (Bytes × Json)} : WrongEntry (.obj f) b! "unexpected JSON type: map[string]interface {}"
  | arr {l : List Json} {e : Bytes} : WrongArg (.arr l) e → WrongEntry (.arr l) e

/-- The text starts with that JSON value, which ends where the rest begins. -/
def StartsWith (s : Bytes) (j : Json) (rest : Bytes) : Prop :=
  ∃ w b, s = w ++ (b ++ rest) ∧ Spaces w ∧ JsonSays b j ∧ Within 10000 j ∧ ((∃ x, j = .num x) → NumberEnds b rest)

/-- `texted parse` cannot read the sequence of values, and why: the first value that is wrong, or something that is no value. -/
inductive WrongStream : Bytes → Bytes → Prop
  | text {s : Bytes} : ¬ Spaces s → (∀ j rest, ¬ StartsWith s j rest) → WrongStream s b! "JSON decode error"
  | here {s rest : Bytes} {j : Json} {e : Bytes} : StartsWith s j rest → WrongEntry j e → WrongStream s e
  | later {s rest : Bytes} {j : Json} {v : Value} {e : Bytes} : StartsWith s j rest → EntriesAre [j] [v] → WrongStream rest e → WrongStream s e

end Spec
end Texted
