import Verif.Model.Parser
/-
JSON trees and their conversion to and from programs: /repo/edlisp/parser/json.go, /repo/edlisp/writer/json.go.
-/
namespace Texted

deriving instance DecidableEq for Except

/-- What encoding/json decodes into an `interface{}`: nil, bool, float64, string, []interface{}, map[string]interface{}. -/
inductive Json where
  | null
  | bool (b : Bool)
  | num (x : F64)
  | str (s : Bytes)
  | arr (elems : List Json)
  | obj (fields : List (Bytes × Json))

/-- `fmt.Sprintf("%T", value)` of a decoded JSON value. -/
def Json.typeName : Json → Bytes
  | .null => b! "<nil>"
  | .bool _ => b! "bool"
  | .num _ => b! "float64"
  | .str _ => b! "string"
  | .arr _ => b! "[]interface {}"
  | .obj _ => b! "map[string]interface {}"

/-- The smaller of two names, byte for byte (Go's `<` on strings). -/
def bytesLess : Bytes → Bytes → Bool
  | [], [] => false
  | [], _ :: _ => true
  | _ :: _, [] => false
  | x :: xs, y :: ys => if x < y then true else if y < x then false else bytesLess xs ys

/-- `m[key] = value`, the map as a list sorted by its keys (the order in which fmt prints a map). -/
def putField (k v : Bytes) : List (Bytes × Bytes) → List (Bytes × Bytes)
  | [] => [(k, v)]
  | (k', v') :: r => if bytesLess k k' then (k, v) :: (k', v') :: r else if k = k' then (k, v) :: r else (k', v') :: putField k v r

/-- The items with single spaces between them, as fmt prints slices and maps. -/
def spaced : List Bytes → Bytes
  | [] => []
  | [x] => x
  | x :: y :: r => x ++ b! " " ++ spaced (y :: r)

mutual
/-- `fmt.Sprintf("%v", value)` of a decoded JSON value. -/
def Json.verb : Json → Bytes
  | .null => b! "<nil>"
  | .bool b => if b then b! "true" else b! "false"
  | .num x => fmtG x
  | .str s => s
  | .arr l => b! "[" ++ spaced (Json.verbs l) ++ b! "]"
  | .obj f => b! "map[" ++ spaced ((Json.verbFields [] f).map fun p => p.1 ++ b! ":" ++ p.2) ++ b! "]"
@[inherit_doc Json.verb]
def Json.verbs : List Json → List Bytes
  | [] => []
  | j :: r => j.verb :: Json.verbs r
/-- The fields of an object, added to the map one after the other. -/
def Json.verbFields (m : List (Bytes × Bytes)) : List (Bytes × Json) → List (Bytes × Bytes)
  | [] => m
  | (k, j) :: r => Json.verbFields (putField k j.verb m) r
end

mutual
/-- /repo/edlisp/parser/json.go:119-137 `convertJSONItem`. -/
def convertItem : Json → Except Bytes Value
  | .str s => .ok (.str s)
  | .num x => .ok (.num x)
  | .arr l => convertArray l
  | .bool _ => .error (b! "boolean values are not supported in texted JSON")
  | .null => .error (b! "null values are not supported in texted JSON")
  | .obj f => .error (b! "unsupported JSON type: " ++ (Json.obj f).typeName ++ b! " (value: " ++ (Json.obj f).verb ++ b! ")")
/-- /repo/edlisp/parser/json.go:91-115 `convertJSONArray`. -/
def convertArray : List Json → Except Bytes Value
  | [] => .ok (.list [])
  | .str s :: rest =>
    match convertItems 1 rest with
    | .ok vs => .ok (.list (.sym s :: vs))
    | .error e => .error e
  | j :: _ => .error (b! "first element of JSON array must be a string (symbol), got " ++ j.typeName)
/-- The loop of `convertJSONArray` (lines 106-112); `i` is the index of the first item. -/
def convertItems (i : Nat) : List Json → Except Bytes (List Value)
  | [] => .ok []
  | j :: rest =>
    match convertItem j with
    | .error e => .error (b! "error converting array element " ++ natDec i ++ b! ": " ++ e)
    | .ok v =>
      match convertItems (i + 1) rest with
      | .ok vs => .ok (v :: vs)
      | .error e => .error e
end

/-- /repo/edlisp/parser/json.go:71-86 `convertJSONValue`. -/
def convertValue : Json → Except Bytes Value
  | .arr l => convertArray l
  | .str s => .ok (.sym s)
  | .num x => .ok (.num x)
  | .bool _ => .error (b! "unsupported JSON type: bool")
  | .null => .error (b! "unsupported JSON type: <nil>")
  | .obj f => .error (b! "unexpected JSON type: " ++ (Json.obj f).typeName)

mutual
/-- /repo/edlisp/parser/json.go:145-187 `validateJSONValue`; `none` is success. -/
def validate (top : Bool) : Json → Option Bytes
  | .arr [] => none
  | .arr (.str _ :: rest) => validateItems 1 rest
  | .arr (j :: _) => some (b! "first element of array must be string, got " ++ j.typeName)
  | .str _ => if top then some (b! "top-level strings are not allowed in texted JSON") else none
  | .num _ => if top then some (b! "top-level numbers are not allowed in texted JSON") else none
  | .bool _ => some (b! "boolean and null values are not supported in texted JSON")
  | .null => some (b! "boolean and null values are not supported in texted JSON")
  | .obj _ => some (b! "objects are not supported in texted JSON")
/-- The loop of `validateJSONValue` (lines 158-162). -/
def validateItems (i : Nat) : List Json → Option Bytes
  | [] => none
  | j :: rest =>
    match validate false j with
    | some e => some (b! "invalid element at index " ++ natDec i ++ b! ": " ++ e)
    | none => validateItems (i + 1) rest
end

/-- /repo/edlisp/parser/json.go:140-142 `ValidateJSONFormat`. -/
def validateFormat (j : Json) : Option Bytes := validate true j

/-- /repo/edlisp/parser/json.go:53-67: the commands of `ParseJSONString` after decoding; `i` is the index. -/
def convertCommands (i : Nat) : List Json → Except Bytes (List Value)
  | [] => .ok []
  | j :: rest =>
    match validateFormat j with
    | some e => .error (b! "invalid format at index " ++ natDec i ++ b! ": " ++ e)
    | none =>
      match convertValue j with
      | .error e => .error e
      | .ok v =>
        match convertCommands (i + 1) rest with
        | .ok vs => .ok (v :: vs)
        | .error e => .error e

mutual
/-- /repo/edlisp/writer/json.go:40-61 `valueToJSON` (the `default` case, nil, is not a `Value` of the model, so there
is no error). -/
def valueToJson : Value → Json
  | .list l => .arr (valuesToJson l)
  | .sym n => .str n
  | .str s => .str s
  | .num x => .num x
@[inherit_doc valueToJson]
def valuesToJson : List Value → List Json
  | [] => []
  | v :: vs => valueToJson v :: valuesToJson vs
end

end Texted
