import Verif.Model.F64
/-
Values of the interpreter and the external parameters of the model.
-/
namespace Texted

/-- /repo/edlisp/types.go:11-13, symbol.go:15-17, string.go:17-19, number.go:17-19, list.go:20-22.
A Go `Value` interface holds one of exactly these four concrete types in all code of /repo.
Simplification: pointer identity and Go's nil interface value are not represented; no modelled function
compares pointers, and no `Value` built by a parser or built-in is nil. -/
inductive Value where
  | sym (name : Bytes)
  | str (s : Bytes)
  | num (x : F64)
  | list (elems : List Value)
  deriving Repr

mutual
/-- Decidable structural equality (used by tests of the model only; Go's own `Equal` is `goEqual`). -/
def Value.decEq : (a b : Value) → Decidable (a = b)
  | .sym a, .sym b => if h : a = b then isTrue (h ▸ rfl) else isFalse (by simp [h])
  | .str a, .str b => if h : a = b then isTrue (h ▸ rfl) else isFalse (by simp [h])
  | .num a, .num b => if h : a = b then isTrue (h ▸ rfl) else isFalse (by simp [h])
  | .list a, .list b => match Value.decEqs a b with
    | isTrue h => isTrue (h ▸ rfl)
    | isFalse h => isFalse (by simp [h])
  | .sym _, .str _ => isFalse (by simp)
  | .sym _, .num _ => isFalse (by simp)
  | .sym _, .list _ => isFalse (by simp)
  | .str _, .sym _ => isFalse (by simp)
  | .str _, .num _ => isFalse (by simp)
  | .str _, .list _ => isFalse (by simp)
  | .num _, .sym _ => isFalse (by simp)
  | .num _, .str _ => isFalse (by simp)
  | .num _, .list _ => isFalse (by simp)
  | .list _, .sym _ => isFalse (by simp)
  | .list _, .str _ => isFalse (by simp)
  | .list _, .num _ => isFalse (by simp)
@[inherit_doc Value.decEq]
def Value.decEqs : (a b : List Value) → Decidable (a = b)
  | [], [] => isTrue rfl
  | [], _ :: _ => isFalse (by simp)
  | _ :: _, [] => isFalse (by simp)
  | x :: xs, y :: ys => match Value.decEq x y, Value.decEqs xs ys with
    | isTrue h, isTrue h' => isTrue (h ▸ h' ▸ rfl)
    | isFalse h, _ => isFalse (by simp [h])
    | _, isFalse h => isFalse (by simp [h])
end

instance : DecidableEq Value := Value.decEq

/-- A compiled regular expression (`*regexp.Regexp`) as the code uses it: `FindStringIndex`, `FindAllStringIndex(s, -1)`, and what
`ReplaceAllString` needs: for a match that was found, the spans of the groups 1, 2, … (`none`: the group took no part), and the
names of these groups (`SubexpNames()[1:]`, empty if a group has none). -/
structure Regex where
  find : Bytes → Option (Nat × Nat)
  findAll : Bytes → List (Nat × Nat)
  groups : Bytes → Nat × Nat → List (Option (Nat × Nat)) := fun _ _ => []
  names : List Bytes := []

/-- Code outside the repository that the model does not define: parameters of the model.
* `f2i x`: Go `int(x)` for NaN, infinities and numbers outside int64 (implementation-defined by the Go spec);
* `isPrint c`: `strconv.IsPrint` for non-ASCII runes;
* `nameRune c`: whether a non-ASCII rune is a letter or digit (`unicode.IsLetter`, `unicode.IsDigit`);
* `upper`, `lower`: `unicode.ToUpper`, `unicode.ToLower` for non-ASCII runes;
* `compile`: `regexp.Compile` (the error is its text). -/
class Ext where
  f2i : F64 → Int
  isPrint : Char → Bool
  nameRune : Char → Bool
  upper : Char → Char
  lower : Char → Char
  compile : Bytes → Except Bytes Regex

/-- Go `int(x)` for a float64: truncation when the result fits, otherwise implementation-defined
(`wrap64` only says that it is an int). -/
def F64.toInt [Ext] (x : F64) : Int :=
  match x with
  | .fin neg m e =>
    let a := F64.truncAbs m e
    let v : Int := if neg then -(a : Int) else a
    if minInt ≤ v ∧ v ≤ maxInt then v else wrap64 (Ext.f2i x)
  | x => wrap64 (Ext.f2i x)

end Texted
