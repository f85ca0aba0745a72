import Verif.Model.Eval
/-
Values as they are in memory: pointers, and lists whose elements are a slice, that is a window of an array that other lists and other
slices may also look at. Models the list functions of the Go API (/repo/edlisp/list.go, doc.go:19-23), for programs that use texted as a library.
Elsewhere in the model a value is a tree (Model/Value); here it is shown that for these functions and for `Equal` this is enough.
-/
namespace Texted

/-- A pointer to a value: `*Symbol`, `*String`, `*Number`, `*List`. A variable of type `Value` holds one of these, or nothing: `Option Ptr`
(`none` is the nil interface). -/
abbrev Ptr := Nat

/-- A Go slice of type `[]Value`: a window of an array. The nil slice is `⟨0, 0, 0, 0⟩`. -/
structure Window where
  array : Nat
  off : Nat
  len : Nat
  cap : Nat
  deriving Repr, DecidableEq

/-- What a pointer points to: /repo/edlisp/symbol.go:15-17, string.go:17-19, number.go:17-19, list.go:20-22. -/
inductive Cell where
  | sym (name : Bytes)
  | str (s : Bytes)
  | num (x : F64)
  | list (elements : Window)
  deriving Repr, DecidableEq

/-- Memory: the values and the arrays allocated so far. -/
structure Mem where
  cells : List Cell
  arrays : List (List (Option Ptr))
  deriving Repr, DecidableEq

/-- What one sees through a window. -/
def Mem.window (m : Mem) (s : Window) : List (Option Ptr) := ((m.arrays.getD s.array []).drop s.off).take s.len

/-- `&Symbol{…}`, `&String{…}`, `&Number{…}`, `&List{…}`. -/
def Mem.new (m : Mem) (c : Cell) : Ptr × Mem := (m.cells.length, { m with cells := m.cells ++ [c] })

/-- `make([]Value, n)` and filling it; also the slice Go makes for the arguments of a variadic call. -/
def Mem.make (m : Mem) (xs : List (Option Ptr)) : Window × Mem :=
  (⟨m.arrays.length, 0, xs.length, xs.length⟩, { m with arrays := m.arrays ++ [xs] })

/-- The slice `list.Elements`. A pointer that is not to a list cannot occur (Go's types); it counts as the nil slice. -/
def Mem.elements (m : Mem) (l : Ptr) : Window :=
  match m.cells[l]? with
  | some (.list s) => s
  | _ => ⟨0, 0, 0, 0⟩

/-- /repo/edlisp/list.go:30-32 `NewList(xs...)`: the list takes over the slice. -/
def Mem.newListFrom (m : Mem) (s : Window) : Ptr × Mem := m.new (.list s)

/-- /repo/edlisp/list.go:30-32 `NewList(a, b, …)`: Go makes a slice for the arguments, the nil slice if there are none. -/
def Mem.newList (m : Mem) (xs : List (Option Ptr)) : Ptr × Mem :=
  match xs with
  | [] => m.newListFrom ⟨0, 0, 0, 0⟩
  | _ => (m.make xs).2.newListFrom (m.make xs).1

/-- /repo/edlisp/list.go:35-37 `NewEmptyList`. -/
def Mem.newEmptyList (m : Mem) : Ptr × Mem := (m.make []).2.newListFrom (m.make []).1

/-- /repo/edlisp/list.go:53-55 `Len`. -/
def Mem.len (m : Mem) (l : Ptr) : Nat := (m.elements l).len

/-- /repo/edlisp/list.go:58-60 `IsEmpty`. -/
def Mem.isEmpty (m : Mem) (l : Ptr) : Bool := (m.elements l).len == 0

/-- `list.Elements[i]` for an index in range. -/
def Mem.at (m : Mem) (s : Window) (i : Nat) : Option Ptr := (m.window s).getD i none

/-- /repo/edlisp/list.go:63-68 `First`. -/
def Mem.first (m : Mem) (l : Ptr) : Option Ptr := if (m.elements l).len = 0 then none else m.at (m.elements l) 0

/-- /repo/edlisp/list.go:71-76 `Rest`: a new list that looks at the same array, from the second element on. -/
def Mem.rest (m : Mem) (l : Ptr) : Ptr × Mem :=
  let s := m.elements l
  if s.len ≤ 1 then m.newEmptyList else m.new (.list ⟨s.array, s.off + 1, s.len - 1, s.cap - 1⟩)

/-- /repo/edlisp/list.go:79-84 `Append`: a new array; `copy`, then the last element. -/
def Mem.append (m : Mem) (l : Ptr) (x : Option Ptr) : Ptr × Mem :=
  let made := m.make (m.window (m.elements l) ++ [x])
  made.2.new (.list made.1)

/-- /repo/edlisp/list.go:87-92 `Get`. -/
def Mem.get (m : Mem) (l : Ptr) (i : Int) : Option Ptr :=
  if i < 0 ∨ i ≥ (m.elements l).len then none else m.at (m.elements l) i.toNat

/-- A call of one of the functions that make values. -/
inductive Making where
  | symbol (name : Bytes)
  | string (s : Bytes)
  | number (x : F64)
  | list (xs : List (Option Ptr))
  | listFrom (s : Window)
  | emptyList
  | rest (l : Ptr)
  | append (l : Ptr) (x : Option Ptr)

/-- The value made, and memory afterwards. -/
def Mem.call (m : Mem) : Making → Ptr × Mem
  | .symbol n => m.new (.sym n)
  | .string s => m.new (.str s)
  | .number x => m.new (.num x)
  | .list xs => m.newList xs
  | .listFrom s => m.newListFrom s
  | .emptyList => m.newEmptyList
  | .rest l => m.rest l
  | .append l x => m.append l x

/-- One call after the other. -/
def Mem.calls (m : Mem) : List Making → Mem
  | [] => m
  | c :: cs => (m.call c).2.calls cs

/-- The Go assignment `s[i] = x`, for an index in range; also `list.Elements[i] = x`. Not a function of texted: something a program that uses the
library can do. -/
def Mem.assign (m : Mem) (s : Window) (i : Nat) (x : Option Ptr) : Mem :=
  if i < s.len then { m with arrays := m.arrays.modify s.array (·.set (s.off + i) x) } else m

/-- Go's own `append(s, x)`: into the array if there is room behind the window, otherwise into a new one, with some room to spare behind it.
Not a function of texted. -/
def Mem.goAppend (m : Mem) (s : Window) (x : Option Ptr) (spare : Nat) : Window × Mem :=
  if s.len < s.cap then (⟨s.array, s.off, s.len + 1, s.cap⟩, { m with arrays := m.arrays.modify s.array (·.set (s.off + s.len) x) })
  else (⟨m.arrays.length, 0, s.len + 1, s.len + 1 + spare⟩,
    { m with arrays := m.arrays ++ [m.window s ++ [x] ++ List.replicate spare none] })

mutual
/-- /repo/edlisp/equal.go:5-57 `Equal` on values in memory. The first argument bounds the depth of the recursion (`none`: deeper than that). -/
def Mem.equal (m : Mem) : Nat → Option Ptr → Option Ptr → Option Bool
  | 0, _, _ => none
  | _ + 1, none, none => some true
  | _ + 1, none, some _ => some false
  | _ + 1, some _, none => some false
  | n + 1, some p, some q =>
    match m.cells[p]?, m.cells[q]? with
    | some (.str a), some (.str b) => some (a == b)
    | some (.num a), some (.num b) => some (F64.goEq a b)
    | some (.sym a), some (.sym b) => some (a == b)
    | some (.list s), some (.list t) => if s.len ≠ t.len then some false else m.equals n (m.window s) (m.window t)
    | _, _ => some false
/-- The loop over the elements (/repo/edlisp/equal.go:46-50). -/
def Mem.equals (m : Mem) : Nat → List (Option Ptr) → List (Option Ptr) → Option Bool
  | 0, _, _ => none
  | n + 1, x :: xs, y :: ys =>
    match m.equal n x y with
    | none => none
    | some false => some false
    | some true => m.equals n xs ys
  | _ + 1, _, _ => some true
end

end Texted
