import Verif.Model.Memory
/-
What values in memory stand for.
-/
namespace Texted
namespace Spec

mutual
/-- The variable holds a value that stands for the tree `v`. -/
inductive Stands (m : Mem) : Option Ptr → Value → Prop
  | sym {p n} : m.cells[p]? = some (.sym n) → Stands m (some p) (.sym n)
  | str {p s} : m.cells[p]? = some (.str s) → Stands m (some p) (.str s)
  | num {p x} : m.cells[p]? = some (.num x) → Stands m (some p) (.num x)
  | list {p s vs} : m.cells[p]? = some (.list s) → StandAll m (m.window s) vs → Stands m (some p) (.list vs)
/-- Each of the variables stands for the tree in its place. -/
inductive StandAll (m : Mem) : List (Option Ptr) → List Value → Prop
  | nil : StandAll m [] []
  | cons {x xs v vs} : Stands m x v → StandAll m xs vs → StandAll m (x :: xs) (v :: vs)
end

/-- The window lies inside its array (Go guarantees this for every slice). -/
def InArray (m : Mem) (s : Window) : Prop := s.len ≤ s.cap ∧ s.off + s.cap ≤ (m.arrays.getD s.array []).length

/-- All lists look through windows that lie inside their arrays. -/
def Sound (m : Mem) : Prop := ∀ (p : Ptr) (s : Window), m.cells[p]? = some (Cell.list s) → InArray m s

/-- Calls a Go program can make: the slice in `NewList(xs...)` is one. -/
def Possible (m : Mem) : List Making → Prop
  | [] => True
  | c :: cs => (∀ s, c = Making.listFrom s → InArray m s) ∧ Possible (m.call c).2 cs

end Spec
end Texted
