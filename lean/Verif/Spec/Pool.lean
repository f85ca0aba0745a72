import Verif.Model.Pool
/-
Specification of concurrent runs.
-/
namespace Texted
namespace Spec

/-- The two worlds agree on the files in `S`. -/
def AgreeOn (S : Bytes → Prop) (w v : World) : Prop := ∀ q, S q → v.files q = w.files q

/-- The programs are run one after the other, each to its end, with these results. -/
inductive InTurn {α : Type} : List (Proc α) → World → List α → World → Prop
  | nil (w : World) : InTurn [] w [] w
  | cons {p : Proc α} {ps : List (Proc α)} {w w1 w' : World} {a : α} {as : List α} :
      Ends p w a w1 → InTurn ps w1 as w' → InTurn (p :: ps) w (a :: as) w'

/-- The programs were all started in `w`, and all of them have ended, with these results, leaving `w'`. -/
def AllEnd {α : Type} (ps : List (Proc α)) (w : World) (as : List α) (w' : World) : Prop :=
  PoolSteps (ps.map .at, w) (as.map fun a => .at (.ret a), w')

end Spec
end Texted
