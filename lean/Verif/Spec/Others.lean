import Verif.Model.Others
/-
Specification vocabulary for what other programs do meanwhile.
-/
namespace Texted
namespace Spec

/-- The others leave the files in `S` alone. -/
def Leave (S : Bytes → Prop) (w w' : World) : Prop := ∀ q, S q → w'.files q = w.files q

/-- The others change nothing but the file `f`. -/
def OnlyChange (f : Bytes) (w w' : World) : Prop := ∀ q, q ≠ f → w'.files q = w.files q

/-- What the others alone can make of the files. -/
inductive Doing (others : World → World → Prop) : (Bytes → Option Bytes) → (Bytes → Option Bytes) → Prop
  | nothing (fs : Bytes → Option Bytes) : Doing others fs fs
  | then {w w1 : World} {fs : Bytes → Option Bytes} : others w w1 → Doing others w1.files fs → Doing others w.files fs

end Spec
end Texted
