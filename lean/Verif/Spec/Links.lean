import Verif.Model.Links
import Verif.Model.EditCmd
import Verif.Spec.Files
/-
Specification vocabulary for names that lead to files.
-/
namespace Texted
namespace Spec

/-- The files of `w` as seen through the names. -/
def seen (file : Naming) (w : World) : World := { w with files := fun name => w.files (file name) }

/-- Different names in `S` lead to different files. -/
def Apart (file : Naming) (S : Bytes → Prop) : Prop := ∀ p q, S p → S q → file p = file q → p = q

/-- The names that in-place editing writes: the files and their backups. -/
def InPlaceName (a : EditArgs) (q : Bytes) : Prop := q ∈ a.files ∨ (a.backupSuffix ≠ [] ∧ ∃ f ∈ a.files, q = f ++ a.backupSuffix)

/-- The files are edited one after the other, each as it is then. -/
inductive OneByOne (file : Naming) (exec : Bytes → Res Bytes Bytes) : List Bytes → World → List (Bytes × Option Bytes) → World → Prop
  | nil (w : World) : OneByOne file exec [] w [] w
  | cons {f : Bytes} {fs : List Bytes} {w w1 w' : World} {e : Option Bytes} {rs : List (Bytes × Option Bytes)} :
      EditOutcome exec f (w.files (file f)) e (w1.files (file f)) → SameExcept (file f) w w1 → OneByOne file exec fs w1 rs w' →
      OneByOne file exec (f :: fs) w ((f, e) :: rs) w'

/-- The script applied `n` times, one time to the output of the other. -/
inductive Applied (exec : Bytes → Res Bytes Bytes) : Nat → Bytes → Bytes → Prop
  | zero (c : Bytes) : Applied exec 0 c c
  | succ {n : Nat} {c t u : Bytes} : exec c = .ok t → Applied exec n t u → Applied exec (n + 1) c u

end Spec
end Texted
