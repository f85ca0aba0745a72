import Verif.Model.Modes
/- What C91 says of permissions. -/
namespace Texted.Spec
open Texted

/-- A file that exists keeps its permissions and its owner. -/
def KeepsModes (w : World) (m m' : Modes) : Prop := ∀ q, w.files q ≠ none → m'.mode q = m.mode q ∧ m'.whose q = m.whose q

/-- A file that came into being has the permissions rw-r--r--, without what the umask takes away, and belongs to the user. -/
def NewModes (w w' : World) (m m' : Modes) : Prop :=
  ∀ q, w.files q = none → w'.files q ≠ none → m'.mode q = 0o644#9 &&& ~~~ m.umask ∧ m'.whose q = .owner

/-- The user may read and write these files, if they exist. -/
def Permitted (S : Bytes → Prop) (w : World) (m : Modes) : Prop := ∀ q, S q → w.files q ≠ none → m.mayRead q = true ∧ m.mayWrite q = true

/-- The umask does not take away what the owner needs to read and write a new file. -/
def UsualUmask (m : Modes) : Prop := m.umask.getLsbD 8 = false ∧ m.umask.getLsbD 7 = false

/-- Everybody may read the file. -/
def Public (m : Modes) (q : Bytes) : Prop := (m.mode q).getLsbD 5 = true ∧ (m.mode q).getLsbD 2 = true

/-- Nobody but the owner may read the file. -/
def Private (m : Modes) (q : Bytes) : Prop := (m.mode q).getLsbD 5 = false ∧ (m.mode q).getLsbD 2 = false

/-- The octal digit of a mode that counts for a user: the first for the owner, the second for the group, the third for everybody else. -/
def octalDigit (mode : Nat) : Whose → Nat
  | .owner => mode / 64 % 8
  | .group => mode / 8 % 8
  | .other => mode % 8

/-- Digits that permit reading. -/
def ReadDigit (d : Nat) : Prop := d = 4 ∨ d = 5 ∨ d = 6 ∨ d = 7

/-- Digits that permit writing. -/
def WriteDigit (d : Nat) : Prop := d = 2 ∨ d = 3 ∨ d = 6 ∨ d = 7

end Texted.Spec
