import Verif.Model.Proc
/-
Permissions. Every write of /repo is `os.WriteFile(name, data, 0644)` (texted.go:162, commands/edit.go:429, :501, :566, :594): a file that
exists is truncated and keeps its permissions, a new one gets 0644 without the bits of the umask. Reading and writing an existing file need
the permission. Simplified: the nine permission bits only (no ACLs, no set-user-id bits); the permission to create a file in a directory is
not represented (creating may fail at any time, as in `Model/Proc`); nobody changes permissions meanwhile.
-/
namespace Texted

/-- How the user who runs the program stands to a file. -/
inductive Whose where
  | owner
  | group
  | other
  deriving DecidableEq

/-- The permissions of the files (of those that exist), whose they are, whether the user is the superuser, and the umask. -/
structure Modes where
  mode : Bytes → BitVec 9
  whose : Bytes → Whose
  super : Bool
  umask : BitVec 9

/-- The bit that gives permission to read: 0400, 0040 or 0004. -/
def readBit : Whose → Nat
  | .owner => 8
  | .group => 5
  | .other => 2

/-- The bit that gives permission to write: 0200, 0020 or 0002. -/
def writeBit : Whose → Nat
  | .owner => 7
  | .group => 4
  | .other => 1

/-- open(2) for reading is granted. -/
def Modes.mayRead (m : Modes) (p : Bytes) : Bool := m.super || (m.mode p).getLsbD (readBit (m.whose p))

/-- open(2) for writing is granted. -/
def Modes.mayWrite (m : Modes) (p : Bytes) : Bool := m.super || (m.mode p).getLsbD (writeBit (m.whose p))

/-- `os.OpenFile(name, O_WRONLY|O_CREATE|O_TRUNC, 0644)` has created the file. -/
def Modes.created (m : Modes) (p : Bytes) : Modes :=
  { m with
    mode := fun q => if q = p then 0o644#9 &&& ~~~ m.umask else m.mode q
    whose := fun q => if q = p then .owner else m.whose q }

/-- One step, as in `Step`, with permissions. -/
inductive ModeStep {α : Type} : Run α × World × Modes → Run α × World × Modes → Prop
  | readOk {p d k w m} : w.files p = some d → m.mayRead p = true → ModeStep (.at (.act (.read p) k), w, m) (.at (k (.ok d)), w, m)
  | readErr {p e k w m} : ModeStep (.at (.act (.read p) k), w, m) (.at (k (.error e)), w, m)
  | stdinOk {k w m} : ModeStep (.at (.act .stdin k), w, m) (.at (k (.ok w.input)), { w with input := [] }, m)
  | stdinErr {e k w m} : ModeStep (.at (.act .stdin k), w, m) (.at (k (.error e)), { w with input := [] }, m)
  | printOk {d k w m} : ModeStep (.at (.act (.print d) k), w, m) (.at (k (.ok [])), { w with out := w.out ++ d }, m)
  | printErr {d n e k w m} : ModeStep (.at (.act (.print d) k), w, m) (.at (k (.error e)), { w with out := w.out ++ d.take n }, m)
  | openErr {p d e k w m} : ModeStep (.at (.act (.write p d) k), w, m) (.at (k (.error e)), w, m)
  /-- The file exists: it is truncated. -/
  | openOld {p d old k w m} : w.files p = some old → m.mayWrite p = true →
      ModeStep (.at (.act (.write p d) k), w, m) (.writing p d 0 k, w.put p [], m)
  /-- The file does not exist: it is created. -/
  | openNew {p d k w m} : w.files p = none → ModeStep (.at (.act (.write p d) k), w, m) (.writing p d 0 k, w.put p [], m.created p)
  | piece {p d n i k w m} : n < i → i ≤ d.length →
      ModeStep (.writing p d n k, w, m) (.writing p d i k, w.put p (writeAt ((w.files p).getD []) n ((d.take i).drop n)), m)
  | writeErr {p d n e k w m} : ModeStep (.writing p d n k, w, m) (.at (k (.error e)), w, m)
  | close {p d k w m} : ModeStep (.writing p d d.length k, w, m) (.at (k (.ok [])), w, m)

/-- Any number of steps. -/
inductive ModeSteps {α : Type} : Run α × World × Modes → Run α × World × Modes → Prop
  | refl {c} : ModeSteps c c
  | step {a b c} : ModeStep a b → ModeSteps b c → ModeSteps a c

/-- The program, started in `w` with permissions `m`, can be in a state where they are `w'` and `m'`. -/
def ModeSees {α : Type} (p : Proc α) (w : World) (m : Modes) (w' : World) (m' : Modes) : Prop := ∃ r, ModeSteps (.at p, w, m) (r, w', m')

/-- The program, started in `w` with permissions `m`, can return `a` and leave them as `w'` and `m'`. -/
def ModeEnds {α : Type} (p : Proc α) (w : World) (m : Modes) (a : α) (w' : World) (m' : Modes) : Prop :=
  ModeSteps (.at p, w, m) (.at (.ret a), w', m')

end Texted
