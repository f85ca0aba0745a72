import Verif.Model.Basic
/-
Programs that use the operating system, and what can happen when they run.
The actions are those of /repo: `os.ReadFile`, `os.WriteFile`, `io.ReadAll(os.Stdin)`, and printing to standard output.
-/
namespace Texted

/-- A system action. -/
inductive Act where
  /-- `os.ReadFile(path)` -/
  | read (path : Bytes)
  /-- `os.WriteFile(path, data, 0644)` -/
  | write (path data : Bytes)
  /-- `fmt.Printf`, `fmt.Println`, `os.Stdout.WriteString` -/
  | print (data : Bytes)
  /-- `io.ReadAll(os.Stdin)` -/
  | stdin

/-- A program: it ends with a result, panics, or performs an action and goes on with the reply (data or the text of an
error). -/
inductive Proc (α : Type) where
  | ret (a : α)
  | panic
  | act (a : Act) (k : Except Bytes Bytes → Proc α)

/-- Run `p`, then `f` on its result. -/
def Proc.bind {α β : Type} : Proc α → (α → Proc β) → Proc β
  | .ret a, f => f a
  | .panic, _ => .panic
  | .act a k, f => .act a fun r => (k r).bind f

/-- `if c { fmt.Printf(...) }`: the result of printing is ignored. -/
def say {α : Type} (c : Bool) (text : Bytes) (k : Proc α) : Proc α := if c then .act (.print text) fun _ => k else k

/-- What programs act on: files by name, the rest of standard input, what was printed. Simplification: two different
names are two different files (no links, no `./` prefixes; names that lead to the same file are in Model/Links), and nobody else changes the files (others acting meanwhile are in Model/Others); permissions and
directories are not represented. -/
structure World where
  files : Bytes → Option Bytes
  input : Bytes
  out : Bytes

/-- The file `p` now holds `d`. -/
def World.put (w : World) (p d : Bytes) : World := { w with files := fun q => if q = p then some d else w.files q }

/-- Contents after writing `chunk` at offset `n` (write(2) on a regular file: a gap is filled with zero bytes). -/
def writeAt (old : Bytes) (n : Nat) (chunk : Bytes) : Bytes :=
  (old ++ List.replicate (n - old.length) 0).take n ++ chunk ++ old.drop (n + chunk.length)

/-- A program somewhere in its execution: about to take its next step, or inside `os.WriteFile` with the first `n` bytes
written. -/
inductive Run (α : Type) where
  | at (p : Proc α)
  | writing (path data : Bytes) (n : Nat) (k : Except Bytes Bytes → Proc α)

/-- One step. Reading an existing file yields its contents or fails; writing first fails to open the file or truncates
(or creates) it, then writes the data piece by piece, and may fail after any piece; printing may fail after a part of the
text. A crash can happen between any two steps. -/
inductive Step {α : Type} : Run α × World → Run α × World → Prop
  | readOk {p d k w} : w.files p = some d → Step (.at (.act (.read p) k), w) (.at (k (.ok d)), w)
  | readErr {p e k w} : Step (.at (.act (.read p) k), w) (.at (k (.error e)), w)
  | stdinOk {k w} : Step (.at (.act .stdin k), w) (.at (k (.ok w.input)), { w with input := [] })
  | stdinErr {e k w} : Step (.at (.act .stdin k), w) (.at (k (.error e)), { w with input := [] })
  | printOk {d k w} : Step (.at (.act (.print d) k), w) (.at (k (.ok [])), { w with out := w.out ++ d })
  | printErr {d n e k w} : Step (.at (.act (.print d) k), w) (.at (k (.error e)), { w with out := w.out ++ d.take n })
  | openErr {p d e k w} : Step (.at (.act (.write p d) k), w) (.at (k (.error e)), w)
  | open {p d k w} : Step (.at (.act (.write p d) k), w) (.writing p d 0 k, w.put p [])
  | piece {p d n m k w} : n < m → m ≤ d.length →
      Step (.writing p d n k, w) (.writing p d m k, w.put p (writeAt ((w.files p).getD []) n ((d.take m).drop n)))
  | writeErr {p d n e k w} : Step (.writing p d n k, w) (.at (k (.error e)), w)
  | close {p d k w} : Step (.writing p d d.length k, w) (.at (k (.ok [])), w)

/-- Any number of steps. -/
inductive Steps {α : Type} : Run α × World → Run α × World → Prop
  | refl {c} : Steps c c
  | step {a b c} : Step a b → Steps b c → Steps a c

/-- The program, started in `w`, can be in a state where the world is `w'` (what a crash at that moment leaves behind). -/
def Sees {α : Type} (p : Proc α) (w w' : World) : Prop := ∃ r, Steps (.at p, w) (r, w')

/-- The program, started in `w`, can return `a` and leave the world as `w'`. -/
def Ends {α : Type} (p : Proc α) (w : World) (a : α) (w' : World) : Prop := Steps (.at p, w) (.at (.ret a), w')

/-- A whole run in which no action fails (reading a missing file still fails, with the text `missing`): result (`none` is a
panic) and world. -/
def runOk {α : Type} (missing : Bytes → Bytes) : Proc α → World → Option α × World
  | .ret a, w => (some a, w)
  | .panic, w => (none, w)
  | .act (.read p) k, w => runOk missing (k (match w.files p with | some d => .ok d | none => .error (missing p))) w
  | .act (.write p d) k, w => runOk missing (k (.ok [])) (w.put p d)
  | .act (.print d) k, w => runOk missing (k (.ok [])) { w with out := w.out ++ d }
  | .act .stdin k, w => runOk missing (k (.ok w.input)) { w with input := [] }

end Texted
