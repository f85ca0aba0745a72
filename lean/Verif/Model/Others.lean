import Verif.Model.Proc
/-
A program running while others change files: editors, formatters, version control, other users. Reading a file
(`os.ReadFile`) is one step, as in `Model/Proc`; the others can act between any two steps, also between the pieces of a write. Models the circumstances under which texted.go:70-139 (EditFile, EditFiles) and
commands/edit.go:532-612 (processFilesInPlace) run. Simplified: a piece of a write goes to the end of what the file holds at that moment (the
operating system writes at an offset; the two differ only if someone else changes the very file during the write).
-/
namespace Texted

/-- Runs during which the others may change files, in any way `others` allows. Standard input and output are the program's own. -/
inductive Among {α : Type} (others : World → World → Prop) : Run α × World → Run α × World → Prop
  | refl {c} : Among others c c
  | own {a b c} : Step a b → Among others b c → Among others a c
  | other {r w w1 c} : others w w1 → w1.input = w.input → w1.out = w.out → Among others (r, w1) c → Among others (r, w) c

/-- The program, started in `w`, can be in a state where the world is `w'`. -/
def SeesAmong {α : Type} (others : World → World → Prop) (p : Proc α) (w w' : World) : Prop := ∃ r, Among others (.at p, w) (r, w')

/-- The program, started in `w`, can return `a` and leave the world as `w'`. -/
def EndsAmong {α : Type} (others : World → World → Prop) (p : Proc α) (w : World) (a : α) (w' : World) : Prop :=
  Among others (.at p, w) (.at (.ret a), w')

end Texted
