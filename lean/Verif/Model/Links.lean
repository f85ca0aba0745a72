import Verif.Model.Proc
/-
Names and files: in `Model/Proc` two different names are two different files. Here a name leads to a file, and several names may lead to
the same one: `a`, `./a`, `/home/x/a`, symbolic links, hard links. `os.ReadFile` and `os.WriteFile` act on the file the name leads to
(they follow links; `os.WriteFile` truncates the file, it does not replace it).
Simplification: where a name leads does not change while the program runs (no program of /repo makes or removes links or directories).
-/
namespace Texted

/-- Where each name leads. The files are identified by byte strings, too (one of their names, or whatever the operating system uses). -/
abbrev Naming := Bytes → Bytes

/-- An action (/repo/texted.go:153, :162, commands/edit.go:233, :296, :429, :491, :501, :517, :557, :566, :576, :594) on the file the name leads to. -/
def Act.through (file : Naming) : Act → Act
  | .read p => .read (file p)
  | .write p d => .write (file p) d
  | .print d => .print d
  | .stdin => .stdin

/-- The program, with every action on the file its name leads to. What it prints and returns is about the names it was given. -/
def Proc.through {α : Type} (file : Naming) : Proc α → Proc α
  | .ret a => .ret a
  | .panic => .panic
  | .act a k => .act (a.through file) fun r => (k r).through file

end Texted
