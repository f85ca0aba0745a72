import Verif.Model.FgSource
/-
Running the functions of Model/FgSource.
-/
namespace Texted
variable [Ext]

/-- A call of a function (of /repo/texted.go, commands/edit.go, commands/parse.go, edlisp/writer, tools/edit_file.go, tools/texted_eval.go)
with arguments; `for { … }` runs at most `n` rounds and calls may be nested `d` deep. -/
def fgRun (n : Nat) : Nat → FgFn → List FgV → Proc FgOut
  | 0, _, _ => .ret .spin
  | d + 1, f, args =>
    match fgSetAll (fun _ => .nil) f.params args with
    | some st => f.body.exec n (fgRun n d) st
    | none => .ret .stuck

end Texted
