import Verif.Model.TgSource
/-
Running the functions of Model/TgSource.
-/
namespace Texted
variable [Ext]

/-- A call of a function (of /repo/edlisp/testing/testing.go, commands/test.go, edlisp/documentation_registry.go, commands/doc.go,
tools/texted_doc.go) with arguments; loops run at most `n` rounds and calls may be nested `d` deep. -/
def tgRun (x : TgX) (n : Nat) : Nat → TgFn → List TgV → TgW → TgOut
  | 0, _, _, _ => .spin
  | d + 1, f, args, w =>
    match ({ vars := fun _ => .nil, w := w } : TgSt).setAll f.params args with
    | some st => f.body.exec x n (tgRun x n d) st
    | none => .stuck

end Texted
