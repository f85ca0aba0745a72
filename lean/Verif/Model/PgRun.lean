import Verif.Model.PgSource
/-
Running the functions of Model/PgSource.
-/
namespace Texted
variable [Ext]

/-- A call of a function (of /repo/edlisp/parser, eval.go, error.go, equal.go, list.go, number.go, symbol.go, string.go, writer) with
arguments; calls may be nested `d` deep. -/
def pgRun (n : Nat) : Nat → PgFn → List PgV → PgW → PgOut
  | 0, _, _, _ => .spin
  | d + 1, f, args, w =>
    match ({ vars := fun _ => .nil, w := w } : PgSt).setAll f.params args with
    | some st => f.body.exec n (pgRun n d) st
    | none => .stuck

end Texted
