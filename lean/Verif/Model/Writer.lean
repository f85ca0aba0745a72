import Verif.Model.Quote
import Verif.Model.JsonText
/-
The S-expression and shell writers: /repo/edlisp/writer/sexp.go, /repo/edlisp/writer/shell.go.
A writer's effect is the bytes it has written and its error, if any (the destination itself never fails).
-/
namespace Texted

/-- Bytes written so far and the error that stopped the writer. -/
structure Written where
  out : Bytes
  err : Option Bytes
  deriving DecidableEq

/-- /repo/edlisp/writer/sexp.go:14-30 `SExpWriter.Write`, `WriteValue`: `fmt.Fprint(w, expr)` then a newline, for each expression. -/
def writeSexp [Ext] (exprs : List Value) : Written :=
  { out := exprs.flatMap fun v => v.toStr ++ [nl], err := none }

/-- `fmt.Sprintf("%T", v)`. -/
def Value.goType : Value → Bytes
  | .sym _ => b! "*edlisp.Symbol"
  | .str _ => b! "*edlisp.String"
  | .num _ => b! "*edlisp.Number"
  | .list _ => b! "*edlisp.List"

/-- /repo/edlisp/writer/shell.go:62-75 `valueToToken`. -/
def shellToken [Ext] : Value → Except Bytes Bytes
  | .sym n => .ok n
  | .str s => .ok (quote s)
  | .num x => .ok (numString x)
  | .list _ => .error (b! "nested lists are not supported in shell format")

/-- The loop of `valueToShellString` (/repo/edlisp/writer/shell.go:50-56). -/
def shellTokens [Ext] : List Value → Except Bytes (List Bytes)
  | [] => .ok []
  | v :: vs =>
    match shellToken v with
    | .error e => .error e
    | .ok t => match shellTokens vs with
      | .ok ts => .ok (t :: ts)
      | .error e => .error e

/-- /repo/edlisp/writer/shell.go:39-59 `valueToShellString`. -/
def shellString [Ext] : Value → Except Bytes Bytes
  | .list [] => .ok []
  | .list l => match shellTokens l with
    | .ok ts => .ok (joinWith (b! " ") ts)
    | .error e => .error e
  | v => .error (b! "can only convert lists to shell format, got " ++ v.goType)

/-- /repo/edlisp/writer/shell.go:16-26 `ShellWriter.Write`. -/
def writeShell [Ext] : List Value → Written
  | [] => { out := [], err := none }
  | v :: vs =>
    match shellString v with
    | .error e => { out := [], err := some e }
    | .ok s => let w := writeShell vs; { w with out := s ++ [nl] ++ w.out }

/-- /repo/edlisp/writer/json.go:14-27 `JSONWriter.Write`: one line per expression. -/
def writeJson : List Value → Written
  | [] => { out := [], err := none }
  | v :: vs =>
    match writeJsonValue v with
    | none => { out := [], err := some jsonUnsupported }
    | some t => let w := writeJson vs; { w with out := t ++ w.out }

end Texted
