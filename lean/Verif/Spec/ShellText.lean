import Verif.Model.Value
import Verif.Model.Quote
/-
C67: how the shell writer writes a program, and what it cannot write.
-/
namespace Texted.Spec

/-- How a value that is no list is written: a symbol by its name, a string as a literal (C40), a number as `texted` prints it (C75). -/
inductive ShellWord [Ext] : Value → Bytes → Prop
  | sym {n} : ShellWord (.sym n) n
  | str {s} : ShellWord (.str s) (quote s)
  | num {x} : ShellWord (.num x) (Value.num x).toStr

/-- Words with a space between them. -/
inductive ShellWords [Ext] : List Value → Bytes → Prop
  | none : ShellWords [] []
  | one {v s} : ShellWord v s → ShellWords [v] s
  | more {v s w l t} : ShellWord v s → ShellWords (w :: l) t → ShellWords (v :: w :: l) (s ++ b! " " ++ t)

/-- One line for each instruction. -/
inductive ShellLines [Ext] : List Value → Bytes → Prop
  | nil : ShellLines [] []
  | cons {l s p t} : ShellWords l s → ShellLines p t → ShellLines (.list l :: p) (s ++ b! "\n" ++ t)

/-- Instructions that cannot be written as a line, and what is said of them. -/
inductive NoShellLine : Value → Bytes → Prop
  | sym {n} : NoShellLine (.sym n) (b! "can only convert lists to shell format, got *edlisp.Symbol")
  | str {s} : NoShellLine (.str s) (b! "can only convert lists to shell format, got *edlisp.String")
  | num {x} : NoShellLine (.num x) (b! "can only convert lists to shell format, got *edlisp.Number")
  | nested {l m} : Value.list m ∈ l → NoShellLine (.list l) (b! "nested lists are not supported in shell format")

/-- What is written for a program, and the error: all lines and no error; or those up to the first instruction that cannot be written, and why. -/
inductive ShellText [Ext] : List Value → Bytes → Option Bytes → Prop
  | all {p s} : ShellLines p s → ShellText p s none
  | upTo {p v rest s e} : ShellLines p s → NoShellLine v e → ShellText (p ++ v :: rest) s (some e)

end Texted.Spec
