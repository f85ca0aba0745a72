import Verif.Model.EditCmd
/-
Specification of `texted edit -e ...`: expressions evaluated one after the other on one buffer.
-/
namespace Texted
namespace Spec

/-- All the expressions parse and run, each on the buffer its predecessor left; their values and the buffer at the end. -/
inductive Evaluated [Ext] (format : Bytes) : List Bytes → Buffer → List Value → Buffer → Prop
  | nil (b) : Evaluated format [] b [] b
  | cons {e es b p v b1 vs b'} : parseScript format e = .ok p → eval defaultEnv p b = (.ok v, b1) →
      Evaluated format es b1 vs b' → Evaluated format (e :: es) b (v :: vs) b'

/-- Expression number `i` (counted from 1) stops the command: the error it ends with and what is printed about it. -/
inductive Stops [Ext] (format outputFormat : Bytes) (i : Nat) (e : Bytes) (b : Buffer) : Bytes → Bytes → Prop
  | parse {m} : parseScript format e = .err m →
      Stops format outputFormat i e b (b! "parsing expression: " ++ m) (b! "Error parsing expression " ++ natDec i ++ b! ": " ++ m ++ [nl])
  | run {p x b'} : parseScript format e = .ok p → eval defaultEnv p b = (.err x, b') →
      Stops format outputFormat i e b x.message (b! "Error in expression " ++ natDec i ++ b! ": " ++ x.message ++ [nl])
  | show {p v b' m} : parseScript format e = .ok p → eval defaultEnv p b = (.ok v, b') → resultText outputFormat v = .error m →
      Stops format outputFormat i e b m []

/-- The printed results: every value in the output format, each followed by a newline. -/
def Printed [Ext] (outputFormat : Bytes) (vs : List Value) (text : Bytes) : Prop :=
  ∃ ts : List Bytes, vs.map (resultText outputFormat) = ts.map Except.ok ∧ text = ts.flatMap (· ++ [nl])

/-- What functions return: a string, a whole number, or one of the symbols `t` and `nil`. -/
def PlainResult (v : Value) : Prop :=
  (∃ s, v = .str s) ∨ (∃ n : Int, v = .num (F64.ofInt n)) ∨ v = .sym b! "t" ∨ v = .sym b! "nil"

end Spec
end Texted
