import Verif.Model.GoSource
import Verif.Model.Eval
/-
Specification vocabulary for C93: what it means that a function written in Go computes what the model's definition says.
-/
namespace Texted.Spec

/-- A run of a built-in written in Go ended the way the model's definition says: it returned the same value and no error, or the same
error and no value, with the same buffer; or both panic (a panic ends the program, so the buffer does not matter). -/
def Agrees : GoOut → Res Bytes Value × Buffer → Prop
  | .ret (.val v) .nil b, (.ok w, b') => v = w ∧ b = b'
  | .ret .nil (.err e) b, (.err e', b') => e = e' ∧ b = b'
  | .panic, (.panic, _) => True
  | _, _ => False

/-- Sizes that a computer can hold: a text of less than 2^62 bytes, fewer than 2^62 arguments and matches, and ints that are Go ints. The
positions of the last search are not negative (they are 0 in a new buffer, and a search sets them to at least 1). -/
structure Machine [Ext] (args : List Value) (b : Buffer) : Prop where
  content : b.content.length < 4611686018427387904
  count : args.length < 4611686018427387904
  strings : ∀ s, Value.str s ∈ args → s.length < 4611686018427387904
  found : ∀ p re s, Ext.compile p = .ok re → s.length ≤ b.content.length → (re.findAll s).length < 4611686018427387904
  point : minInt ≤ b.point ∧ b.point ≤ maxInt
  mark : minInt ≤ b.mark ∧ b.mark ≤ maxInt
  lastStart : 0 ≤ b.lastStart ∧ b.lastStart ≤ maxInt
  lastEnd : 0 ≤ b.lastEnd ∧ b.lastEnd ≤ maxInt

/-- The commands whose loop runs once per line asked for, whether or not the text has that many lines. -/
def linewise : List Bytes := [b! "mark-line", b! "delete-line", b! "kill-line"]

/-- `n` evaluations of a loop's condition are enough for a call: more than the text has bytes, and for the line commands more than the
number of lines asked for (one when there is no argument). -/
structure Enough (n : Nat) (name : Bytes) (args : List Value) (b : Buffer) [Ext] : Prop where
  text : b.content.length < n
  one : name ∈ linewise → args = [] → 1 < n
  lines : name ∈ linewise → ∀ x, args = [.num x] → x.toInt.toNat < n

/-- The numbers of a buffer are Go ints, and the positions of the last search are not negative. -/
structure Ints (b : Buffer) : Prop where
  point : minInt ≤ b.point ∧ b.point ≤ maxInt
  mark : minInt ≤ b.mark ∧ b.mark ≤ maxInt
  lastStart : 0 ≤ b.lastStart ∧ b.lastStart ≤ maxInt
  lastEnd : 0 ≤ b.lastEnd ∧ b.lastEnd ≤ maxInt

/-- A call that a computer has memory for: text, arguments and matches are less than 2^62 (the first half of `Machine`). -/
structure Small [Ext] (args : List Value) (b : Buffer) : Prop where
  content : b.content.length < 4611686018427387904
  count : args.length < 4611686018427387904
  strings : ∀ s, Value.str s ∈ args → s.length < 4611686018427387904
  found : ∀ p re s, Ext.compile p = .ok re → s.length ≤ b.content.length → (re.findAll s).length < 4611686018427387904

/-- The buffers that calls of the built-in functions can lead to, whatever the functions and the arguments, as long as there is memory. -/
inductive Reached [Ext] : Buffer → Prop
  | new (text : Bytes) : Reached (newBuffer text)
  | call {b : Buffer} {args : List Value} {name : Bytes} {f : Builtin} : Reached b → Small args b → (name, f) ∈ builtinTable → Reached (f args b).2

/-- The name, the arguments and the buffer of a call. -/
structure ACall where
  name : Bytes
  args : List Value
  buf : Buffer

mutual
/-- The calls that are made when an expression is evaluated, in this order. -/
def exprCalls [Ext] (env : Env) : Value → Buffer → List ACall
  | .list (.sym f :: args), b =>
    if (env f).isSome then argsCalls env args b ++
      (match evalArgs env args b with
      | (.ok vs, b') => [⟨f, vs, b'⟩]
      | _ => [])
    else []
  | _, _ => []
@[inherit_doc exprCalls]
def argsCalls [Ext] (env : Env) : List Value → Buffer → List ACall
  | [], _ => []
  | a :: as, b => exprCalls env a b ++
    match evalExpr env a b with
    | (.ok _, b') => argsCalls env as b'
    | _ => []
end

/-- The calls that are made when a script runs. -/
def scriptCalls [Ext] (env : Env) : List Value → Buffer → List ACall
  | [], _ => []
  | e :: es, b => exprCalls env e b ++
    match evalExpr env e b with
    | (.ok _, b') => scriptCalls env es b'
    | _ => []

/-- What a Go function of type `BuiltinFn` did, as the evaluator sees it: a value, an error or a panic; `none` if it has not ended. -/
def outcome : GoOut → Buffer → Option (Res Bytes Value × Buffer)
  | .ret (.val v) .nil b', _ => some (.ok v, b')
  | .ret .nil (.err e) b', _ => some (.err e, b')
  | .panic, b => some (.panic, b)
  | _, _ => none

/-- An environment that calls the functions as they are written in Go. -/
def RunsGo [Ext] (env : Env) : Prop :=
  (∀ name, (env name).isSome ↔ name ∈ goTable.map (·.1)) ∧
  ∀ name f, (name, f) ∈ goTable → ∀ g, env name = some g → ∀ n args b o, outcome (f.call n args b) b = some o → g args b = o

end Texted.Spec
