import Verif.Model.Link
import Verif.Spec.Go
import Verif.Spec.Pg
import Verif.Spec.Fg
import Verif.Spec.Cg
/-
Specification for C99: the linked program. The bounds of the runs are only a means to define what the program does.
-/
namespace Texted.Spec
open Texted
variable [Ext]

/-- What the memory of a computer allows: texts below 2^60 bytes; and runs of a program that has fewer than 2^60 values, on a buffer that calls
of built-in functions have led to, in which each call is on texts and numbers of arguments below 2^62. A JSON script is one that package
encoding/json accepts as an array (the text of its error for other scripts is not represented in the model of the commands). -/
structure Memory.Real (m : Memory) : Prop where
  text : ∀ s, m.text s = true → Held s.length
  jsonText : ∀ s, m.jsonText s = true → Held s.length ∧ IsArray s
  run : ∀ p b, m.run p b = true → Held (Value.partsAll p) ∧ Reached b ∧ ∀ c ∈ scriptCalls defaultEnv p b, Small c.args c.buf

/-- A program that is linked with the packages of /repo: a real memory, and an environment that calls the built-in functions as they are written
in Go. -/
structure Linking.Real (L : Linking) : Prop where
  mem : Memory.Real L.mem
  env : RunsGo L.env

/-- `L`, with the functions of the other packages followed further. -/
def Linking.upTo (L : Linking) (n d : Nat) : Linking := { L with n := n, d := d }

/-- The operations of the model, on what fits into memory only. -/
def fittingOp (m : Memory) : FgOp → List FgV → Proc LinkOut
  | .parseString, [.str s] => fitting (m.text s) ((FgOp.run .parseString [.str s]).bind fun r => .ret (linkGot r))
  | .parseJSONString, [.str s] => fitting (m.jsonText s) ((FgOp.run .parseJSONString [.str s]).bind fun r => .ret (linkGot r))
  | .parseReader, [.stdin] => .act .stdin fun r => match r with
    | .ok s => fitting (m.text s) ((fgParsed (parseString s)).bind fun r => .ret (linkGot r))
    | .error e => .ret (.got [.vals [], .err e])
  | .eval, [.vals p, .env, .buffer b] => fitting (m.run p b) ((FgOp.run .eval [.vals p, .env, .buffer b]).bind fun r => .ret (linkGot r))
  | o, vs => (o.run vs).bind fun r => .ret (linkGot r)

/-- The call, with the operations of the model (C95), started in the world `w`, stays within the memory `m`: it never comes to a point from which
it is not followed further. -/
def StaysIn (m : Memory) (f : FgFn) (args : List FgV) (w : World) : Prop :=
  ∃ n d, ∀ w', ¬ Ends (fgRunBy (fittingOp m) n d f args) w .spin w'

/-- The script, in the format, can be read and run on the text within the memory. -/
def FitsIn (m : Memory) (input script format : Bytes) : Prop :=
  (if format = b! "json" then m.jsonText script else m.text script) = true ∧ ∀ p, parseScript format script = .ok p → m.run p (newBuffer input) = true

/-- The expressions, in the format, can be read and run one after the other within the memory, from the buffer on. -/
def ExpressionsFit (m : Memory) (format : Bytes) : List Bytes → Buffer → Prop
  | [], _ => True
  | e :: es, b => (if format = b! "json" then m.jsonText e else m.text e) = true ∧ ∀ p, parseScript format e = .ok p → m.run p b = true ∧
      ∀ v b', eval defaultEnv p b = (.ok v, b') → ExpressionsFit m format es b'

/-- The call, in the linked program, can be at a moment at which the world is `w'`. -/
def LinkedSees (L : Linking) (f : FgFn) (args : List FgV) (w w' : World) : Prop :=
  ∃ m e n d, Sees (linkedRun (Linking.upTo L m e) n d f args) w w'

/-- The call, in the linked program, can return `vs` and leave the world as `w'`. -/
def LinkedEnds (L : Linking) (f : FgFn) (args : List FgV) (w : World) (vs : List FgV) (w' : World) : Prop :=
  ∃ m e n d, Ends (linkedRun (Linking.upTo L m e) n d f args) w (.ret vs) w'

/-- The call, in the linked program, is the program `p` (which gives the results). -/
def LinkedDoes (L : Linking) (f : FgFn) (args : List FgV) (p : Proc (List FgV)) : Prop :=
  ∃ m e n d, linkedRun (Linking.upTo L m e) n d f args = p.bind fun vs => .ret (.ret vs)

/-- `texted WORDS`, linked, can be at a moment at which the world is `w'`. -/
def LinkedProgramSees (L : Linking) (g : CgProgram) (helps : Bytes → Bytes) (others : Bytes → List Bytes → Proc Nat) (words : List Bytes)
    (w w' : World) : Prop :=
  ∃ m e n d, Sees (g.linked (Linking.upTo L m e) n d helps others words) w w'

/-- `texted WORDS`, linked, can end with the exit status `k` and leave the world as `w'`. -/
def LinkedProgramEnds (L : Linking) (g : CgProgram) (helps : Bytes → Bytes) (others : Bytes → List Bytes → Proc Nat) (words : List Bytes)
    (w : World) (k : Nat) (w' : World) : Prop :=
  ∃ m e n d, Ends (g.linked (Linking.upTo L m e) n d helps others words) w (some k) w'

/-- `texted WORDS` comes to the call `f(vs)`: of `runEdit` or `runParse`. -/
inductive ProgramCalls (g : CgProgram) (words : List Bytes) : FgFn → List FgV → Prop
  | edit {c ws args vs} : g.pick words = .command c ws → c.start ws = .call .runEdit args → args.mapM CgV.fg = some vs → ProgramCalls g words .runEdit vs
  | parse {c ws args vs} : g.pick words = .command c ws → c.start ws = .call .runParse args → args.mapM CgV.fg = some vs → ProgramCalls g words .runParse vs

end Texted.Spec
