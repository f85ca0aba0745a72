import Verif.Model.FgRun
import Verif.Model.PgRun
import Verif.Model.CgRun
/-
The packages of /repo linked together: the functions of texted.go, commands and tools (Model/FgSource) call the parsers, the evaluator and the
conversions of the writers, and these are now run as they are written in Go as well (Model/PgSource) instead of being operations with the
meaning of the model; the evaluator calls the built-in functions through an environment, which in the theorems is one that runs them as
they are written in Go (`RunsGo`, Model/GoSource).

Simplifications: `parser.ParseJSONReader` (used by `texted parse --input-format json` only) is not translated and keeps the meaning of the
model; a value is printed as an s-expression by one operation (`sexpText`; C94 is about its Go text); a call on something that does not fit
into memory is not followed further.
-/
namespace Texted
variable [Ext]

/-- What fits into memory: texts of scripts, texts of JSON scripts, runs of a program on a buffer. -/
structure Memory where
  text : Bytes → Bool
  jsonText : Bytes → Bool
  run : List Value → Buffer → Bool

/-- What the linked program runs with: the memory, the environment that /repo/edlisp/eval.go:162 `NewDefaultEnvironment` makes, the texts of
errors of package encoding/json, and how many rounds and nested calls the functions of the other packages are followed (a means to define
what they do, as in Model/Pg). -/
structure Linking where
  mem : Memory
  env : Env
  jsonError : Bytes → Bytes
  n : Nat
  d : Nat

/-- What a call of a function of another package came to. `spin`: it is not followed further. -/
inductive LinkOut where
  | got (vs : List FgV)
  | stuck
  | spin

/-- The world of package edlisp at a call: the buffer. -/
def Linking.world (L : Linking) (b : Buffer) : PgW := { buf := b, events := [], jsonError := L.jsonError }

/-- Call a function that has nothing to do with a buffer. -/
def Linking.call (L : Linking) (f : PgFn) (args : List PgV) : PgOut := pgRun L.n L.d f args (L.world (newBuffer []))

/-- `program, err := parse(...)` -/
def linkParsed : PgOut → Proc LinkOut
  | .ret [.vals p, .nil] _ => .ret (.got [.vals p, .nil])
  | .ret [.nil, .err e] _ => .ret (.got [.vals [], .err e])
  | .panic => .panic
  | .spin => .ret .spin
  | _ => .ret .stuck

/-- `err.Error()` of an error of package edlisp. -/
def linkError (b : Buffer) : PgOut → Proc LinkOut
  | .ret [.str m] _ => .ret (.got [.nil, .err m, .buffer b])
  | .panic => .panic
  | .spin => .ret .spin
  | _ => .ret .stuck

/-- `value, err := edlisp.Eval(program, env, buffer)`, and the buffer afterwards. -/
def Linking.evaluated (L : Linking) : PgOut → Proc LinkOut
  | .ret [.val v, .nil] w => .ret (.got [.val v, .nil, .buffer w.buf])
  | .ret [.nil, .xerr e] w => linkError w.buf (L.call .errorMessage [.xerr e])
  | .panic => .panic
  | .spin => .ret .spin
  | _ => .ret .stuck

/-- `text, err := valueToShellString(v)` -/
def linkText : PgOut → Proc LinkOut
  | .ret [.str t, .nil] _ => .ret (.got [.str t, .nil])
  | .ret [.str t, .err e] _ => .ret (.got [.str t, .err e])
  | .panic => .panic
  | .spin => .ret .spin
  | _ => .ret .stuck

/-- `value, err := valueToJSON(v)` -/
def linkJson : PgOut → Proc LinkOut
  | .ret [.json j, .nil] _ => .ret (.got [.json j, .nil])
  | .panic => .panic
  | .spin => .ret .spin
  | _ => .ret .stuck

/-- Only what fits into memory is followed. -/
def fitting (t : Bool) (p : Proc LinkOut) : Proc LinkOut := if t then p else .ret .spin

/-- `parser.ParseReader(os.Stdin)`: reading, then parsing. -/
def Linking.parseFrom (L : Linking) : Except Bytes Bytes → Proc LinkOut
  | .ok s => fitting (L.mem.text s) (linkParsed (L.call .ParseReader [.str s]))
  | .error e => .ret (.got [.vals [], .err e])

/-- The results of an operation that is not a function of /repo. -/
def linkGot : Option (List FgV) → LinkOut
  | some vs => .got vs
  | none => .stuck

/-- The operations: what other packages of /repo do is run as it is written there. -/
def Linking.op (L : Linking) : FgOp → List FgV → Proc LinkOut
  | .parseString, [.str s] => fitting (L.mem.text s) (linkParsed (L.call .ParseString [.str s]))
  | .parseJSONString, [.str s] => fitting (L.mem.jsonText s) (linkParsed (L.call .ParseJSONString [.str s]))
  | .parseReader, [.stdin] => .act .stdin L.parseFrom
  | .eval, [.vals p, .env, .buffer b] =>
    fitting (L.mem.run p b) (L.evaluated (pgRun L.n L.d .Eval [.vals p, .env L.env, .buffer] (L.world b)))
  | .valueToShellString, [.val v] => linkText (L.call .valueToShellString [.writer, .val v])
  | .valueToJSON, [.val v] => linkJson (L.call .valueToJSON [.writer, .val v])
  | o, vs => (o.run vs).bind fun r => .ret (linkGot r)

/-- The results of an operation go into the variables. -/
def LinkOut.put (st : FgSt) (xs : List FgVar) : LinkOut → FgOut
  | .got vs => fgBind st xs vs
  | .stuck => .stuck
  | .spin => .spin

/-- Running a statement: as `FgS.exec`, with `op` for the operations. -/
def FgS.execBy (op : FgOp → List FgV → Proc LinkOut) (n : Nat) (call : FgFn → List FgV → Proc FgOut) : FgS → FgSt → Proc FgOut
  | .skip, st => .ret (.next st)
  | .seq a b, st => (a.execBy op n call st).bind fun o => o.andThen fun st => b.execBy op n call st
  | .set x e, st => (e.eval st).runFg fun v => .ret (.next (fgSet st x v))
  | .setField x f e, st => (e.eval st).runFg fun v => ((st x).setField f v).runFg fun v => .ret (.next (fgSet st x v))
  | .op xs o args, st => (args.eval st).runFg fun vs => (op o vs).bind fun r => .ret (r.put st xs)
  | .callFn xs f args, st => (args.eval st).runFg fun vs => (call f vs).bind fun o => .ret (o.results st xs)
  | .if_ c a b, st => (c.eval st).runFg fun v => fgIf v (a.execBy op n call st) (b.execBy op n call st)
  | .range i x e body, st => (e.eval st).runFg fun v => v.items.runFg fun l => fgRange (fun st => body.execBy op n call st) i x 0 l st
  | .forever body, st => fgForever (fun st => body.execBy op n call st) n st
  | .cont, st => .ret (.cont st)
  | .brk, st => .ret (.brk st)
  | .ret es, st => (es.eval st).runFg fun vs => .ret (.ret vs)

/-- A call of a function: as `fgRun`, with `op` for the operations. -/
def fgRunBy (op : FgOp → List FgV → Proc LinkOut) (n : Nat) : Nat → FgFn → List FgV → Proc FgOut
  | 0, _, _ => .ret .spin
  | d + 1, f, args =>
    match fgSetAll (fun _ => .nil) f.params args with
    | some st => f.body.execBy op n (fgRunBy op n d) st
    | none => .ret .stuck

/-- A call of a function of the linked program. -/
def linkedRun (L : Linking) (n d : Nat) (f : FgFn) (args : List FgV) : Proc FgOut := fgRunBy L.op n d f args

/-- `texted edit WORDS` and `texted parse WORDS`, linked (as `cgFiles`). -/
def linkedFiles (L : Linking) (n d : Nat) (help : Bytes) (c : CgCommand) (words : List Bytes) : Proc FgOut :=
  match c.start words with
  | .panics => .panic
  | .refused e => .ret (.ret [.err e.text])
  | .help => .act (.print help) fun _ => .ret (.ret [.nil])
  | .call .runEdit args => match args.mapM CgV.fg with
    | some vs => linkedRun L n d .runEdit vs
    | none => .ret .stuck
  | .call .runParse args => match args.mapM CgV.fg with
    | some vs => linkedRun L n d .runParse vs
    | none => .ret .stuck
  | _ => .ret .stuck

/-- `texted WORDS`, linked (as `CgProgram.run`). -/
def CgProgram.linked (p : CgProgram) (L : Linking) (n d : Nat) (helps : Bytes → Bytes) (others : Bytes → List Bytes → Proc Nat) (words : List Bytes) :
    Proc (Option Nat) :=
  match p.pick words with
  | .unknown _ => .ret (some p.onError)
  | .root ws => match parseWords [helpFlag] ws with
    | .error _ => .ret (some p.onError)
    | .ok _ => .act (.print (helps p.use)) fun _ => .ret (some 0)
  | .own name ws => (others name ws).bind fun k => .ret (some k)
  | .command c ws =>
    if c.calls = .runEdit ∨ c.calls = .runParse then (linkedFiles L n d (helps c.name) c ws).bind fun o => .ret (p.status o)
    else (others c.name ws).bind fun k => .ret (some k)

end Texted
