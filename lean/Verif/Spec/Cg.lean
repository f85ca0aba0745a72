import Verif.Model.CgRun
import Verif.Spec.Fg
import Verif.Model.Mcp
import Verif.Spec.Tg
/-
Specification for C98: what the program does from the words of the command line on, in terms of runs of the declarations and functions as they
are written in Go. The bounds of the runs are only a means to define them.
-/
namespace Texted.Spec
open Texted
variable [Ext]

/-- `texted NAME WORDS`, for the command `c`, is the program `p` (`p` gives the error that the command returns). -/
def CommandDoes (help : Bytes) (c : CgCommand) (words : List Bytes) (p : Proc (Option Bytes)) : Prop :=
  ∃ n d, cgFiles n d help c words = p.bind fun e => .ret (.ret [fgError e])

/-- `texted NAME WORDS`, for the command `c`, ends with `o`. -/
def CommandEnds (x : TgX) (help : Bytes) (c : CgCommand) (words : List Bytes) (w : TgW) (o : TgOut) : Prop :=
  Eventually fun n d => cgShows x n d help c words w = o

/-- `texted WORDS` is the program `p`, which gives the exit status. -/
def ProgramDoes (g : CgProgram) (helps : Bytes → Bytes) (others : Bytes → List Bytes → Proc Nat) (words : List Bytes) (p : Proc Nat) : Prop :=
  ∃ n d, g.run n d helps others words = p.bind fun k => .ret (some k)

/-- `texted WORDS`, started in the world `w`, can be at a moment at which the world is `w'`. -/
def ProgramSees (g : CgProgram) (helps : Bytes → Bytes) (others : Bytes → List Bytes → Proc Nat) (words : List Bytes) (w w' : World) : Prop :=
  ∃ n d, Sees (g.run n d helps others words) w w'

/-- `texted WORDS`, started in the world `w`, can end with the exit status `k` and leave the world as `w'`. -/
def ProgramEnds (g : CgProgram) (helps : Bytes → Bytes) (others : Bytes → List Bytes → Proc Nat) (words : List Bytes) (w : World) (k : Nat) (w' : World) : Prop :=
  ∃ n d, Ends (g.run n d helps others words) w (some k) w'

/-- `texted parse WORDS` as a program. -/
def parseMainProc (help : Bytes) (words : List Bytes) : Proc (Option Bytes) :=
  match parseWords parseFlags words with
  | .error e => .ret (some e.text)
  | .ok (l, _) =>
    if boolSetting l (b! "help") then .act (.print help) fun _ => .ret none
    else parseProc (strSetting l (b! "input-format") (b! "shell")) (strSetting l (b! "output-format") (b! "sexp"))

/-- The commands that do not edit, `parse` being `parseMainProc`. -/
def withParse (helps : Bytes → Bytes) (others : Bytes → List Bytes → Proc Nat) (name : Bytes) (ws : List Bytes) : Proc Nat :=
  if name = b! "parse" then (parseMainProc (helps (b! "parse")) ws).bind fun e => .ret (exitStatus e) else others name ws

/-- The handler that the server `texted mcp --prefix pre` has registered under a name. -/
def handlerOf (pre name : Bytes) : Option CgHandler := (cgFind cgServer pre name).map (·.2)

/-- What the server `texted mcp --prefix pre` can answer to a `tools/call` message, and the world afterwards: the tools as they are declared, the
handlers as they are written. `x` and `tw` are what the documentation tool sees. -/
inductive ServerAnswers (x : TgX) (tw : TgW) (pre name : Bytes) (args : Json) (w : World) : McpAnswer → World → Prop
  | editFile {ctx r w'} : handlerOf pre name = some .editFile → CallEnds .EditFileHandler [ctx, .request args] w [.tool r, .nil] w' →
      ServerAnswers x tw pre name args w (.result r) w'
  | textedEval {ctx r w'} : handlerOf pre name = some .textedEval → CallEnds .TextedEvalHandler [ctx, .request args] w [.tool r, .nil] w' →
      ServerAnswers x tw pre name args w (.result r) w'
  | textedDoc {order r j} : handlerOf pre name = some .textedDoc → LawfulOrder order →
      TgEnds { x with order := order } .textedDocHandler [.request args] tw (.ret [.tool r, .nil] { tw with tick := j }) →
      ServerAnswers x tw pre name args w (.result r) w
  | unknown : handlerOf pre name = none → ServerAnswers x tw pre name args w .unknownTool w

end Texted.Spec
