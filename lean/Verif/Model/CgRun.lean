import Verif.Model.CgSource
import Verif.Model.FgRun
import Verif.Model.TgRun
/-
The program, from the words of the command line on: the commands as they are declared (Model/CgSource), calling the functions as they are
written (Model/FgSource, Model/TgSource).
-/
namespace Texted
variable [Ext]

/-- An argument of `runEdit` or `runParse`. Of the command, `runEdit` uses `cmd.Flags().GetString("script")` and
`cmd.Flags().GetStringSlice("expression")` only. -/
def CgV.fg : CgV → Option FgV
  | .val (.bool t) => some (.bool t)
  | .val (.str s) => some (.str s)
  | .val (.strs l) => some (.strs l)
  | .cmd get => match get (b! "script"), get (b! "expression") with
    | some (.str s), some (.strs es) => match getStringSlice es with
      | .ok l => some (.cmd s l)
      | .error _ => none
    | _, _ => none

/-- An argument of `runTests` or `runDoc`. -/
def CgV.tg : CgV → Option TgV
  | .val (.bool t) => some (.bool t)
  | .val (.str s) => some (.str s)
  | .val (.strs l) => some (.strs l)
  | .cmd _ => none

/-- `texted edit WORDS` and `texted parse WORDS`: the error that `Execute` returns, or nil. -/
def cgFiles (n d : Nat) (help : Bytes) (c : CgCommand) (words : List Bytes) : Proc FgOut :=
  match c.start words with
  | .panics => .panic
  | .refused e => .ret (.ret [.err e.text])
  | .help => .act (.print help) fun _ => .ret (.ret [.nil])
  | .call .runEdit args => match args.mapM CgV.fg with
    | some vs => fgRun n d .runEdit vs
    | none => .ret .stuck
  | .call .runParse args => match args.mapM CgV.fg with
    | some vs => fgRun n d .runParse vs
    | none => .ret .stuck
  | _ => .ret .stuck

/-- `texted test WORDS` and `texted doc WORDS`. -/
def cgShows (x : TgX) (n d : Nat) (help : Bytes) (c : CgCommand) (words : List Bytes) (w : TgW) : TgOut :=
  match c.start words with
  | .panics => .panic
  | .refused e => .ret [.err e.text] w
  | .help => .ret [.nil] { w with out := w.out ++ help }
  | .call .runTests args => match args.mapM CgV.tg with
    | some vs => tgRun x n d .runTests vs w
    | none => .stuck
  | .call .runDoc args => match args.mapM CgV.tg with
    | some vs => tgRun x n d .runDoc vs w
    | none => .stuck
  | _ => .stuck

/-- /repo/cmd/texted/main.go:25-27: the exit status. `none`: no outcome. -/
def CgProgram.status (p : CgProgram) : FgOut → Option Nat
  | .ret [.nil] => some 0
  | .ret [.err _] => some p.onError
  | _ => none

/-- `texted WORDS`: the root command prints its help if its options are in order. `others` stands for the commands that do not edit or
convert (`cgShows` is about two of them). -/
def CgProgram.run (p : CgProgram) (n d : Nat) (helps : Bytes → Bytes) (others : Bytes → List Bytes → Proc Nat) (words : List Bytes) :
    Proc (Option Nat) :=
  match p.pick words with
  | .unknown _ => .ret (some p.onError)
  | .root ws => match parseWords [helpFlag] ws with
    | .error _ => .ret (some p.onError)
    | .ok _ => .act (.print (helps p.use)) fun _ => .ret (some 0)
  | .own name ws => (others name ws).bind fun k => .ret (some k)
  | .command c ws =>
    if c.calls = .runEdit ∨ c.calls = .runParse then (cgFiles n d (helps c.name) c ws).bind fun o => .ret (p.status o)
    else (others c.name ws).bind fun k => .ret (some k)

end Texted
