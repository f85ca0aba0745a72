import Verif.Model.CommandLine
/-
/repo/cmd/texted/main.go: the whole command. Which subcommand runs, and with which words, is decided by cobra v1.9.1 (/repo/go.mod;
`Command.ExecuteC`, `Find`, `stripFlags`, `argsMinusFirstX`, `legacyArgs`). Modelled: the choice, the words passed on, the exit status.
Not modelled: help and usage texts (parameters), error messages on standard error, cobra's own subcommands `help`, `completion` and
`__complete` (only that they are chosen).
-/
namespace Texted

/-- The subcommands of the root: /repo/cmd/texted/main.go:19-23 and the `Use` lines of /repo/commands/*.go; then the ones cobra adds
(`InitDefaultHelpCmd`, `InitDefaultCompletionCmd`, `initCompleteCmd`). -/
def subcommands : List Bytes :=
  [b! "edit", b! "parse", b! "test", b! "doc", b! "mcp", b! "help", b! "completion", b! "__complete", b! "__completeNoDesc"]

/-- The case of `stripFlags` and `argsMinusFirstX` that takes the next word for the value of an option: `--name` or `-x` without `=`. The root
has no options at that moment (the help flag is added later, in `execute`), so no name is known to need no value. -/
def takesNext (w : Bytes) : Bool := !w.contains 61 && ((b! "--").isPrefixOf w || (w.head? == some 45 && w.length == 2))

/-- cobra's `stripFlags`: the words that may name a command. -/
def commandWords : List Bytes → List Bytes
  | [] => []
  | w :: rest =>
    if w = b! "--" then []
    else if takesNext w then
      match rest with
      | [] => []
      | [_] => []
      | _ :: v :: more => commandWords (v :: more)
    else if w ≠ [] ∧ w.head? ≠ some 45 then w :: commandWords rest
    else commandWords rest

/-- cobra's `argsMinusFirstX`: the words without the one that named the command. -/
def withoutFirst (x : Bytes) : List Bytes → List Bytes
  | [] => []
  | w :: rest =>
    if w = b! "--" then w :: rest
    else if takesNext w then
      match rest with
      | [] => [w]
      | v :: more => w :: v :: withoutFirst x more
    else if w.head? ≠ some 45 then (if w = x then rest else w :: withoutFirst x rest)
    else w :: withoutFirst x rest

/-- What `Find` comes to: the root itself with all words, a subcommand with its words, or `unknown command %q`. -/
inductive Picked
  | root (words : List Bytes)
  | sub (name : Bytes) (words : List Bytes)
  | unknown (word : Bytes)
  deriving DecidableEq

/-- cobra's `Find` on the root with `legacyArgs`. The subcommands of /repo have no subcommands of their own, so the search ends there; that
`completion` has some is left out. -/
def pick (words : List Bytes) : Picked :=
  match commandWords words with
  | [] => .root words
  | w :: _ => if w ∈ subcommands then .sub w (withoutFirst w words) else .unknown w

/-- /repo/cmd/texted/main.go:25-27: the exit status. -/
def exitStatus : Option Bytes → Nat
  | none => 0
  | some _ => 1

/-- `texted WORDS...` (/repo/cmd/texted/main.go:11-28): the root command has no `Run`, so it prints its help if its options are in order.
`helps` are the help texts; `others` stands for what the subcommands other than `edit` do. -/
def textedMain [Ext] (helps : Bytes → Bytes) (others : Bytes → List Bytes → Proc Nat) (words : List Bytes) : Proc Nat :=
  match pick words with
  | .unknown _ => .ret 1
  | .root ws =>
    match parseWords [helpFlag] ws with
    | .error _ => .ret 1
    | .ok _ => .act (.print (helps (b! "texted"))) fun _ => .ret 0
  | .sub name ws => if name = b! "edit" then (editMain (helps (b! "edit")) ws).bind fun e => .ret (exitStatus e) else others name ws

end Texted
