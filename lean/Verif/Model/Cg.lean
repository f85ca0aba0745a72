import Verif.Model.CgVar
import Verif.Model.Main
import Verif.Model.Schemas
/-
How the commands, their options and the tools are declared in /repo (the data of Model/CgSource), and what cobra v1.9.1, pflag v1.0.6 and
mcp-go v0.31.0 make of the declarations: an option registered with `…Var` writes to a variable of the function that makes the command, one
registered without writes to a variable of its own; registering writes the default; a name or a shorthand in use makes the registration panic.
-/
namespace Texted

/-- What is in a variable behind an option: `bool`, `string`, `[]string`. -/
inductive CgVal where
  | bool (t : Bool)
  | str (s : Bytes)
  | strs (l : List Bytes)
  deriving DecidableEq

/-- One registration: `cmd.Flags().StringVarP(&target, name, short, value, …)` and its like; `target` is `none` without `Var`, `short` is
empty without `P`. -/
structure CgOption where
  target : Option CgVar
  name : Bytes
  short : Bytes
  value : CgVal

/-- One argument of the call in `RunE`: the command itself, the operands (`args`), a variable, or the zero value of a field that is not named. -/
inductive CgArg where
  | cmd
  | operands
  | var (v : CgVar)
  | const (v : CgVal)

/-- A command: `Use`, the declared variables with their zero values, the registrations in order, the function that `RunE` (`fails`) or `Run`
calls, and the arguments. -/
structure CgCommand where
  use : Bytes
  vars : List (CgVar × CgVal)
  options : List CgOption
  calls : CgFn
  passes : List CgArg
  fails : Bool

/-- The program: `Use` of the root, the commands in the order in which they are added, and the exit status when `Execute` fails. -/
structure CgProgram where
  use : Bytes
  commands : List CgCommand
  onError : Nat

/-- cobra's `Name`: what comes before the first space of `Use`. -/
def CgCommand.name (c : CgCommand) : Bytes := c.use.takeWhile (· ≠ 32)

/-- Where the value of an option is: in a variable, or in one of its own. -/
inductive CgCell where
  | var (v : CgVar)
  | own (option : Bytes)
  deriving DecidableEq

/-- A registered option. -/
structure CgFlag where
  defn : FlagDef
  cell : CgCell
  deriving DecidableEq

/-- The options of a command, the variables, and the options of kind `StringSlice` that have been set (`stringSliceValue.changed`). -/
structure CgState where
  flags : List CgFlag
  cells : CgCell → CgVal
  changed : Bytes → Bool

/-- The kind of an option is that of its value. -/
def CgVal.kind : CgVal → FlagKind
  | .bool _ => .bool
  | .str _ => .str
  | .strs _ => .slice

/-- A variable gets a value. -/
def CgState.put (st : CgState) (c : CgCell) (v : CgVal) : CgState := { st with cells := fun d => if d = c then v else st.cells d }

/-- pflag's `AddFlag` behind `newStringValue` and its like: the default is written; it panics if the name is in use, if the shorthand is longer
than a letter, or if the shorthand is in use. -/
def CgState.register (st : CgState) (o : CgOption) : Option CgState :=
  let cell := match o.target with | some v => .var v | none => .own o.name
  if st.flags.any (fun f => f.defn.name = o.name) then none
  else match o.short with
    | [] => some { st.put cell o.value with flags := st.flags ++ [⟨{ name := o.name, kind := o.value.kind }, cell⟩] }
    | [c] =>
      if st.flags.any (fun f => f.defn.short = some c) then none
      else some { st.put cell o.value with flags := st.flags ++ [⟨{ name := o.name, short := some c, kind := o.value.kind }, cell⟩] }
    | _ => none

/-- All registrations, one after the other. -/
def CgState.registerAll (st : CgState) : List CgOption → Option CgState
  | [] => some st
  | o :: os => match st.register o with
    | some st' => st'.registerAll os
    | none => none

/-- cobra's `InitDefaultHelpFlag`. -/
def cgHelp : CgOption := ⟨none, b! "help", b! "h", .bool false⟩

/-- The declared variables have the zero value of their type. -/
def CgCommand.zero (c : CgCommand) : CgCell → CgVal
  | .var v => ((c.vars.find? fun p => p.1 = v).map (·.2)).getD (.str [])
  | .own _ => .str []

/-- The command when its words are read: the declared variables, the registrations, and the option for help if there is none of that name. -/
def CgCommand.ready (c : CgCommand) : Option CgState :=
  match CgState.registerAll { flags := [], cells := c.zero, changed := fun _ => false } c.options with
  | none => none
  | some st => if st.flags.any (fun f => f.defn.name = b! "help") then some st else st.register cgHelp

/-- `Value.Set` of an option: a string is replaced, a boolean is read, the strings of a slice replace the default the first time and come
behind what is there afterwards. `none`: the value is refused. -/
def CgState.set (st : CgState) (f : CgFlag) (v : Bytes) : Option CgState :=
  match f.defn.kind with
  | .str => some (st.put f.cell (.str v))
  | .bool => match parseBool v with
    | some t => some (st.put f.cell (.bool t))
    | none => none
  | .slice => match readAsCSV v with
    | .error _ => none
    | .ok l => match st.cells f.cell with
      | .strs l₀ => some { st.put f.cell (.strs (if st.changed f.defn.name then l₀ ++ l else l)) with
          changed := fun n => if n = f.defn.name then true else st.changed n }
      | _ => none

/-- The settings of a command line, one after the other. -/
def CgState.setAll (st : CgState) : List (FlagDef × Bytes) → Option CgState
  | [] => some st
  | (d, v) :: rest => match st.flags.find? (fun f => f.defn.name = d.name) with
    | none => none
    | some f => match st.set f v with
      | some st' => st'.setAll rest
      | none => none

/-- `cmd.Flags().Lookup(name).Value`. -/
def CgState.lookup (st : CgState) (name : Bytes) : Option CgVal := (st.flags.find? fun f => f.defn.name = name).map fun f => st.cells f.cell

/-- An argument of the call, evaluated. The command is what `Lookup` finds in it. -/
inductive CgV where
  | val (v : CgVal)
  | cmd (lookup : Bytes → Option CgVal)

/-- The arguments of the call. -/
def CgState.args (st : CgState) (operands : List Bytes) : CgArg → CgV
  | .cmd => .cmd st.lookup
  | .operands => .val (.strs operands)
  | .var v => .val (st.cells (.var v))
  | .const v => .val v

/-- What comes of a command and the words behind its name: the declaration panics, the words are refused, help is shown, or the function is
called. -/
inductive CgStart where
  | panics
  | refused (e : FlagError)
  | help
  | call (f : CgFn) (args : List CgV)

/-- cobra's `Command.execute`: read the words, show help if it is asked for, otherwise `RunE`. (A value that is refused after `parseWords` has
accepted it does not occur.) -/
def CgCommand.start [Ext] (c : CgCommand) (words : List Bytes) : CgStart :=
  match c.ready with
  | none => .panics
  | some st => match parseWords (st.flags.map (·.defn)) words with
    | .error e => .refused e
    | .ok (l, operands) => match st.setAll l with
      | none => .panics
      | some st' => if st'.lookup (b! "help") = some (.bool true) then .help else .call c.calls (c.passes.map (st'.args operands))

/-- What cobra adds to the commands of the root (`InitDefaultHelpCmd`, `InitDefaultCompletionCmd`, `initCompleteCmd`). -/
def cobraCommands : List Bytes := [b! "help", b! "completion", b! "__complete", b! "__completeNoDesc"]

/-- What cobra's `Find` comes to: the root, a command of the program with its words, a command of cobra's own, or `unknown command`. -/
inductive CgPicked where
  | root (words : List Bytes)
  | command (c : CgCommand) (words : List Bytes)
  | own (name : Bytes) (words : List Bytes)
  | unknown (word : Bytes)

/-- cobra's `Find`: the first word that may name a command. -/
def CgProgram.pick (p : CgProgram) (words : List Bytes) : CgPicked :=
  match commandWords words with
  | [] => .root words
  | w :: _ => match p.commands.find? (fun c => c.name = w) with
    | some c => .command c (withoutFirst w words)
    | none => if w ∈ cobraCommands then .own w (withoutFirst w words) else .unknown w

/-! ### The tools -/

/-- The strings in the functions that make the tools: the parameter `prefix`, the variable `name`, a literal, a sum. -/
inductive CgStr where
  | pre
  | name
  | lit (s : Bytes)
  | plus (a c : CgStr)

/-- The test before the name is made longer. -/
inductive CgTest where
  | differ (a c : CgStr)
  | same (a c : CgStr)

/-- A tool: `name := name; if test { name = longer }; return mcp.NewTool(name, …params…)`. -/
structure CgTool where
  name : Bytes
  test : CgTest
  longer : CgStr
  params : List ToolParam

/-- The handlers of /repo/tools. -/
inductive CgHandler where
  | editFile
  | textedEval
  | textedDoc
  deriving DecidableEq

/-- The value of a string, with the parameter and the variable. -/
def CgStr.eval (pre name : Bytes) : CgStr → Bytes
  | .pre => pre
  | .name => name
  | .lit s => s
  | .plus a c => a.eval pre name ++ c.eval pre name

/-- The value of a test. -/
def CgTest.eval (pre name : Bytes) : CgTest → Bool
  | .differ a c => a.eval pre name ≠ c.eval pre name
  | .same a c => a.eval pre name = c.eval pre name

/-- The name under which the tool is registered. -/
def CgTool.registered (t : CgTool) (pre : Bytes) : Bytes := if t.test.eval pre t.name then t.longer.eval pre t.name else t.name

/-- mcp-go's `AddTool` and `handleToolCall`: the tools are in a map from names; of two with the same name the later one is there. -/
def cgFind (tools : List (CgTool × CgHandler)) (pre name : Bytes) : Option (CgTool × CgHandler) :=
  tools.reverse.find? fun t => t.1.registered pre = name

end Texted
