import Verif.Model.Docs
import Verif.Model.CommandLine
import Verif.Model.JsonText
/-
The server `texted mcp`: /repo/commands/mcp.go, and how the handlers of /repo/tools read the arguments of a call. The library
mcp-go v0.31.0 (go.mod) is modelled from its documented behaviour: the arguments of a call are what encoding/json makes of them
(`Json`; a call without arguments has `null`), and the accessors `GetString`, `RequireString`, `GetBool`, `RequireStringSlice` look
at them as below. The wording of the accessors' own errors is the library's and no theorem depends on it. Not modelled: the other
messages of the protocol, and the envelope of the answer (its `text` field is the JSON string `jsonQuote`).
-/
namespace Texted

/-- `args[key]` for `args := request.GetArguments()`: arguments that are not an object are an empty map; of a name given twice the
decoder keeps the last. -/
def Json.arg (key : Bytes) : Json → Option Json
  | .obj fields => (fields.reverse.find? fun f => f.1 = key).map (·.2)
  | _ => none

/-- `request.GetString(key, dflt)`. -/
def getString (args : Json) (key dflt : Bytes) : Bytes :=
  match args.arg key with
  | some (.str s) => s
  | _ => dflt

/-- `request.RequireString(key)`. -/
def requireString (args : Json) (key : Bytes) : Except Bytes Bytes :=
  match args.arg key with
  | some (.str s) => .ok s
  | some _ => .error (b! "argument \"" ++ key ++ b! "\" is not a string")
  | none => .error (b! "required argument \"" ++ key ++ b! "\" not found")

/-- `request.GetBool(key, dflt)`. -/
def getBool (args : Json) (key : Bytes) (dflt : Bool) : Bool :=
  match args.arg key with
  | some (.bool v) => v
  | some (.str s) => (parseBool s).getD dflt
  | some (.num x) => !(x.goEq (.fin false 0 0))
  | _ => dflt

/-- The loop of `RequireStringSlice` over a `[]any`; `i` is the index. -/
def stringItems (key : Bytes) (i : Nat) : List Json → Except Bytes (List Bytes)
  | [] => .ok []
  | .str s :: rest =>
    match stringItems key (i + 1) rest with
    | .ok l => .ok (s :: l)
    | .error e => .error e
  | _ :: _ => .error (b! "item " ++ natDec i ++ b! " in argument \"" ++ key ++ b! "\" is not a string")

/-- `request.RequireStringSlice(key)`. -/
def requireStringSlice (args : Json) (key : Bytes) : Except Bytes (List Bytes) :=
  match args.arg key with
  | some (.arr l) => stringItems key 0 l
  | some _ => .error (b! "argument \"" ++ key ++ b! "\" is not a string slice")
  | none => .error (b! "required argument \"" ++ key ++ b! "\" not found")

/-- /repo/tools/edit_file.go:38-48: the parameters. -/
def editFileRequest (args : Json) : EditFileRequest :=
  { script := requireString args (b! "script"), files := requireStringSlice args (b! "files"),
    loopUntilError := getBool args (b! "loopUntilError") false }

/-- /repo/tools/texted_eval.go:42-55: the parameters. -/
def evalRequest (args : Json) : EvalRequest :=
  { input := requireString args (b! "input"), script := requireString args (b! "script"),
    output := getString args (b! "output") (b! "buffer") }

/-- /repo/tools/texted_doc.go:37-40: the parameters. -/
def DocCall (reg : Registry) (args : Json) (out : ToolResult) : Prop :=
  TextedDoc reg (getString args (b! "function_name") []) (getString args (b! "category") []) (getBool args (b! "verbose") false) out

/-- /repo/tools/edit_file.go:15-18, texted_eval.go:19-22, texted_doc.go:16-19: the name under which a tool is registered. -/
def toolName (pre name : Bytes) : Bytes := if pre ≠ [] then pre ++ name else name

/-- The answer to a `tools/call` message: a result, or the library's error for a name that is not registered. -/
inductive McpAnswer where
  | result (r : ToolResult)
  | unknownTool

/-- /repo/commands/mcp.go:40-53: the server `texted mcp --prefix pre` handles one `tools/call` message. The documentation's lists come in
an order the runtime chooses, so there can be several possible programs. A panic of a handler is not recovered. -/
inductive McpCall [Ext] (reg : Registry) (pre name : Bytes) (args : Json) (fuel : Nat) : Proc (Option McpAnswer) → Prop
  | editFile : name = toolName pre (b! "edit_file") →
      McpCall reg pre name args fuel ((editFileHandler fuel (editFileRequest args)).bind fun r => .ret (r.map .result))
  | textedEval : name = toolName pre (b! "texted_eval") →
      McpCall reg pre name args fuel ((textedEvalHandler (evalRequest args)).bind fun r => .ret (some (.result r)))
  | textedDoc {out : ToolResult} : name = toolName pre (b! "texted_doc") → DocCall reg args out →
      McpCall reg pre name args fuel (.ret (some (.result out)))
  | unknown : name ≠ toolName pre (b! "edit_file") → name ≠ toolName pre (b! "texted_eval") → name ≠ toolName pre (b! "texted_doc") →
      McpCall reg pre name args fuel (.ret (some .unknownTool))

end Texted
