import Verif.Model.Mcp
/-
The parameters the tools declare to the clients of `texted mcp`. mcp-go turns the options into the `inputSchema` of the tool: an object
with a property for each `WithString`, `WithArray`, `WithBoolean`, of type `string`, `array` (without a type of items) and `boolean`,
and the list of the required ones. The descriptions of the parameters are not modelled.
-/
namespace Texted

/-- The declared types: `mcp.WithString`, `mcp.WithArray`, `mcp.WithBoolean`. -/
inductive ParamType where
  | string
  | array
  | boolean
  deriving DecidableEq

/-- One declared parameter. -/
structure ToolParam where
  name : Bytes
  type : ParamType
  required : Bool
  deriving DecidableEq

/-- /repo/tools/edit_file.go:21-34. -/
def editFileParams : List ToolParam :=
  [⟨b! "script", .string, true⟩, ⟨b! "files", .array, true⟩, ⟨b! "loopUntilError", .boolean, false⟩]

/-- /repo/tools/texted_eval.go:25-38. -/
def textedEvalParams : List ToolParam :=
  [⟨b! "input", .string, true⟩, ⟨b! "script", .string, true⟩, ⟨b! "output", .string, false⟩]

/-- /repo/tools/texted_doc.go:22-33. -/
def textedDocParams : List ToolParam :=
  [⟨b! "function_name", .string, false⟩, ⟨b! "category", .string, false⟩, ⟨b! "verbose", .boolean, false⟩]

/-- /repo/commands/mcp.go:40-53, with the names of tools/*.go: the tools the server registers, each with its parameters. -/
def mcpTools (pre : Bytes) : List (Bytes × List ToolParam) :=
  [(toolName pre (b! "edit_file"), editFileParams), (toolName pre (b! "texted_eval"), textedEvalParams), (toolName pre (b! "texted_doc"), textedDocParams)]

end Texted
