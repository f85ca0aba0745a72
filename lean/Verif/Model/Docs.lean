import Verif.Model.Tools
import Verif.Model.Parser
/-
The documentation of the functions: /repo/edlisp/documentation.go, /repo/edlisp/documentation_registry.go, the tool texted_doc
(/repo/tools/texted_doc.go) and the command `texted doc` (/repo/commands/doc.go).

Go iterates over a map in an unspecified order and `sort.Slice` does not say which sorting method it uses, so what these functions
compute is modelled as a relation: `F … out` says that `out` is a possible result of `F`. A map is a list of entries in which no key
occurs twice; every permutation of it is a possible order of iteration.
-/
namespace Texted

/-- /repo/edlisp/documentation.go:33-45. -/
structure ParameterDoc where
  name : Bytes
  type : Bytes
  description : Bytes
  optional : Bool
  deriving DecidableEq

/-- /repo/edlisp/documentation.go:48-60. -/
structure ExampleDoc where
  description : Bytes
  input : Bytes
  buffer : Bytes
  output : Bytes
  deriving DecidableEq

/-- /repo/edlisp/documentation.go:8-30. -/
structure FunctionDoc where
  name : Bytes
  summary : Bytes
  description : Bytes
  parameters : List ParameterDoc
  examples : List ExampleDoc
  seeAlso : List Bytes
  category : Bytes
  deriving DecidableEq

/-- A parameter without its prose. -/
structure ParamSig where
  name : Bytes
  type : Bytes
  optional : Bool
  deriving DecidableEq

/-- A `FunctionDoc` without its prose (used by the table of what the package registers). -/
structure DocEntry where
  name : Bytes
  category : Bytes
  parameters : List ParamSig
  seeAlso : List Bytes
  deriving DecidableEq

/-- /repo/edlisp/documentation_registry.go:8-14: the map from names to documentation, as its entries in some order. -/
abbrev Registry := List FunctionDoc

/-- /repo/edlisp/documentation_registry.go:18-22 `RegisterDocumentation`: `documentationRegistry[doc.Name] = doc`. -/
def Registry.register (reg : Registry) (d : FunctionDoc) : Registry := d :: reg.filter fun x => x.name ≠ d.name

/-- The registry after these calls of `RegisterDocumentation`, in this order. -/
def registryOf (calls : List FunctionDoc) : Registry := calls.foldl Registry.register []

/-- /repo/edlisp/documentation_registry.go:26-31 `GetDocumentation`. -/
def Registry.lookup (reg : Registry) (name : Bytes) : Option FunctionDoc := reg.find? fun x => x.name = name

/-- `sort.Slice(docs, less)` with `less` comparing names: some permutation in which no later entry is less than an earlier one. -/
def SortedByName (docs out : List FunctionDoc) : Prop := out.Perm docs ∧ out.Pairwise fun a b => ¬ b.name < a.name

/-- /repo/edlisp/documentation_registry.go:35-50 `GetAllDocumentation`. -/
def AllDocumentation (reg : Registry) (out : List FunctionDoc) : Prop := ∃ order : List FunctionDoc, order.Perm reg ∧ SortedByName order out

/-- /repo/edlisp/documentation_registry.go:54-71 `GetDocumentationByCategory`. -/
def DocumentationByCategory (reg : Registry) (category : Bytes) (out : List FunctionDoc) : Prop :=
  ∃ order : List FunctionDoc, order.Perm reg ∧ SortedByName (order.filter fun d => d.category = category) out

/-- The keys of `map[string]bool` or of `map[string][]FunctionDoc` built by a loop that inserts these keys, in some order. -/
def MapKeys (inserted keys : List Bytes) : Prop := keys.Nodup ∧ ∀ k, k ∈ keys ↔ k ∈ inserted

/-- /repo/edlisp/documentation_registry.go:75-93 `GetCategories`. -/
def Categories (reg : Registry) (out : List Bytes) : Prop :=
  ∃ keys : List Bytes, MapKeys ((reg.map (·.category)).filter fun c => c ≠ []) keys ∧ out.Perm keys ∧ out.Pairwise fun a b => ¬ b < a

/-- /repo/tools/texted_doc.go:65-74: the loop that looks for similar names; it stops when it has three. -/
def suggestLoop (functionName : Bytes) : List FunctionDoc → List Bytes → List Bytes
  | [], acc => acc
  | d :: rest, acc =>
    if containsSub d.name functionName || containsSub functionName d.name then
      if (acc ++ [d.name]).length ≥ 3 then acc ++ [d.name] else suggestLoop functionName rest (acc ++ [d.name])
    else suggestLoop functionName rest acc

/-- One parameter (/repo/tools/texted_doc.go:129-135). -/
def paramText (p : ParameterDoc) : Bytes :=
  b! "- **" ++ p.name ++ b! "** (" ++ p.type ++ b! ")" ++ (if p.description ≠ [] then b! ": " ++ p.description else []) ++ [nl]

/-- One example (/repo/tools/texted_doc.go:142-149). -/
def exampleText (x : ExampleDoc) : Bytes :=
  (if x.description ≠ [] then x.description ++ b! "\n\n" else []) ++ b! "```\n" ++ x.input ++ b! "\n" ++ b! "```\n\n"

/-- /repo/tools/texted_doc.go:112-165 `formatFunctionDoc`. -/
def formatFunctionDoc (d : FunctionDoc) : Bytes :=
  trimSpace (b! "# " ++ d.name ++ b! "\n\n" ++
    (if d.summary ≠ [] then b! "**" ++ d.summary ++ b! "**\n\n" else []) ++
    (if d.description ≠ [] then d.description ++ b! "\n\n" else []) ++
    (if d.parameters ≠ [] then b! "## Parameters\n\n" ++ d.parameters.flatMap paramText ++ b! "\n" else []) ++
    (if d.examples ≠ [] then b! "## Examples\n\n" ++ d.examples.flatMap exampleText else []) ++
    (if d.category ≠ [] then b! "**Category:** " ++ d.category ++ b! "\n\n" else []) ++
    (if d.seeAlso ≠ [] then b! "**See also:** " ++ joinWith b! ", " d.seeAlso ++ b! "\n" else []))

/-- `category := doc.Category; if category == "" { category = "Uncategorized" }`. -/
def groupName (dflt : Bytes) (d : FunctionDoc) : Bytes := if d.category = [] then dflt else d.category

/-- One group of the verbose list (/repo/tools/texted_doc.go:191-202). -/
def groupText (docs : List FunctionDoc) (category : Bytes) : Bytes :=
  b! "## " ++ category ++ b! "\n\n" ++
  ((docs.filter fun d => groupName b! "Uncategorized" d = category).flatMap fun d =>
    b! "- **" ++ d.name ++ b! "**" ++ (if d.summary ≠ [] then b! ": " ++ d.summary else []) ++ b! "\n") ++ b! "\n"

/-- /repo/tools/texted_doc.go:167-210 `formatFunctionList`. The keys of `categoryMap` are used in the order in which the map yields
them (lines 185-191: the comment says that they are sorted, the code does not sort them). -/
def FormatFunctionList (docs : List FunctionDoc) (title : Bytes) (verbose : Bool) (out : Bytes) : Prop :=
  let head := b! "# " ++ title ++ b! "\n\nFound " ++ natDec docs.length ++ b! " function(s):\n\n"
  if verbose then ∃ keys : List Bytes, MapKeys (docs.map (groupName b! "Uncategorized")) keys ∧ out = trimSpace (head ++ keys.flatMap (groupText docs))
  else out = trimSpace (head ++ docs.flatMap fun d => b! "- " ++ d.name ++ b! "\n")

/-- /repo/tools/texted_doc.go:60-84 `handleFunctionDoc`. -/
def HandleFunctionDoc (reg : Registry) (functionName : Bytes) (out : ToolResult) : Prop :=
  match reg.lookup functionName with
  | some d => out = .text (formatFunctionDoc d)
  | none => ∃ all, AllDocumentation reg all ∧
      let suggestions := suggestLoop functionName all []
      out = .error (b! "Function '" ++ functionName ++ b! "' not found" ++
        (if suggestions ≠ [] then b! ". Did you mean: " ++ joinWith b! ", " suggestions else []))

/-- /repo/tools/texted_doc.go:86-100 `handleCategoryListing`. -/
def HandleCategoryListing (reg : Registry) (category : Bytes) (verbose : Bool) (out : ToolResult) : Prop :=
  ∃ docs, DocumentationByCategory reg category docs ∧
    if docs = [] then ∃ cats, Categories reg cats ∧
      out = .error (b! "No functions found in category '" ++ category ++ b! "'" ++
        (if cats ≠ [] then b! ". Available categories: " ++ joinWith b! ", " cats else []))
    else ∃ t, FormatFunctionList docs (b! "Functions in category '" ++ category ++ b! "'") verbose t ∧ out = .text t

/-- /repo/tools/texted_doc.go:102-110 `handleAllFunctions`. -/
def HandleAllFunctions (reg : Registry) (verbose : Bool) (out : ToolResult) : Prop :=
  ∃ docs, AllDocumentation reg docs ∧
    if docs = [] then out = .error b! "No functions documented"
    else ∃ t, FormatFunctionList docs b! "All functions" verbose t ∧ out = .text t

/-- /repo/tools/texted_doc.go:36-58 `TextedDocHandler` (an absent parameter reads as ""; its second result is always nil). -/
def TextedDoc (reg : Registry) (functionName category : Bytes) (verbose : Bool) (out : ToolResult) : Prop :=
  if functionName ≠ [] ∧ category ≠ [] then out = .error b! "function_name and category parameters are mutually exclusive"
  else if functionName ≠ [] then HandleFunctionDoc reg functionName out
  else if category ≠ [] then HandleCategoryListing reg category verbose out
  else HandleAllFunctions reg verbose out

/-- One group of the command's verbose list (/repo/commands/doc.go:155-161); `title` is `strings.Title` (`strTitle` in Model/Title). -/
def cmdGroupText (title : Bytes → Bytes) (docs : List FunctionDoc) (category : Bytes) : Bytes :=
  b! "## " ++ title category ++ b! "\n\n" ++
  ((docs.filter fun d => groupName b! "other" d = category).flatMap fun d => b! "- **" ++ d.name ++ b! "**: " ++ d.summary ++ b! "\n") ++ b! "\n"

/-- /repo/commands/doc.go:120-172 `listFunctions`: an error text, or what it prints. -/
def ListFunctions (title : Bytes → Bytes) (reg : Registry) (category : Bytes) (verbose : Bool) (out : Except Bytes Bytes) : Prop :=
  ∃ docs, (if category ≠ [] then DocumentationByCategory reg category docs else AllDocumentation reg docs) ∧
    if docs = [] then
      out = if category ≠ [] then .error (b! "no functions found in category: " ++ category) else .ok b! "No documented functions found.\n"
    else
      let head := if category ≠ [] then b! "Functions in category '" ++ category ++ b! "':\n\n"
        else b! "Available functions (" ++ natDec docs.length ++ b! " total):\n\n"
      if verbose then ∃ keys : List Bytes, MapKeys (docs.map (groupName b! "other")) keys ∧ out = .ok (head ++ keys.flatMap (cmdGroupText title docs))
      else out = .ok (head ++ (docs.flatMap fun d => b! "  " ++ d.name ++ b! "\n") ++
        b! "\nUse 'texted doc <function-name>' for detailed documentation.\nUse 'texted doc --verbose' to see function summaries.\n")

/-- One parameter as the command shows it (/repo/commands/doc.go:75-81). -/
def cmdParamText (p : ParameterDoc) : Bytes :=
  b! "- **" ++ p.name ++ b! "** (" ++ p.type ++ b! ")" ++ (if p.optional then b! " (optional)" else []) ++ b! ": " ++ p.description ++ b! "\n"

/-- One example as the command shows it (/repo/commands/doc.go:88-98). -/
def cmdExampleText (x : ExampleDoc) : Bytes :=
  b! "### " ++ x.description ++ b! "\n\n" ++
  (if x.buffer ≠ [] then b! "**Initial buffer:**\n```\n" ++ x.buffer ++ b! "\n```\n\n" else []) ++
  b! "**Command:**\n```\n" ++ x.input ++ b! "\n```\n\n" ++ b! "**Result:**\n" ++ x.output ++ b! "\n"

/-- /repo/commands/doc.go:57-117 `showFunctionDoc`: an error text, or what it prints. -/
def showFunctionDoc (reg : Registry) (functionName : Bytes) : Except Bytes Bytes :=
  match reg.lookup functionName with
  | none => .error (b! "no documentation found for function: " ++ functionName)
  | some d => .ok (b! "# " ++ d.name ++ b! "\n\n" ++ b! "**" ++ d.summary ++ b! "**\n\n" ++
      (if d.description ≠ [] then b! "## Description\n\n" ++ d.description ++ b! "\n\n" else []) ++
      (if d.parameters ≠ [] then b! "## Parameters\n\n" ++ d.parameters.flatMap cmdParamText ++ b! "\n" else []) ++
      (if d.examples ≠ [] then b! "## Examples\n\n" ++ joinWith b! "\n" (d.examples.map cmdExampleText) ++ b! "\n" else []) ++
      (if d.category ≠ [] then b! "## Category\n\n" ++ d.category ++ b! "\n\n" else []) ++
      (if d.seeAlso ≠ [] then b! "## See Also\n\n" ++ (d.seeAlso.flatMap fun r => b! "- " ++ r ++ b! "\n") ++ b! "\n" else []))

/-- /repo/commands/doc.go:41-54 `runDoc`. -/
def RunDoc (title : Bytes → Bytes) (reg : Registry) (args : List Bytes) (category : Bytes) (verbose : Bool) (out : Except Bytes Bytes) : Prop :=
  match args with
  | [name] => out = showFunctionDoc reg name
  | [] => ListFunctions title reg category verbose out
  | _ => out = .error b! "doc command accepts at most one argument (function name)"

end Texted
