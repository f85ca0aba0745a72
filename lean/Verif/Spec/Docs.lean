import Verif.Model.Docs
/- What C54, C55 and C63 say. -/
namespace Texted.Spec
open Texted

/-- `d` is what is registered under its name after these calls of RegisterDocumentation: the last call with that name wins. -/
def Registered (calls : List FunctionDoc) (d : FunctionDoc) : Prop :=
  ∃ pre post, calls = pre ++ d :: post ∧ ∀ x ∈ post, x.name ≠ d.name

/-- Each entry's name comes strictly before the next ones' in byte order (so no name occurs twice). -/
def Alphabetical (docs : List FunctionDoc) : Prop := docs.Pairwise fun a b => a.name < b.name

/-- The argument has the documented type. -/
def HasType (type : Bytes) : Value → Prop
  | .str _ => type = b! "string"
  | .num _ => type = b! "number"
  | _ => False

/-- The arguments are as documented: one for each parameter, of its type, except that optional parameters at the end may be missing. -/
inductive Fits : List ParamSig → List Value → Prop
  | none (ps : List ParamSig) (h : ∀ p ∈ ps, p.optional = true) : Fits ps []
  | cons (p : ParamSig) (ps : List ParamSig) (v : Value) (vs : List Value) (h : HasType p.type v) (hs : Fits ps vs) : Fits (p :: ps) (v :: vs)

/-- The reasons for which a function used as documented can still fail. -/
def Reason (e : Bytes) : Prop :=
  e = b! "search failed" ∨ e = b! "no previous search" ∨ e = b! "invalid search match positions" ∨ ∃ m, e = b! "invalid regexp: " ++ m

/-- The parts occur in the text, one behind the other in this order. -/
inductive InOrder : List Bytes → Bytes → Prop
  | nil (t : Bytes) : InOrder [] t
  | cons (gap part : Bytes) (parts : List Bytes) (rest : Bytes) (h : InOrder parts rest) : InOrder (part :: parts) (gap ++ part ++ rest)

/-- The line of a parameter: its name, its type, whether it can be left out, its description. -/
def parameterLine (p : ParameterDoc) : Bytes :=
  if p.optional = true then b! "- **" ++ p.name ++ b! "** (" ++ p.type ++ b! ") (optional): " ++ p.description ++ b! "\n"
  else b! "- **" ++ p.name ++ b! "** (" ++ p.type ++ b! "): " ++ p.description ++ b! "\n"

/-- What is told of an example: its title, the text it starts from (if there is one), the command and the result. -/
def exampleParts (x : ExampleDoc) : List Bytes :=
  [b! "### " ++ x.description ++ b! "\n"] ++ (if x.buffer = [] then [] else [b! "```\n" ++ x.buffer ++ b! "\n```\n"]) ++
    [b! "**Command:**\n```\n" ++ x.input ++ b! "\n```\n", b! "**Result:**\n" ++ x.output ++ b! "\n"]

/-- All that is told of a function, in order: name, summary, description, parameters, examples, category, references. -/
def docParts (d : FunctionDoc) : List Bytes :=
  [b! "# " ++ d.name ++ b! "\n", b! "**" ++ d.summary ++ b! "**\n"] ++ (if d.description = [] then [] else [d.description ++ b! "\n"]) ++
    d.parameters.map parameterLine ++ d.examples.flatMap exampleParts ++ (if d.category = [] then [] else [d.category ++ b! "\n"]) ++
    d.seeAlso.map fun r => b! "- " ++ r ++ b! "\n"

/-- What the tool tells of a function, in order. -/
def toolParts (d : FunctionDoc) : List Bytes :=
  [b! "# " ++ d.name] ++ (if d.summary = [] then [] else [d.summary]) ++ (if d.description = [] then [] else [d.description]) ++
    (d.parameters.flatMap fun p => [b! "- **" ++ p.name ++ b! "** (" ++ p.type ++ b! ")", p.description]) ++
    (d.examples.flatMap fun x => [x.description, b! "```\n" ++ x.input ++ b! "\n```\n"]) ++
    (if d.category = [] then [] else [b! "**Category:** " ++ d.category]) ++ d.seeAlso

/-- These are the documented functions of this category (of all categories if none is given), in alphabetical order. -/
def Listed (calls : List FunctionDoc) (category : Bytes) (ds : List FunctionDoc) : Prop :=
  Alphabetical ds ∧ ∀ d, d ∈ ds ↔ Registered calls d ∧ (category = [] ∨ d.category = category)

/-- The text has one section for each category that occurs, headed by it, with the line of each function of that category, in the order of
`ds`. Which section comes first is left open. `other` stands for no category. -/
def InSections (other : Bytes) (heading : Bytes → Bytes) (line : FunctionDoc → Bytes) (ds : List FunctionDoc) (t : Bytes) : Prop :=
  let shown := fun d : FunctionDoc => if d.category = [] then other else d.category
  ∃ cats : List Bytes, cats.Nodup ∧ (∀ c, c ∈ cats ↔ ∃ d ∈ ds, shown d = c) ∧
    t = cats.flatMap fun c => b! "## " ++ heading c ++ b! "\n\n" ++ (ds.filter fun d => shown d = c).flatMap line ++ b! "\n"

/-- Nothing but white space. -/
def Blank (t : Bytes) : Prop := ∃ cs : List Char, t = encodeAll cs ∧ ∀ c ∈ cs, isSpace c = true

/-- The parts occur in order, if need be with white space put back at both ends (the tool strips it). -/
def InOrderTrimmed (parts : List Bytes) (t : Bytes) : Prop := ∃ l r, Blank l ∧ Blank r ∧ InOrder parts (l ++ t ++ r)

/-- A letter, a digit or an underscore. -/
def HeadingByte (b : UInt8) : Prop := (97 ≤ b ∧ b ≤ 122) ∨ (65 ≤ b ∧ b ≤ 90) ∨ (48 ≤ b ∧ b ≤ 57) ∨ b = 95

/-- The heading of a category: the category with the first letter of each word in upper case. -/
def Heading (s t : Bytes) : Prop :=
  t.length = s.length ∧ ∀ (i : Nat) (b : UInt8), s[i]? = some b →
    ((97 ≤ b ∧ b ≤ 122 ∧ ∀ j p, i = j + 1 → s[j]? = some p → ¬ HeadingByte p) ∧ t[i]? = some (b - 32)) ∨
    (¬ (97 ≤ b ∧ b ≤ 122 ∧ ∀ j p, i = j + 1 → s[j]? = some p → ¬ HeadingByte p) ∧ t[i]? = some b)

end Texted.Spec
