import Verif.Model.EditCmd
/-
What the flags of the edit command mean, in terms of what the user passes.
-/
namespace Texted
namespace Spec

/-- The script the user asked for: the contents of the script file if one is named, else the value of --script. -/
def ScriptOf (a : EditArgs) (w : World) (script : Bytes) : Prop :=
  if a.scriptFile = [] then script = a.script ∧ script ≠ [] else w.files a.scriptFile = some script

/-- The text to edit when there is at most one file: the file, or standard input. -/
def InputOf (a : EditArgs) (w : World) (c : Bytes) : Prop :=
  match a.files with
  | [] => c = w.input
  | f :: _ => w.files f = some c

/-- Where the result of a single text goes: to standard output, or into the output file. -/
def Delivered (a : EditArgs) (w w' : World) (t : Bytes) : Prop :=
  if a.outputFile = [] then w'.out = w.out ++ t ∧ w'.files = w.files
  else w'.out = w.out ∧ w'.files a.outputFile = some t ∧ ∀ q, q ≠ a.outputFile → w'.files q = w.files q

/-- Flags that contradict each other. -/
def Contradictory (a : EditArgs) : Prop :=
  ¬ (a.format = b! "shell" ∨ a.format = b! "sexp" ∨ a.format = b! "json") ∨   -- unknown script format
  (a.outputFile ≠ [] ∧ a.files.length > 1) ∨                                    -- one output, several files
  (a.backupSuffix ≠ [] ∧ a.inPlace = false) ∨                                   -- backup without --in-place
  (a.outputFile ≠ [] ∧ a.inPlace = true)                                        -- --output and --in-place

/-- Several files to edit but nowhere to put the results. -/
def NoDestination (a : EditArgs) : Prop :=
  a.expressions = [] ∧ a.files.length > 1 ∧ a.inPlace = false ∧ a.outputFile = []

/-- Nothing to do: no script and no expression. -/
def NoScript (a : EditArgs) : Prop := a.expressions = [] ∧ a.scriptFile = [] ∧ a.script = []

/-- The reason given for refusing contradictory flags. -/
inductive Refusal (a : EditArgs) : Bytes → Prop
  | format : a.format ≠ b! "shell" → a.format ≠ b! "sexp" → a.format ≠ b! "json" →
      Refusal a (b! "invalid script format: " ++ a.format ++ b! " (must be shell, sexp, or json)")
  | output : a.outputFile ≠ [] → a.files.length > 1 → Refusal a (b! "--output can only be used with a single file")
  | backup : a.backupSuffix ≠ [] → a.inPlace = false → Refusal a (b! "--backup can only be used with --in-place")
  | both : a.outputFile ≠ [] → a.inPlace = true → Refusal a (b! "--output and --in-place cannot be used together")

end Spec
end Texted
