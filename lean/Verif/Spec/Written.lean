import Verif.Spec.Grammar
/-
C79: scripts as one writes them, one command after the other: a name, then string literals and numbers. (The full grammar of scripts, with nested
lists and everything, is in Spec/Grammar; this is the part of it that everyday scripts use.)
-/
namespace Texted
namespace Spec

/-- Arguments: each behind at least one blank, a string literal or a number. -/
inductive ArgsWritten : List Char → List Value → Prop
  | none : ArgsWritten [] []
  | str {n w s r vs} : StringLit w s → ArgsWritten r vs → ArgsWritten (List.replicate (n + 1) ' ' ++ (w ++ r)) (.str s :: vs)
  | num {n w x r vs} : (∀ c ∈ w, nameChar c) → NumberText (encodeAll w) x → ArgsWritten r vs →
      ArgsWritten (List.replicate (n + 1) ' ' ++ (w ++ r)) (.num x :: vs)

/-- A command: a name and its arguments. -/
inductive CommandWritten : List Char → Value → Prop
  | mk {name r vs} : name ≠ [] → (∀ c ∈ name, nameChar c) → (∀ x, ¬ NumberText (encodeAll name) x) → ArgsWritten r vs →
      CommandWritten (name ++ r) (.list (.sym (encodeAll name) :: vs))

/-- A script: commands, ended by semicolons or line ends; blanks in front of commands and empty lines do not matter. -/
inductive ScriptWritten : List Char → List Value → Prop
  | none : ScriptWritten [] []
  | last {cs v} : CommandWritten cs v → ScriptWritten cs [v]
  | next {cs v sep r p} : CommandWritten cs v → sep = ';' ∨ sep = '\n' → ScriptWritten r p → ScriptWritten (cs ++ sep :: r) (v :: p)
  | blank {r p} : ScriptWritten r p → ScriptWritten (' ' :: r) p
  | line {r p} : ScriptWritten r p → ScriptWritten ('\n' :: r) p

/-- The text `old` occurs in the text, the first time behind `u` and in front of `v`. -/
def FirstOccurrence (old text u v : Bytes) : Prop := text = u ++ old ++ v ∧ ∀ u' v', text = u' ++ old ++ v' → u.length ≤ u'.length

/-- A character that stands for itself between double quotes. -/
def PlainChar (c : Char) : Prop := c ≠ '"' ∧ c ≠ '\\' ∧ c ≠ '\n'

/-- The script `search-forward "OLD"; replace-match "NEW"`. -/
def replaceScript (old new : List Char) : List Char :=
  "search-forward \"".toList ++ old ++ "\"; replace-match \"".toList ++ new ++ "\"".toList

end Spec
end Texted
