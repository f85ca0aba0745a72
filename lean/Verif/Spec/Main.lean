import Verif.Model.Basic
/- C76: which words of a command line come before the name of the subcommand. -/
namespace Texted.Spec

/-- An option that may have its value in the next word: `--name` or `-x`, without `=`. -/
def OpenOption (w : Bytes) : Prop := 61 ∉ w ∧ w ≠ b! "--" ∧ (b! "--" <+: w ∨ ∃ c, w = [45, c])

/-- A word that stands for itself and is no name: empty, a single `-`, `--name=value`, `-x=value`, or several letters `-xyz`. -/
def ClosedWord (w : Bytes) : Prop := w = [] ∨ w = b! "-" ∨ (w.head? = some 45 ∧ (61 ∈ w ∨ (¬ b! "--" <+: w ∧ 3 ≤ w.length)))

/-- Words before the name. -/
inductive Leading : List Bytes → Prop
  | nil : Leading []
  | closed {w ws} : ClosedWord w → Leading ws → Leading (w :: ws)
  | pair {w v ws} : OpenOption w → Leading ws → Leading (w :: v :: ws)

/-- A word that can name a command. -/
def NameWord (w : Bytes) : Prop := w ≠ [] ∧ w.head? ≠ some 45

end Texted.Spec
