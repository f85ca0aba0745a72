import Verif.Model.TgRun
/-
What a call of one of the functions of Model/TgSource comes to. The bounds on the rounds of loops and on the depth of calls are only a means to
define the runs: a call ends in an outcome if it does so for all bounds that are large enough.
-/
namespace Texted
variable [Ext]

/-- For all bounds that are large enough. -/
def Eventually (P : Nat → Nat → Prop) : Prop := ∃ N, ∀ n d, N ≤ n → N ≤ d → P n d

/-- A call of `f` with these arguments in the world `w` ends in `o`. -/
def TgEnds (x : TgX) (f : TgFn) (args : List TgV) (w : TgW) (o : TgOut) : Prop := Eventually fun n d => tgRun x n d f args w = o

/-- The orders in which Go may take the entries of a map, or put things that compare equal: each thing once. -/
def LawfulOrder (order : Nat → Nat → List Nat) : Prop := ∀ k n, (order k n).Perm (List.range n)

/-- What is printed behind what has been printed. -/
def TgW.say (w : TgW) (s : Bytes) : TgW := { w with out := w.out ++ s }

end Texted
