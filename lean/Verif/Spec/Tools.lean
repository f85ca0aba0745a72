import Verif.Model.Tools
/-
Specification of edit_file's loop, in terms of single rounds of `EditFiles` and of single runs of the script.
-/
namespace Texted
namespace Spec

/-- `k` rounds of `EditFiles`, one after the other, in each of which every file was edited. -/
inductive Rounds [Ext] (files : List Bytes) (script : Bytes) : Nat → World → World → Prop
  | none (w : World) : Rounds files script 0 w w
  | more {k : Nat} {w w1 w' : World} {rs : List EditResult} : Ends (editFiles files script) w rs w1 → (∀ r ∈ rs, r.error = none) →
      Rounds files script k w1 w' → Rounds files script (k + 1) w w'

/-- The script, run `k` times in a row, each time on its own output, turns `c` into `t`. -/
inductive Repeated [Ext] (script : Bytes) : Nat → Bytes → Bytes → Prop
  | zero (c : Bytes) : Repeated script 0 c c
  | succ {k : Nat} {c c1 t : Bytes} : executeScript c script = .ok c1 → Repeated script k c1 t → Repeated script (k + 1) c t

/-- Every occurrence of the byte `x` replaced by `r`. -/
def replaceByte (x : UInt8) (r s : Bytes) : Bytes := s.flatMap fun c => if c = x then r else [c]

end Spec
end Texted
