import Verif.Spec.Docs
import Verif.Model.Registry
/- What C90 says of the documentation registry used by several goroutines. -/
namespace Texted.Spec
open Texted

/-- What has been registered so far, in order. -/
def assigned (trace : List (Nat × DocAct)) : List FunctionDoc :=
  trace.filterMap fun e => match e.2 with | .assign d => some d | _ => none

/-- The right answer to a question if these registrations were made before it, in this order, and nothing else happens. -/
def RightAnswer (calls : List FunctionDoc) : DocQuery → DocAnswer → Prop
  | .byName name, a => ∃ r, a = .found r ∧ (∀ d, r = some d ↔ Registered calls d ∧ d.name = name)
  | .all, a => ∃ ds, a = .docs ds ∧ Alphabetical ds ∧ ∀ d, d ∈ ds ↔ Registered calls d
  | .byCategory c, a => ∃ ds, a = .docs ds ∧ Alphabetical ds ∧ ∀ d, d ∈ ds ↔ Registered calls d ∧ d.category = c
  | .categories, a => ∃ cs, a = .names cs ∧ cs.Pairwise (fun x y => x < y) ∧ ∀ c, c ∈ cs ↔ c ≠ [] ∧ ∃ d, Registered calls d ∧ d.category = c
  | .count, a => ∃ names : List Bytes, a = .number names.length ∧ names.Nodup ∧ ∀ n, n ∈ names ↔ ∃ d ∈ calls, d.name = n

/-- In this stretch of the history goroutine `t` neither makes a call nor comes back from one. -/
def NoOtherCall (t : Nat) (stretch : List (Nat × DocAct)) : Prop := ∀ e ∈ stretch, e.1 = t → ∀ c a, e.2 ≠ .call c ∧ e.2 ≠ .ret c a

/-- In this stretch goroutine `t` registers nothing. -/
def NothingBy (t : Nat) (stretch : List (Nat × DocAct)) : Prop := ∀ e ∈ stretch, e.1 = t → ∀ d, e.2 ≠ .assign d

/-- The call takes effect at one moment between its start (behind `pre`) and its return (behind `post`): a registration is made at that
moment and only then; a question gets the answer that is right at that moment. -/
def TakesEffect (t : Nat) (pre post : List (Nat × DocAct)) : RegCall → DocAnswer → Prop
  | .register d, a => a = .done ∧ ∃ u v, post = u ++ (t, .assign d) :: v ∧ NothingBy t u ∧ NothingBy t v
  | .query q, a => NothingBy t post ∧ ∃ u v, post = u ++ v ∧ RightAnswer (assigned (pre ++ (t, .call (.query q)) :: u)) q a

/-- Every call that has returned took effect at one moment between its start and its return. -/
def Linearizable (trace : List (Nat × DocAct)) : Prop :=
  ∀ before t c a after, trace = before ++ (t, .ret c a) :: after →
    ∃ pre post, before = pre ++ (t, .call c) :: post ∧ NoOtherCall t post ∧ TakesEffect t pre post c a

/-- The goroutine is about to change the map. -/
def Changing : DocPhase → Prop
  | .writing _ => True
  | _ => False

/-- The goroutine is looking at the map. -/
def Looking : DocPhase → Prop
  | .reading _ _ => True
  | _ => False

/-- No new call is made in this stretch of the history. -/
def NoCalls (trace : List (Nat × DocAct)) : Prop := ∀ e ∈ trace, ∀ c, e.2 ≠ .call c

end Texted.Spec
