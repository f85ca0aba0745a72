import Verif.Spec.Docs
import Verif.Spec.Eval
import Verif.Model.DocTable
/- C80: what the errors of running scripts say. -/
namespace Texted.Spec
open Texted

/-- The number of arguments that cannot be left out. -/
def needed (ps : List ParamSig) : Nat := (ps.filter fun p => !p.optional).length

/-- How many arguments a function takes, in words. -/
def countText (ps : List ParamSig) : Bytes :=
  if needed ps = ps.length then natDec ps.length ++ (if ps.length = 1 then b! " argument" else b! " arguments")
  else if needed ps = 0 then b! "at most " ++ natDec ps.length ++ b! " argument"
  else natDec (needed ps) ++ b! " or " ++ natDec ps.length ++ b! " arguments"

/-- An argument of that type is wanted, at that position (counted from 0). -/
inductive Wanted (type : Bytes) : Nat → Bytes → Prop
  | only : Wanted type 0 (b! "a " ++ type ++ b! " argument")
  | all (i) : Wanted type i (type ++ b! " arguments")
  | first : Wanted type 0 (b! "a " ++ type ++ b! " as first argument")
  | second : Wanted type 1 (b! "a " ++ type ++ b! " as second argument")
  | third : Wanted type 2 (b! "a " ++ type ++ b! " as third argument")

/-- What is said if the function `name` with these parameters is called with the wrong arguments: if their number is wrong, how many there should be
and how many there are; otherwise the type of a parameter whose argument has another type. -/
inductive Misuse (name : Bytes) (ps : List ParamSig) (args : List Value) : Bytes → Prop
  | count : args.length < needed ps ∨ ps.length < args.length →
      Misuse name ps args (name ++ b! " expects " ++ countText ps ++ b! ", got " ++ natDec args.length)
  | type {i p v what} : needed ps ≤ args.length → args.length ≤ ps.length → ps[i]? = some p → args[i]? = some v → ¬ HasType p.type v →
      Wanted p.type i what → Misuse name ps args (name ++ b! " expects " ++ what)

/-- The reasons for which the function `f`, used as documented, can fail: a search finds nothing, a regular expression cannot be compiled, there is
nothing to replace. All other functions do not fail. -/
inductive FailsWith [Ext] : Bytes → Bytes → Prop
  | notFound {f} : f ∈ [b! "search-forward", b! "search-backward", b! "re-search-forward", b! "re-search-backward"] → FailsWith f (b! "search failed")
  | pattern {f p m} : f ∈ [b! "re-search-forward", b! "re-search-backward", b! "replace-regexp-in-string"] → Ext.compile p = .error m →
      FailsWith f (b! "invalid regexp: " ++ m)
  | noSearch : FailsWith (b! "replace-match") (b! "no previous search")
  | positions : FailsWith (b! "replace-match") (b! "invalid search match positions")

/-- All errors that evaluating `e` can give: an expression that cannot be evaluated, a function called in `e` that does not exist, one called in `e`
with arguments that are not as documented, and the reasons for which a function can fail although it is used as documented. -/
inductive RunError [Ext] (e : Value) : Bytes → Prop
  | symbol : RunError e (b! "unknown expression type")
  | empty : RunError e (b! "empty list")
  | head : RunError e (b! "first element of list must be a symbol")
  | unknown {f} : f ∈ postorder e → (∀ d ∈ docTable, d.name ≠ f) → RunError e (b! "undefined-function " ++ quote f)
  | misuse {d args m} : d ∈ docTable → d.name ∈ postorder e → d.name ≠ b! "concat" → ¬ Fits d.parameters args →
      Misuse d.name d.parameters args m → RunError e m
  | concat {i} : b! "concat" ∈ postorder e →
      RunError e (b! "concat expects string arguments, got non-string at position " ++ natDec (i + 1))
  | reason {f m} : f ∈ postorder e → FailsWith f m → RunError e m

end Texted.Spec
