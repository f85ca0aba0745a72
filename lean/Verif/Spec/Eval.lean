import Verif.Model.Eval
/-
Specification of evaluation: a big-step relation, written independently of the evaluator functions.
-/
namespace Texted

mutual
/-- `Evals env e b r b'`: evaluating `e` in buffer `b` gives `r` and leaves buffer `b'`. -/
inductive Evals [Ext] (env : Env) : Value → Buffer → Res Bytes Value → Buffer → Prop
  /-- Strings and numbers evaluate to themselves. -/
  | str (s b) : Evals env (.str s) b (.ok (.str s)) b
  | num (x b) : Evals env (.num x) b (.ok (.num x)) b
  /-- A bare symbol, an empty list and a list not headed by a symbol are errors. -/
  | sym (s b) : Evals env (.sym s) b (.err b! "unknown expression type") b
  | empty (b) : Evals env (.list []) b (.err b! "empty list") b
  | head (v vs b) (h : ∀ f, v ≠ .sym f) : Evals env (.list (v :: vs)) b (.err b! "first element of list must be a symbol") b
  /-- An unknown function fails before any argument is looked at. -/
  | unknown (f args b) (h : env f = none) : Evals env (.list (.sym f :: args)) b (.err (b! "undefined-function " ++ quote f)) b
  /-- A known function is called once, with the values of all arguments, on the buffer the arguments left. -/
  | call (f fn args b vs b') (h : env f = some fn) (ha : EvalsArgs env args b (.ok vs) b') :
      Evals env (.list (.sym f :: args)) b (fn vs b').1 (fn vs b').2
  /-- If an argument fails the function is not called. -/
  | argErr (f fn args b e b') (h : env f = some fn) (ha : EvalsArgs env args b (.err e) b') :
      Evals env (.list (.sym f :: args)) b (.err e) b'
  | argPanic (f fn args b b') (h : env f = some fn) (ha : EvalsArgs env args b .panic b') :
      Evals env (.list (.sym f :: args)) b .panic b'
/-- Arguments are evaluated left to right, each on the buffer left by its predecessor; the first failure ends it. -/
inductive EvalsArgs [Ext] (env : Env) : List Value → Buffer → Res Bytes (List Value) → Buffer → Prop
  | nil (b) : EvalsArgs env [] b (.ok []) b
  | cons (a as b v b' vs b'') (h : Evals env a b (.ok v) b') (h' : EvalsArgs env as b' (.ok vs) b'') :
      EvalsArgs env (a :: as) b (.ok (v :: vs)) b''
  | err (a as b e b') (h : Evals env a b (.err e) b') : EvalsArgs env (a :: as) b (.err e) b'
  | panic (a as b b') (h : Evals env a b .panic b') : EvalsArgs env (a :: as) b .panic b'
  | restErr (a as b v b' e b'') (h : Evals env a b (.ok v) b') (h' : EvalsArgs env as b' (.err e) b'') :
      EvalsArgs env (a :: as) b (.err e) b''
  | restPanic (a as b v b' b'') (h : Evals env a b (.ok v) b') (h' : EvalsArgs env as b' .panic b'') :
      EvalsArgs env (a :: as) b .panic b''
end

mutual
/-- The function names of a nested call in evaluation order: the calls in the arguments from left to right, then
the function itself. -/
def postorder : Value → List Bytes
  | .list (.sym f :: args) => postorders args ++ [f]
  | _ => []
@[inherit_doc postorder]
def postorders : List Value → List Bytes
  | [] => []
  | a :: as => postorder a ++ postorders as
end

mutual
/-- Expressions made of strings, numbers and lists headed by a symbol whose arguments are of this form again. -/
def WellFormed : Value → Prop
  | .str _ => True
  | .num _ => True
  | .list (.sym _ :: args) => WellFormeds args
  | _ => False
@[inherit_doc WellFormed]
def WellFormeds : List Value → Prop
  | [] => True
  | a :: as => WellFormed a ∧ WellFormeds as
end

/-- Two numbers that Go's `==` identifies: the same number, where the two zeros are one and NaN equals nothing. -/
def SameNumber (x y : F64) : Prop :=
  x ≠ .nan ∧ y ≠ .nan ∧ (x = y ∨ ∃ s t e e', x = .fin s 0 e ∧ y = .fin t 0 e')

mutual
/-- Same kind and same content, all the way down. -/
inductive SameValue : Value → Value → Prop
  | sym (s) : SameValue (.sym s) (.sym s)
  | str (s) : SameValue (.str s) (.str s)
  | num (x y) (h : SameNumber x y) : SameValue (.num x) (.num y)
  | list (l m) (h : SameValues l m) : SameValue (.list l) (.list m)
@[inherit_doc SameValue]
inductive SameValues : List Value → List Value → Prop
  | nil : SameValues [] []
  | cons (x y xs ys) (h : SameValue x y) (h' : SameValues xs ys) : SameValues (x :: xs) (y :: ys)
end

mutual
/-- No NaN anywhere inside. -/
def NoNaN : Value → Prop
  | .num x => x ≠ .nan
  | .list l => NoNaNs l
  | _ => True
@[inherit_doc NoNaN]
def NoNaNs : List Value → Prop
  | [] => True
  | x :: xs => NoNaN x ∧ NoNaNs xs
end

end Texted
