import Verif.Model.GoVar
import Verif.Model.Builtins
/-
A small Go: the statements and expressions that the built-in functions of /repo/edlisp/builtin_*.go are written in, and what
running them does. tools/go2lean.py translates the text of these functions into terms of this language (Model/GoSource).

Simplifications: variables have one flat scope (the translator refuses a function that shadows a variable); a `strings.Builder` that
is only written to is a string; `int` is 64 bits wide; memory is unlimited. Loops may go on for ever: `n` below is the number of
rounds a loop may take before the run is called `spin`.
-/
namespace Texted

/-- The binary operators the functions use (e.g. /repo/edlisp/builtin_mark_word.go:22-34). -/
inductive GoOp where
  | or | and | eq | ne | lt | le | gt | ge | add | sub

/-- The functions and methods the functions call: `IsA(x, The…Kind)` (/repo/edlisp/types.go:16-18), conversions, `New…`
(/repo/edlisp/string.go:5-7, number.go:5-7, symbol.go:5-7), `isLetter` (helpers.go:4-6) and packages strings and regexp. -/
inductive GoF where
  | isNumber | isString | isSymbol | isList
  | int | float64 | string
  | newString | newNumber | newSymbol
  | isLetter
  | stringsIndex | stringsLastIndex | stringsHasPrefix | stringsHasSuffix | stringsSplit | stringsToUpper | stringsToLower
  | regexpCompile | findStringIndex | findAllStringIndex | replaceAllString

/-- The fields of a buffer (/repo/edlisp/eval.go:28-35). -/
inductive GoField where
  | content | point | mark | lastMatch | lastStart | lastEnd

/-- Expressions (the right-hand sides and conditions of /repo/edlisp/builtin_*.go). -/
inductive GoE where
  | var (x : GoVar)
  | int (n : Int)
  | str (s : Bytes)
  | char (c : UInt8)
  | nil
  | bin (op : GoOp) (a b : GoE)
  | not (a : GoE)
  | len (a : GoE)
  | index (a i : GoE)
  | sliceTo (a h : GoE)
  | sliceFrom (a l : GoE)
  | slice (a l h : GoE)
  | call1 (f : GoF) (a : GoE)
  | call2 (f : GoF) (a b : GoE)
  | call3 (f : GoF) (a b c : GoE)
  | buf (f : GoField)
  | assert (k : GoF) (a : GoE)
  | value (a : GoE)
  | errorf (s : Bytes)
  | errorf1 (s : Bytes) (a : GoE)

/-- Statements (of /repo/edlisp/builtin_*.go). -/
inductive GoS where
  | skip
  | seq (a b : GoS)
  | set (x : GoVar) (e : GoE)
  | set2 (x y : GoVar) (e₁ e₂ : GoE)
  | setPair (x y : GoVar) (e : GoE)
  | if_ (c : GoE) (a b : GoS)
  | while (c : GoE) (post body : GoS)
  | range (i x : GoVar) (e : GoE) (body : GoS)
  | ret (v err : GoE)
  | setBuf (f : GoField) (e : GoE)
  | reset
  | write (e : GoE)
  | insert (e : GoE)

/-- What a variable of these functions can hold (the Go types they use). -/
inductive GoV where
  | int (n : Int)
  | str (s : Bytes)
  | byte (c : UInt8)
  | bool (t : Bool)
  | float (x : F64)
  | val (v : Value)
  | vals (vs : List Value)
  | strs (ss : List Bytes)
  | span (i j : Nat)
  | spans (l : List (Nat × Nat))
  | regex (re : Regex)
  | err (e : Bytes)
  | pair (a b : GoV)
  | nil

/-- The value of an expression; `panic`: a run-time panic; `stuck`: the expression has no meaning here (Go's compiler would refuse
it; no function of /repo is like that, see `C93_meaning`). -/
inductive GoR (α : Type) where
  | ok (a : α)
  | panic
  | stuck

/-- Evaluate the operand first (Go's order of evaluation: left to right). -/
def GoR.bind {α β : Type} : GoR α → (α → GoR β) → GoR β
  | .ok a, k => k a
  | .panic, _ => .panic
  | .stuck, _ => .stuck

/-- `none` is a run-time panic. -/
def GoR.orPanic {α : Type} : Option α → GoR α
  | some a => .ok a
  | none => .panic

/-- The state of a running function: its variables and the buffer it was given. -/
structure GoSt where
  vars : GoVar → GoV
  buf : Buffer

/-- `x = v`. -/
def GoSt.set (st : GoSt) (x : GoVar) (v : GoV) : GoSt := { st with vars := fun y => if y = x then v else st.vars y }

/-- The operators on `int`: arithmetic wraps around. -/
def GoOp.ints : GoOp → Int → Int → GoR GoV
  | .add, a, b => .ok (.int (wrap64 (a + b)))
  | .sub, a, b => .ok (.int (wrap64 (a - b)))
  | .eq, a, b => .ok (.bool (a = b))
  | .ne, a, b => .ok (.bool (a ≠ b))
  | .lt, a, b => .ok (.bool (a < b))
  | .le, a, b => .ok (.bool (a ≤ b))
  | .gt, a, b => .ok (.bool (a > b))
  | .ge, a, b => .ok (.bool (a ≥ b))
  | _, _, _ => .stuck

/-- The operators on `byte` (comparisons only). -/
def GoOp.bytes : GoOp → UInt8 → UInt8 → GoR GoV
  | .eq, a, b => .ok (.bool (a = b))
  | .ne, a, b => .ok (.bool (a ≠ b))
  | .le, a, b => .ok (.bool (a ≤ b))
  | .ge, a, b => .ok (.bool (b ≤ a))
  | _, _, _ => .stuck

/-- The operators on `string`. -/
def GoOp.strs : GoOp → Bytes → Bytes → GoR GoV
  | .add, a, b => .ok (.str (a ++ b))
  | .eq, a, b => .ok (.bool (a = b))
  | .ne, a, b => .ok (.bool (a ≠ b))
  | _, _, _ => .stuck

/-- Whether a value is nil: an `error`, or the result of `FindStringIndex`. -/
def GoV.isNil : GoV → GoR Bool
  | .nil => .ok true
  | .err _ => .ok false
  | .span _ _ => .ok false
  | _ => .stuck

/-- `x == nil` and `x != nil`. -/
def GoOp.nils : GoOp → GoV → GoR GoV
  | .eq, v => v.isNil.bind fun t => .ok (.bool t)
  | .ne, v => v.isNil.bind fun t => .ok (.bool (!t))
  | _, _ => .stuck

/-- A binary operator other than `&&` and `||` on two values. -/
def GoOp.apply (op : GoOp) (a b : GoV) : GoR GoV :=
  match b with
  | .int y => match a with | .int x => op.ints x y | _ => .stuck
  | .byte y => match a with | .byte x => op.bytes x y | _ => .stuck
  | .str y => match a with | .str x => op.strs x y | _ => .stuck
  | .nil => op.nils a
  | _ => .stuck

/-- `len(v)`. -/
def GoV.len : GoV → GoR GoV
  | .str s => .ok (.int s.length)
  | .vals l => .ok (.int l.length)
  | .strs l => .ok (.int l.length)
  | .spans l => .ok (.int l.length)
  | _ => .stuck

/-- The element at `i` of a slice, if there is one. -/
def goAt {α : Type} (l : List α) (i : Int) : Option α := if i < 0 then none else l[i.toNat]?

/-- `v[i]`; an index that is out of range is a run-time panic. -/
def GoV.index : GoV → GoV → GoR GoV
  | .str s, .int i => (GoR.orPanic (goAt s i)).bind fun c => .ok (.byte c)
  | .vals l, .int i => (GoR.orPanic (goAt l i)).bind fun v => .ok (.val v)
  | .strs l, .int i => (GoR.orPanic (goAt l i)).bind fun s => .ok (.str s)
  | .spans l, .int i => (GoR.orPanic (goAt l i)).bind fun p => .ok (.span p.1 p.2)
  | .span a b, .int i => if i = 0 then .ok (.int a) else if i = 1 then .ok (.int b) else .panic
  | .nil, .int _ => .panic
  | _, _ => .stuck

/-- `v[:h]` on a string. -/
def GoV.sliceTo : GoV → GoV → GoR GoV
  | .str s, .int h => (GoR.orPanic (Texted.sliceTo s h)).bind fun r => .ok (.str r)
  | _, _ => .stuck

/-- `v[l:]` on a string. -/
def GoV.sliceFrom : GoV → GoV → GoR GoV
  | .str s, .int l => (GoR.orPanic (Texted.sliceFrom s l)).bind fun r => .ok (.str r)
  | _, _ => .stuck

/-- `v[l:h]` on a string. -/
def GoV.slice : GoV → GoV → GoV → GoR GoV
  | .str s, .int l, .int h => (GoR.orPanic (Texted.slice s l h)).bind fun r => .ok (.str r)
  | _, _, _ => .stuck

/-- The result of `strings.Index`, `strings.LastIndex`: −1 for "not there". -/
def goIndexOf : Option Nat → GoV
  | some i => .int i
  | none => .int (-1)

/-- What `IsA(v, The…Kind)` says (/repo/edlisp/types.go:16-18 and the kinds of number.go, string.go, symbol.go, list.go). -/
def GoF.kind : GoF → Value → GoR Bool
  | .isNumber, v => .ok (match v with | .num _ => true | _ => false)
  | .isString, v => .ok (match v with | .str _ => true | _ => false)
  | .isSymbol, v => .ok (match v with | .sym _ => true | _ => false)
  | .isList, v => .ok (match v with | .list _ => true | _ => false)
  | _, _ => .stuck

/-- `x.(*Number)`, `x.(*String)`. -/
def GoF.assert (k : GoF) : GoV → GoR GoV
  | .val v => (k.kind v).bind fun t => if t then .ok (.val v) else .panic
  | _ => .stuck

/-- The field `Value` of a `*Number` or a `*String` (/repo/edlisp/number.go:17-19, string.go:17-19). -/
def GoV.value : GoV → GoR GoV
  | .val (.num x) => .ok (.float x)
  | .val (.str s) => .ok (.str s)
  | _ => .stuck

/-- `fmt.Errorf` with one `%d` (an int) or `%v` (an error) at the end of the format. -/
def goErrorf (s : Bytes) : GoV → GoR GoV
  | .int n => .ok (.err (s ++ intDec n))
  | .err e => .ok (.err (s ++ e))
  | _ => .stuck

/-- A field of the buffer; `Buffer.Point`, `Mark`, `String` (/repo/edlisp/eval.go:46-70). -/
def Buffer.field (b : Buffer) : GoField → GoV
  | .content => .str b.content
  | .point => .int b.point
  | .mark => .int b.mark
  | .lastMatch => .str b.lastMatch
  | .lastStart => .int b.lastStart
  | .lastEnd => .int b.lastEnd

/-- `SetPoint`, `SetMark` and assignments to the fields of the last search (/repo/edlisp/eval.go:46-70). -/
def Buffer.setField (b : Buffer) : GoField → GoV → GoR Buffer
  | .point, .int n => .ok { b with point := n }
  | .mark, .int n => .ok { b with mark := n }
  | .lastMatch, .str s => .ok { b with lastMatch := s }
  | .lastStart, .int n => .ok { b with lastStart := n }
  | .lastEnd, .int n => .ok { b with lastEnd := n }
  | _, _ => .stuck

section
variable [Ext]

/-- A call with one argument. `isLetter` and `Buffer.Insert` are what their own Go texts compute: `C93_isLetter`, `C93_insert`. -/
def GoF.apply1 : GoF → GoV → GoR GoV
  | .isNumber, .val v => (GoF.isNumber.kind v).bind fun t => .ok (.bool t)
  | .isString, .val v => (GoF.isString.kind v).bind fun t => .ok (.bool t)
  | .isSymbol, .val v => (GoF.isSymbol.kind v).bind fun t => .ok (.bool t)
  | .isList, .val v => (GoF.isList.kind v).bind fun t => .ok (.bool t)
  | .int, .float x => .ok (.int x.toInt)
  | .float64, .int n => .ok (.float (F64.ofInt n))
  | .string, .byte c => .ok (.str (encodeRune (Char.ofNat c.toNat)))
  | .newString, .str s => .ok (.val (.str s))
  | .newNumber, .float x => .ok (.val (.num x))
  | .newSymbol, .str s => .ok (.val (.sym s))
  | .isLetter, .byte c => .ok (.bool (Texted.isLetter c))
  | .stringsToUpper, .str s => .ok (.str (toUpper s))
  | .stringsToLower, .str s => .ok (.str (toLower s))
  | .regexpCompile, .str s => match Ext.compile s with
    | .ok re => .ok (.pair (.regex re) .nil)
    | .error e => .ok (.pair .nil (.err e))
  | _, _ => .stuck

/-- A call with two arguments. -/
def GoF.apply2 : GoF → GoV → GoV → GoR GoV
  | .stringsIndex, .str s, .str t => .ok (goIndexOf (indexOf t s))
  | .stringsLastIndex, .str s, .str t => .ok (goIndexOf (lastIndexOf t s))
  | .stringsHasPrefix, .str s, .str t => .ok (.bool (hasPrefix s t))
  | .stringsHasSuffix, .str s, .str t => .ok (.bool (hasSuffix s t))
  | .stringsSplit, .str s, .str [c] => .ok (.strs (splitByte c s))
  | .findStringIndex, .regex re, .str s => match re.find s with
    | some (i, j) => .ok (.span i j)
    | none => .ok .nil
  | .findAllStringIndex, .regex re, .str s => .ok (.spans (re.findAll s))
  | _, _, _ => .stuck

/-- A call with three arguments. -/
def GoF.apply3 : GoF → GoV → GoV → GoV → GoR GoV
  | .replaceAllString, .regex re, .str s, .str t => .ok (.str (re.replaceAll s t))
  | _, _, _, _ => .stuck

/-- What `&&` and `||` do with their left operand: whether the right one is evaluated. -/
def goShort (stop : Bool) (a : GoV) (rest : GoR GoV) : GoR GoV :=
  match a with
  | .bool t => if t = stop then .ok (.bool stop) else rest.bind fun v => match v with
    | .bool u => .ok (.bool u)
    | _ => .stuck
  | _ => .stuck

/-- The value of an expression (the Go language; /repo/edlisp/builtin_*.go). -/
def GoE.eval (st : GoSt) : GoE → GoR GoV
  | .var x => .ok (st.vars x)
  | .int n => .ok (.int n)
  | .str s => .ok (.str s)
  | .char c => .ok (.byte c)
  | .nil => .ok .nil
  | .bin .or a b => (a.eval st).bind fun v => goShort true v (b.eval st)
  | .bin .and a b => (a.eval st).bind fun v => goShort false v (b.eval st)
  | .bin op a b => (a.eval st).bind fun v => (b.eval st).bind fun w => op.apply v w
  | .not a => (a.eval st).bind fun v => match v with
    | .bool t => .ok (.bool (!t))
    | _ => .stuck
  | .len a => (a.eval st).bind GoV.len
  | .index a i => (a.eval st).bind fun v => (i.eval st).bind fun w => v.index w
  | .sliceTo a h => (a.eval st).bind fun v => (h.eval st).bind fun w => v.sliceTo w
  | .sliceFrom a l => (a.eval st).bind fun v => (l.eval st).bind fun w => v.sliceFrom w
  | .slice a l h => (a.eval st).bind fun v => (l.eval st).bind fun w => (h.eval st).bind fun u => v.slice w u
  | .call1 f a => (a.eval st).bind f.apply1
  | .call2 f a b => (a.eval st).bind fun v => (b.eval st).bind fun w => f.apply2 v w
  | .call3 f a b c => (a.eval st).bind fun v => (b.eval st).bind fun w => (c.eval st).bind fun u => f.apply3 v w u
  | .buf f => .ok (st.buf.field f)
  | .assert k a => (a.eval st).bind k.assert
  | .value a => (a.eval st).bind GoV.value
  | .errorf s => .ok (.err s)
  | .errorf1 s a => (a.eval st).bind (goErrorf s)

/-- What running a statement can end in: it goes on, it returns `(v, err)` with the buffer as it is then, it panics, it has no
meaning (see `GoR.stuck`), or a loop has not ended within the rounds given. -/
inductive GoOut where
  | next (st : GoSt)
  | ret (v err : GoV) (buf : Buffer)
  | panic
  | stuck
  | spin

/-- First one statement, then the next one. -/
def GoOut.andThen : GoOut → (GoSt → GoOut) → GoOut
  | .next st, k => k st
  | o, _ => o

/-- Evaluate an expression, then go on with its value. -/
def GoR.run {α : Type} : GoR α → (α → GoOut) → GoOut
  | .ok a, k => k a
  | .panic, _ => .panic
  | .stuck, _ => .stuck

/-- `if` on a condition that has been evaluated. -/
def goIf (v : GoV) (a b : GoOut) : GoOut :=
  match v with
  | .bool t => if t then a else b
  | _ => .stuck

/-- `for cond { body }` (the post statement is part of `body`): at most `n` evaluations of the condition. -/
def goLoop (cond : GoSt → GoR GoV) (body : GoSt → GoOut) : Nat → GoSt → GoOut
  | 0, _ => .spin
  | n + 1, st => (cond st).run fun v => goIf v ((body st).andThen (goLoop cond body n)) (.next st)

/-- `for i, x := range vs { body }`; `k` is the first index. -/
def goRange (body : GoSt → GoOut) (i x : GoVar) : Nat → List Value → GoSt → GoOut
  | _, [], st => .next st
  | k, v :: vs, st => (body ((st.set i (.int k)).set x (.val v))).andThen (goRange body i x (k + 1) vs)

/-- Running a statement; a loop may evaluate its condition at most `n` times (the Go language; /repo/edlisp/builtin_*.go). -/
def GoS.exec (n : Nat) : GoS → GoSt → GoOut
  | .skip, st => .next st
  | .seq a b, st => (a.exec n st).andThen fun st => b.exec n st
  | .set x e, st => (e.eval st).run fun v => .next (st.set x v)
  | .set2 x y e₁ e₂, st => (e₁.eval st).run fun v => (e₂.eval st).run fun w => .next ((st.set x v).set y w)
  | .setPair x y e, st => (e.eval st).run fun v => match v with
    | .pair a b => .next ((st.set x a).set y b)
    | _ => .stuck
  | .if_ c a b, st => (c.eval st).run fun v => goIf v (a.exec n st) (b.exec n st)
  | .while c post body, st => goLoop (fun st => c.eval st) (fun st => (body.exec n st).andThen fun st => post.exec n st) n st
  | .range i x e body, st => (e.eval st).run fun v => match v with
    | .vals vs => goRange (fun st => body.exec n st) i x 0 vs st
    | _ => .stuck
  | .ret v e, st => (v.eval st).run fun v => (e.eval st).run fun e => .ret v e st.buf
  | .setBuf f e, st => (e.eval st).run fun v => (st.buf.setField f v).run fun b => .next { st with buf := b }
  | .reset, st => .next { st with buf := { st.buf with content := [] } }
  | .write e, st => (e.eval st).run fun v => match v with
    | .str s => .next { st with buf := { st.buf with content := st.buf.content ++ s } }
    | _ => .stuck
  | .insert e, st => (e.eval st).run fun v => match v with
    | .str s => .next { st with buf := st.buf.insert s }
    | _ => .stuck

/-- A call `BuiltinX(args, buffer)`: the state at the beginning of the body. -/
def goStart (args : List Value) (b : Buffer) : GoSt :=
  { vars := fun x => if x = .args then .vals args else .nil, buf := b }

/-- A built-in function called with arguments on a buffer. -/
def GoS.call (n : Nat) (f : GoS) (args : List Value) (b : Buffer) : GoOut := f.exec n (goStart args b)

end
end Texted
