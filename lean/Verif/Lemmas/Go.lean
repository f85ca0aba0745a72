import Verif.Spec.Go
import Verif.Model.Lawful
import Verif.Lemmas.Call
/-
Symbolic execution of the small Go.
-/
namespace Texted
open Spec

theorem wrap64_dec {x : Int} (h₁ : minInt ≤ x) (h₂ : x ≤ maxInt) : wrap64 (x - 1) = dec64 x := by
  unfold wrap64 dec64; split <;> omega

theorem dec64_range {x : Int} (h₁ : minInt ≤ x) (h₂ : x ≤ maxInt) : minInt ≤ dec64 x ∧ dec64 x ≤ maxInt := by
  unfold dec64; split <;> omega

theorem intDec_ofNat (n : Nat) : intDec (n : Int) = natDec n := by
  simp [intDec]

/-! ### One step at a time -/

section
variable {α β : Type}
theorem GoR.ok_bind (a : α) (k : α → GoR β) : (GoR.ok a).bind k = k a := rfl
theorem GoR.panic_bind (k : α → GoR β) : (GoR.panic).bind k = .panic := rfl
theorem GoR.ok_run (a : α) (k : α → GoOut) : (GoR.ok a).run k = k a := rfl
theorem GoR.panic_run (k : α → GoOut) : (GoR.panic).run k = .panic := rfl
theorem GoR.bind_ite (c : Prop) {_ : Decidable c} (a b : GoR α) (k : α → GoR β) :
    (if c then a else b).bind k = if c then a.bind k else b.bind k := by split <;> rfl
theorem GoR.run_ite (c : Prop) {_ : Decidable c} (a b : GoR α) (k : α → GoOut) :
    (if c then a else b).run k = if c then a.run k else b.run k := by split <;> rfl
theorem orPanic_some (a : α) : GoR.orPanic (some a) = .ok a := rfl
theorem orPanic_none : GoR.orPanic (none : Option α) = .panic := rfl
end

theorem GoOut.next_andThen (st : GoSt) (k : GoSt → GoOut) : (GoOut.next st).andThen k = k st := rfl
theorem GoOut.ret_andThen (v e : GoV) (b : Buffer) (k : GoSt → GoOut) : (GoOut.ret v e b).andThen k = .ret v e b := rfl
theorem GoOut.panic_andThen (k : GoSt → GoOut) : GoOut.panic.andThen k = .panic := rfl
theorem GoOut.spin_andThen (k : GoSt → GoOut) : GoOut.spin.andThen k = .spin := rfl
theorem GoOut.andThen_ite (c : Prop) {_ : Decidable c} (a b : GoOut) (k : GoSt → GoOut) :
    (if c then a else b).andThen k = if c then a.andThen k else b.andThen k := by split <;> rfl

theorem GoSt.set_vars (st : GoSt) (x y : GoVar) (v : GoV) : (st.set x v).vars y = if y = x then v else st.vars y := rfl
theorem GoSt.set_buf (st : GoSt) (x : GoVar) (v : GoV) : (st.set x v).buf = st.buf := rfl
theorem goStart_vars (args : List Value) (b : Buffer) (x : GoVar) : (goStart args b).vars x = if x = .args then .vals args else .nil := rfl
theorem goStart_buf (args : List Value) (b : Buffer) : (goStart args b).buf = b := rfl

theorem GoSt.set_eq (st : GoSt) (x : GoVar) : st.set x (st.vars x) = st := by
  obtain ⟨vars, buf⟩ := st
  simp only [GoSt.set, GoSt.mk.injEq, and_true]
  funext y; split <;> simp_all
theorem GoSt.set_set (st : GoSt) (x : GoVar) (v w : GoV) : (st.set x v).set x w = st.set x w := by
  obtain ⟨vars, buf⟩ := st
  simp only [GoSt.set, GoSt.mk.injEq, and_true]
  funext y; split <;> simp_all
theorem GoSt.set_comm (st : GoSt) (x y : GoVar) (v w : GoV) (h : x ≠ y) : (st.set x v).set y w = (st.set y w).set x v := by
  obtain ⟨vars, buf⟩ := st
  simp only [GoSt.set, GoSt.mk.injEq, and_true]
  funext z
  by_cases hx : z = x <;> by_cases hy : z = y <;> simp_all

theorem goIf_bool (t : Bool) (a b : GoOut) : goIf (.bool t) a b = if t then a else b := rfl
theorem goShort_or (t u : Bool) : goShort true (.bool t) (.ok (.bool u)) = .ok (.bool (t || u)) := by cases t <;> rfl
theorem goShort_and (t u : Bool) : goShort false (.bool t) (.ok (.bool u)) = .ok (.bool (t && u)) := by cases t <;> rfl
theorem goShort_true (r : GoR GoV) : goShort true (.bool true) r = .ok (.bool true) := rfl
theorem goShort_false (r : GoR GoV) : goShort false (.bool false) r = .ok (.bool false) := rfl
theorem goShort_panic_or : goShort true (.bool false) .panic = .panic := rfl
theorem goShort_panic_and : goShort false (.bool true) .panic = .panic := rfl

theorem apply_ints (op : GoOp) (a b : Int) : op.apply (.int a) (.int b) = op.ints a b := rfl
theorem apply_bytes (op : GoOp) (a b : UInt8) : op.apply (.byte a) (.byte b) = op.bytes a b := rfl
theorem apply_strs (op : GoOp) (a b : Bytes) : op.apply (.str a) (.str b) = op.strs a b := rfl
theorem apply_nils (op : GoOp) (a : GoV) : op.apply a .nil = op.nils a := rfl

/-- A string, or no meaning. -/
def GoV.asStr : GoV → (Bytes → GoOut) → GoOut
  | .str s, k => k s
  | _, _ => .stuck
/-- An int, or no meaning. -/
def GoV.asInt : GoV → (Int → GoOut) → GoOut
  | .int n, k => k n
  | _, _ => .stuck
/-- Two results, or no meaning. -/
def GoV.asPair : GoV → (GoV → GoV → GoOut) → GoOut
  | .pair a b, k => k a b
  | _, _ => .stuck
/-- `!v`. -/
def GoV.not : GoV → GoR GoV
  | .bool t => .ok (.bool (!t))
  | _ => .stuck
theorem asStr_str (s : Bytes) (k : Bytes → GoOut) : (GoV.str s).asStr k = k s := rfl
theorem asInt_int (n : Int) (k : Int → GoOut) : (GoV.int n).asInt k = k n := rfl
theorem asPair_pair (a b : GoV) (k : GoV → GoV → GoOut) : (GoV.pair a b).asPair k = k a b := rfl
theorem not_bool (t : Bool) : (GoV.bool t).not = .ok (.bool (!t)) := rfl

theorem eq_nil_nil : GoOp.apply .eq .nil .nil = .ok (.bool true) := rfl
theorem eq_nil_span (i j : Nat) : GoOp.apply .eq (.span i j) .nil = .ok (.bool false) := rfl
theorem eq_nil_err (e : Bytes) : GoOp.apply .eq (.err e) .nil = .ok (.bool false) := rfl
theorem ne_nil_nil : GoOp.apply .ne .nil .nil = .ok (.bool false) := rfl
theorem ne_nil_span (i j : Nat) : GoOp.apply .ne (.span i j) .nil = .ok (.bool true) := rfl
theorem ne_nil_err (e : Bytes) : GoOp.apply .ne (.err e) .nil = .ok (.bool true) := rfl

/-- The comparisons as functions to Bool (so that rewriting their operands does not meet instances). -/
def iEq (a b : Int) : Bool := a = b
@[inherit_doc iEq] def iLt (a b : Int) : Bool := a < b
@[inherit_doc iEq] def iLe (a b : Int) : Bool := a ≤ b
@[inherit_doc iEq] def bEq (a b : UInt8) : Bool := a = b
@[inherit_doc iEq] def sEq (a b : Bytes) : Bool := a = b
theorem iEq_true (a b : Int) : (iEq a b = true) = (a = b) := by simp [iEq]
theorem iLt_true (a b : Int) : (iLt a b = true) = (a < b) := by simp [iLt]
theorem iLe_true (a b : Int) : (iLe a b = true) = (a ≤ b) := by simp [iLe]
theorem bEq_true (a b : UInt8) : (bEq a b = true) = (a = b) := by simp [bEq]
theorem sEq_true (a b : Bytes) : (sEq a b = true) = (a = b) := by simp [sEq]
theorem not_true_eq (t : Bool) : ((!t) = true) = ¬ (t = true) := by simp

theorem add_ints (a b : Int) : GoOp.apply .add (.int a) (.int b) = .ok (.int (wrap64 (a + b))) := rfl
theorem sub_ints (a b : Int) : GoOp.apply .sub (.int a) (.int b) = .ok (.int (wrap64 (a - b))) := rfl
theorem eq_ints (a b : Int) : GoOp.apply .eq (.int a) (.int b) = .ok (.bool (iEq a b)) := rfl
theorem ne_ints (a b : Int) : GoOp.apply .ne (.int a) (.int b) = .ok (.bool (!iEq a b)) := by simp [GoOp.apply, GoOp.ints, iEq]
theorem lt_ints (a b : Int) : GoOp.apply .lt (.int a) (.int b) = .ok (.bool (iLt a b)) := rfl
theorem le_ints (a b : Int) : GoOp.apply .le (.int a) (.int b) = .ok (.bool (iLe a b)) := rfl
theorem gt_ints (a b : Int) : GoOp.apply .gt (.int a) (.int b) = .ok (.bool (iLt b a)) := rfl
theorem ge_ints (a b : Int) : GoOp.apply .ge (.int a) (.int b) = .ok (.bool (iLe b a)) := rfl
theorem eq_bytes (a b : UInt8) : GoOp.apply .eq (.byte a) (.byte b) = .ok (.bool (bEq a b)) := rfl
theorem ne_bytes (a b : UInt8) : GoOp.apply .ne (.byte a) (.byte b) = .ok (.bool (!bEq a b)) := by simp [GoOp.apply, GoOp.bytes, bEq]
theorem add_strs (a b : Bytes) : GoOp.apply .add (.str a) (.str b) = .ok (.str (a ++ b)) := rfl
theorem eq_strs (a b : Bytes) : GoOp.apply .eq (.str a) (.str b) = .ok (.bool (sEq a b)) := rfl
theorem ne_strs (a b : Bytes) : GoOp.apply .ne (.str a) (.str b) = .ok (.bool (!sEq a b)) := by simp [GoOp.apply, GoOp.strs, sEq]

theorem len_str (s : Bytes) : (GoV.str s).len = .ok (.int s.length) := rfl
theorem len_vals (s : List Value) : (GoV.vals s).len = .ok (.int s.length) := rfl
theorem len_strs (s : List Bytes) : (GoV.strs s).len = .ok (.int s.length) := rfl
theorem len_spans (s : List (Nat × Nat)) : (GoV.spans s).len = .ok (.int s.length) := rfl
theorem index_str (s : Bytes) (i : Int) : (GoV.str s).index (.int i) = (GoR.orPanic (goAt s i)).bind fun c => .ok (.byte c) := rfl
theorem index_vals (l : List Value) (i : Int) : (GoV.vals l).index (.int i) = (GoR.orPanic (goAt l i)).bind fun c => .ok (.val c) := rfl
theorem index_strs (l : List Bytes) (i : Int) : (GoV.strs l).index (.int i) = (GoR.orPanic (goAt l i)).bind fun c => .ok (.str c) := rfl
theorem index_spans (l : List (Nat × Nat)) (i : Int) :
    (GoV.spans l).index (.int i) = (GoR.orPanic (goAt l i)).bind fun p => .ok (.span p.1 p.2) := rfl
theorem index_span0 (i j : Nat) : (GoV.span i j).index (.int 0) = .ok (.int i) := rfl
theorem index_span1 (i j : Nat) : (GoV.span i j).index (.int 1) = .ok (.int j) := rfl
theorem sliceTo_str (s : Bytes) (i : Int) : (GoV.str s).sliceTo (.int i) = (GoR.orPanic (Texted.sliceTo s i)).bind fun r => .ok (.str r) := rfl
theorem sliceFrom_str (s : Bytes) (i : Int) : (GoV.str s).sliceFrom (.int i) = (GoR.orPanic (Texted.sliceFrom s i)).bind fun r => .ok (.str r) := rfl
theorem slice_str (s : Bytes) (i j : Int) : (GoV.str s).slice (.int i) (.int j) = (GoR.orPanic (Texted.slice s i j)).bind fun r => .ok (.str r) := rfl
theorem go_value_num (x : F64) : (GoV.val (.num x)).value = .ok (.float x) := rfl
theorem value_str (s : Bytes) : (GoV.val (.str s)).value = .ok (.str s) := rfl
theorem assert_num (x : F64) : GoF.isNumber.assert (.val (.num x)) = .ok (.val (.num x)) := rfl
theorem assert_str (s : Bytes) : GoF.isString.assert (.val (.str s)) = .ok (.val (.str s)) := rfl
theorem errorf_int (s : Bytes) (n : Int) : goErrorf s (.int n) = .ok (.err (s ++ intDec n)) := rfl
theorem errorf_err (s e : Bytes) : goErrorf s (.err e) = .ok (.err (s ++ e)) := rfl
theorem indexOf_int (i : Nat) : goIndexOf (some i) = .int i := rfl
theorem indexOf_missing : goIndexOf none = .int (-1) := rfl
theorem set_point (b : Buffer) (n : Int) : b.setField .point (.int n) = .ok { b with point := n } := rfl
theorem set_mark (b : Buffer) (n : Int) : b.setField .mark (.int n) = .ok { b with mark := n } := rfl
theorem set_lastMatch (b : Buffer) (s : Bytes) : b.setField .lastMatch (.str s) = .ok { b with lastMatch := s } := rfl
theorem set_lastStart (b : Buffer) (n : Int) : b.setField .lastStart (.int n) = .ok { b with lastStart := n } := rfl
theorem set_lastEnd (b : Buffer) (n : Int) : b.setField .lastEnd (.int n) = .ok { b with lastEnd := n } := rfl
theorem field_content (b : Buffer) : b.field .content = .str b.content := rfl
theorem field_point (b : Buffer) : b.field .point = .int b.point := rfl
theorem field_mark (b : Buffer) : b.field .mark = .int b.mark := rfl
theorem field_lastMatch (b : Buffer) : b.field .lastMatch = .str b.lastMatch := rfl
theorem field_lastStart (b : Buffer) : b.field .lastStart = .int b.lastStart := rfl
theorem field_lastEnd (b : Buffer) : b.field .lastEnd = .int b.lastEnd := rfl

section
variable [Ext]
theorem call_int (x : F64) : GoF.int.apply1 (.float x) = .ok (.int x.toInt) := rfl
theorem call_float64 (n : Int) : GoF.float64.apply1 (.int n) = .ok (.float (F64.ofInt n)) := rfl
theorem call_string (c : UInt8) : GoF.string.apply1 (.byte c) = .ok (.str (encodeRune (Char.ofNat c.toNat))) := rfl
theorem call_newString (s : Bytes) : GoF.newString.apply1 (.str s) = .ok (.val (.str s)) := rfl
theorem call_newNumber (x : F64) : GoF.newNumber.apply1 (.float x) = .ok (.val (.num x)) := rfl
theorem call_newSymbol (s : Bytes) : GoF.newSymbol.apply1 (.str s) = .ok (.val (.sym s)) := rfl
theorem call_isLetter (c : UInt8) : GoF.isLetter.apply1 (.byte c) = .ok (.bool (Texted.isLetter c)) := rfl
theorem call_toUpper (s : Bytes) : GoF.stringsToUpper.apply1 (.str s) = .ok (.str (toUpper s)) := rfl
theorem call_toLower (s : Bytes) : GoF.stringsToLower.apply1 (.str s) = .ok (.str (toLower s)) := rfl
theorem call_compile_ok {s : Bytes} {re : Regex} (h : Ext.compile s = .ok re) :
    GoF.regexpCompile.apply1 (.str s) = .ok (.pair (.regex re) .nil) := by simp [GoF.apply1, h]
theorem call_compile_error {s e : Bytes} (h : Ext.compile s = .error e) :
    GoF.regexpCompile.apply1 (.str s) = .ok (.pair .nil (.err e)) := by simp [GoF.apply1, h]
theorem call_index (s t : Bytes) : GoF.stringsIndex.apply2 (.str s) (.str t) = .ok (goIndexOf (indexOf t s)) := rfl
theorem call_lastIndex (s t : Bytes) : GoF.stringsLastIndex.apply2 (.str s) (.str t) = .ok (goIndexOf (lastIndexOf t s)) := rfl
theorem call_hasPrefix (s t : Bytes) : GoF.stringsHasPrefix.apply2 (.str s) (.str t) = .ok (.bool (hasPrefix s t)) := rfl
theorem call_hasSuffix (s t : Bytes) : GoF.stringsHasSuffix.apply2 (.str s) (.str t) = .ok (.bool (hasSuffix s t)) := rfl
theorem call_split (s : Bytes) (c : UInt8) : GoF.stringsSplit.apply2 (.str s) (.str [c]) = .ok (.strs (splitByte c s)) := rfl
theorem call_find_none {re : Regex} {s : Bytes} (h : re.find s = none) :
    GoF.findStringIndex.apply2 (.regex re) (.str s) = .ok .nil := by simp [GoF.apply2, h]
theorem call_find_some {re : Regex} {s : Bytes} {i j : Nat} (h : re.find s = some (i, j)) :
    GoF.findStringIndex.apply2 (.regex re) (.str s) = .ok (.span i j) := by simp [GoF.apply2, h]
theorem call_findAll (re : Regex) (s : Bytes) : GoF.findAllStringIndex.apply2 (.regex re) (.str s) = .ok (.spans (re.findAll s)) := rfl
theorem call_replaceAll (re : Regex) (s t : Bytes) :
    GoF.replaceAllString.apply3 (.regex re) (.str s) (.str t) = .ok (.str (re.replaceAll s t)) := rfl
theorem call_isNumber (v : Value) : GoF.isNumber.apply1 (.val v) = (GoF.isNumber.kind v).bind fun t => .ok (.bool t) := rfl
theorem call_isString (v : Value) : GoF.isString.apply1 (.val v) = (GoF.isString.kind v).bind fun t => .ok (.bool t) := rfl
theorem isNumber_num (x : F64) : GoF.isNumber.kind (.num x) = .ok true := rfl
theorem isNumber_str (x : Bytes) : GoF.isNumber.kind (.str x) = .ok false := rfl
theorem isNumber_sym (x : Bytes) : GoF.isNumber.kind (.sym x) = .ok false := rfl
theorem isNumber_list (x : List Value) : GoF.isNumber.kind (.list x) = .ok false := rfl
theorem isString_num (x : F64) : GoF.isString.kind (.num x) = .ok false := rfl
theorem isString_str (x : Bytes) : GoF.isString.kind (.str x) = .ok true := rfl
theorem isString_sym (x : Bytes) : GoF.isString.kind (.sym x) = .ok false := rfl
theorem isString_list (x : List Value) : GoF.isString.kind (.list x) = .ok false := rfl
end

section
variable [Ext]
theorem exec_skip (n : Nat) (st : GoSt) : GoS.skip.exec n st = .next st := rfl
theorem exec_seq (n : Nat) (a b : GoS) (st : GoSt) : (GoS.seq a b).exec n st = (a.exec n st).andThen fun st => b.exec n st := rfl
theorem exec_set (n : Nat) (x : GoVar) (e : GoE) (st : GoSt) : (GoS.set x e).exec n st = (e.eval st).run fun v => .next (st.set x v) := rfl
theorem exec_set2 (n : Nat) (x y : GoVar) (e f : GoE) (st : GoSt) :
    (GoS.set2 x y e f).exec n st = (e.eval st).run fun v => (f.eval st).run fun w => .next ((st.set x v).set y w) := rfl
theorem exec_if (n : Nat) (c : GoE) (a b : GoS) (st : GoSt) :
    (GoS.if_ c a b).exec n st = (c.eval st).run fun v => goIf v (a.exec n st) (b.exec n st) := rfl
theorem exec_while (n : Nat) (c : GoE) (post body : GoS) (st : GoSt) :
    (GoS.while c post body).exec n st = goLoop (fun st => c.eval st) (fun st => (body.exec n st).andThen fun st => post.exec n st) n st := rfl
theorem exec_ret (n : Nat) (v e : GoE) (st : GoSt) :
    (GoS.ret v e).exec n st = (v.eval st).run fun v => (e.eval st).run fun e => .ret v e st.buf := rfl
theorem exec_setBuf (n : Nat) (f : GoField) (e : GoE) (st : GoSt) :
    (GoS.setBuf f e).exec n st = (e.eval st).run fun v => (st.buf.setField f v).run fun b => .next { st with buf := b } := rfl
theorem exec_reset (n : Nat) (st : GoSt) : GoS.reset.exec n st = .next { st with buf := { st.buf with content := [] } } := rfl
theorem exec_write (n : Nat) (e : GoE) (st : GoSt) :
    (GoS.write e).exec n st = (e.eval st).run fun v => v.asStr fun s => .next { st with buf := { st.buf with content := st.buf.content ++ s } } := by
  show (e.eval st).run _ = _
  congr 1; funext v; cases v <;> rfl
theorem exec_insert (n : Nat) (e : GoE) (st : GoSt) :
    (GoS.insert e).exec n st = (e.eval st).run fun v => v.asStr fun s => .next { st with buf := st.buf.insert s } := by
  show (e.eval st).run _ = _
  congr 1; funext v; cases v <;> rfl
theorem exec_setPair (n : Nat) (x y : GoVar) (e : GoE) (st : GoSt) :
    (GoS.setPair x y e).exec n st = (e.eval st).run fun v => v.asPair fun a b => .next ((st.set x a).set y b) := by
  show (e.eval st).run _ = _
  congr 1; funext v; cases v <;> rfl

/-- `if x < 0 { x = 0 }`. -/
theorem exec_low (n : Nat) (x : GoVar) (st : GoSt) :
    (GoS.if_ (.bin .lt (.var x) (.int 0)) (.set x (.int 0)) .skip).exec n st
      = (st.vars x).asInt fun p => .next (st.set x (.int (atLeast0 p))) := by
  show (GoOp.apply .lt (st.vars x) (.int 0)).run (fun v => goIf v (.next (st.set x (.int 0))) (.next st)) = _
  cases h : st.vars x with
  | int p =>
    show goIf (.bool (p < 0)) _ _ = GoOut.next (st.set x (.int (atLeast0 p)))
    unfold goIf atLeast0
    by_cases hp : p < 0
    · simp [hp]
    · simp only [hp, decide_false, Bool.false_eq_true, if_false, ← h, GoSt.set_eq]
  | _ => rfl

/-- `if x > len(c) { x = len(c) }`. -/
theorem exec_high (n : Nat) (x c : GoVar) (st : GoSt) :
    (GoS.if_ (.bin .gt (.var x) (.len (.var c))) (.set x (.len (.var c))) .skip).exec n st
      = (st.vars x).asInt fun p => (st.vars c).len.run fun l => l.asInt fun m => .next (st.set x (.int (atMost m p))) := by
  show ((GoV.len (st.vars c)).bind fun w => GoOp.apply .gt (st.vars x) w).run
    (fun v => goIf v ((GoV.len (st.vars c)).run fun v => .next (st.set x v)) (.next st)) = _
  have key : ∀ m : Int, GoR.run (GoOp.apply .gt (st.vars x) (.int m)) (fun v => goIf v (.next (st.set x (.int m))) (.next st))
      = (st.vars x).asInt fun p => .next (st.set x (.int (atMost m p))) := by
    intro m
    cases h : st.vars x with
    | int p =>
      show goIf (.bool (p > m)) _ _ = GoOut.next (st.set x (.int (atMost m p)))
      unfold goIf atMost
      by_cases hp : p > m
      · simp [hp]
      · simp only [hp, decide_false, Bool.false_eq_true, if_false, ← h, GoSt.set_eq]
    | _ => rfl
  cases hc : st.vars c with
  | str s => exact key s.length
  | vals s => exact key s.length
  | strs s => exact key s.length
  | spans s => exact key s.length
  | _ => cases st.vars x <;> rfl

theorem eval_var (st : GoSt) (x : GoVar) : (GoE.var x).eval st = .ok (st.vars x) := rfl
theorem eval_not (st : GoSt) (a : GoE) : (GoE.not a).eval st = (a.eval st).bind GoV.not := rfl
theorem eval_or (st : GoSt) (a b : GoE) : (GoE.bin .or a b).eval st = (a.eval st).bind fun v => goShort true v (b.eval st) := rfl
theorem eval_and (st : GoSt) (a b : GoE) : (GoE.bin .and a b).eval st = (a.eval st).bind fun v => goShort false v (b.eval st) := rfl
end

/-- Run the straight-line parts. -/
macro "go_run" "[" ls:Lean.Parser.Tactic.simpLemma,* "]" : tactic => `(tactic| (
  try simp only [GoS.call, exec_seq, exec_low, exec_high]
  simp (maxSteps := 2000000) (disch := first | omega | rfl) only [exec_skip, exec_seq, exec_set, exec_set2, exec_setPair, exec_if, exec_ret, exec_setBuf, exec_reset, exec_write, exec_insert,
    GoE.eval, eval_not, GoR.ok_bind, GoR.panic_bind, GoR.ok_run, GoR.panic_run, GoR.bind_ite, GoR.run_ite, GoOut.next_andThen, GoOut.ret_andThen, GoOut.panic_andThen, GoOut.andThen_ite,
    GoSt.set_vars, GoSt.set_buf, goStart_vars, goStart_buf, goIf_bool, asStr_str, asInt_int, asPair_pair, not_bool,
    eq_nil_nil, eq_nil_span, eq_nil_err, ne_nil_nil, ne_nil_span, ne_nil_err, add_ints, sub_ints, eq_ints, ne_ints, lt_ints, le_ints, gt_ints, ge_ints,
    eq_bytes, ne_bytes, add_strs, eq_strs, ne_strs, len_str, len_vals, len_strs, len_spans, index_str, index_vals, index_strs, index_spans, index_span0, index_span1,
    sliceTo_str, sliceFrom_str, slice_str, go_value_num, value_str, assert_num, assert_str, errorf_int, errorf_err, indexOf_int, indexOf_missing,
    set_point, set_mark, set_lastMatch, set_lastStart, set_lastEnd, field_content, field_point, field_mark, field_lastMatch, field_lastStart, field_lastEnd,
    call_int, call_float64, call_string, call_newString, call_newNumber, call_newSymbol, call_isLetter, call_toUpper, call_toLower, call_index, call_lastIndex,
    call_hasPrefix, call_hasSuffix, call_split, call_findAll, call_replaceAll, call_isNumber, call_isString, isNumber_num, isNumber_str, isNumber_sym, isNumber_list,
    isString_num, isString_str, isString_sym, isString_list,
    goShort_or, goShort_and, Bool.or_eq_true, Bool.and_eq_true, iEq_true, iLt_true, iLe_true, bEq_true, sEq_true, not_true_eq, ge_iff_le, gt_iff_lt, or_false, false_or, or_true, true_or, and_true, true_and, and_false, false_and, goShort_true, goShort_false, goShort_panic_or, goShort_panic_and, orPanic_some, orPanic_none, reduceCtorEq, ite_true, ite_false, if_true, if_false,
    decide_true, decide_false, Bool.not_true, Bool.not_false, Bool.false_eq_true, Bool.true_eq_false, ne_eq, not_true_eq_false, not_false_eq_true, $ls,*]))

/-! ### How the functions begin -/

section
variable [Ext] {n : Nat} {args : List Value} {b : Buffer}

omit [Ext] in
theorem agrees_ok (v : Value) (b' : Buffer) : Agrees (.ret (.val v) .nil b') (.ok v, b') := ⟨rfl, rfl⟩
omit [Ext] in
theorem agrees_err (e : Bytes) (b' : Buffer) : Agrees (.ret .nil (.err e) b') (.err e, b') := ⟨rfl, rfl⟩

/-- `if len(args) != 0 { return nil, fmt.Errorf(…) }`. -/
theorem go_noArgs {rest : GoS} {k : Res Bytes Value × Buffer} {msg : Bytes} (name : Bytes)
    (hm : msg = name ++ b! " expects " ++ b! "0 arguments" ++ b! ", got ")
    (h : Agrees (rest.exec n (goStart [] b)) k) :
    Agrees (GoS.call n (.seq (.if_ (.bin .ne (.len (.var .args)) (.int 0)) (.ret .nil (.errorf1 msg (.len (.var .args)))) .skip) rest) args b)
      (noArgs name args b k) := by
  obtain _ | ⟨a, as⟩ := args
  · exact h
  · go_run []
    subst hm
    exact agrees_err _ _

/-- `if len(args) != 1 {…}; if !IsA(args[0], TheStringKind) {…}; x := args[0].(*String)`. -/
theorem go_oneStr {rest : GoS} {k : Bytes → Res Bytes Value × Buffer} {msg msg' : Bytes} {x : GoVar} (name : Bytes)
    (hm : msg = name ++ b! " expects " ++ b! "1 argument" ++ b! ", got ") (hm' : msg' = name ++ b! " expects a string argument")
    (h : ∀ s, args = [.str s] → Agrees (rest.exec n ((goStart args b).set x (.val (.str s)))) (k s)) :
    Agrees (GoS.call n (.seq (.if_ (.bin .ne (.len (.var .args)) (.int 1)) (.ret .nil (.errorf1 msg (.len (.var .args)))) .skip) <|
      .seq (.if_ (.not (.call1 .isString (.index (.var .args) (.int 0)))) (.ret .nil (.errorf msg')) .skip) <|
      .seq (.set x (.assert .isString (.index (.var .args) (.int 0)))) rest) args b)
      (oneStr name args b k) := by
  match args with
  | [] => subst hm; exact agrees_err _ _
  | [.str s] => exact h s rfl
  | [.num _] => subst hm'; exact agrees_err _ _
  | [.sym _] => subst hm'; exact agrees_err _ _
  | [.list _] => subst hm'; exact agrees_err _ _
  | a :: a' :: as =>
    have e : ¬ (((a :: a' :: as).length : Int) = 1) := by simp; omega
    go_run [e]
    subst hm
    cases a <;> exact agrees_err _ _

/-- `if len(args) != 1 {…}; if !IsA(args[0], TheNumberKind) {…}; num := args[0].(*Number); x := int(num.Value)`. -/
theorem go_oneNum {rest : GoS} {k : Int → Res Bytes Value × Buffer} {msg msg' : Bytes} {x : GoVar} (name : Bytes)
    (hm : msg = name ++ b! " expects " ++ b! "1 argument" ++ b! ", got ") (hm' : msg' = name ++ b! " expects a number argument")
    (h : ∀ f : F64, args = [.num f] → Agrees (rest.exec n (((goStart args b).set .num (.val (.num f))).set x (.int f.toInt))) (k f.toInt)) :
    Agrees (GoS.call n (.seq (.if_ (.bin .ne (.len (.var .args)) (.int 1)) (.ret .nil (.errorf1 msg (.len (.var .args)))) .skip) <|
      .seq (.if_ (.not (.call1 .isNumber (.index (.var .args) (.int 0)))) (.ret .nil (.errorf msg')) .skip) <|
      .seq (.set .num (.assert .isNumber (.index (.var .args) (.int 0)))) <|
      .seq (.set x (.call1 .int (.value (.var .num)))) rest) args b)
      (oneNum name args b k) := by
  match args with
  | [] => subst hm; exact agrees_err _ _
  | [.num f] => exact h f rfl
  | [.str _] => subst hm'; exact agrees_err _ _
  | [.sym _] => subst hm'; exact agrees_err _ _
  | [.list _] => subst hm'; exact agrees_err _ _
  | a :: a' :: as =>
    have e : ¬ (((a :: a' :: as).length : Int) = 1) := by simp; omega
    go_run [e]
    subst hm
    cases a <;> exact agrees_err _ _

/-- `count := 1; if len(args) > 1 {…}; if len(args) == 1 { if !IsA(args[0], TheNumberKind) {…}; count = int(…) }`. -/
theorem go_withCount {rest : GoS} {k : Int → Res Bytes Value × Buffer} {msg msg' : Bytes} (name : Bytes)
    (hm : msg = name ++ b! " expects " ++ b! "at most 1 argument" ++ b! ", got ") (hm' : msg' = name ++ b! " expects a number argument")
    (h : ∀ c : Int, minInt ≤ c → c ≤ maxInt → optCount name args = .ok c → Agrees (rest.exec n ((goStart args b).set .count (.int c))) (k c)) :
    Agrees (GoS.call n (.seq (.set .count (.int 1)) <|
      .seq (.if_ (.bin .gt (.len (.var .args)) (.int 1)) (.ret .nil (.errorf1 msg (.len (.var .args)))) .skip) <|
      .seq (.if_ (.bin .eq (.len (.var .args)) (.int 1))
        (.seq (.if_ (.not (.call1 .isNumber (.index (.var .args) (.int 0)))) (.ret .nil (.errorf msg')) .skip) <|
          (.set .count (.call1 .int (.value (.assert .isNumber (.index (.var .args) (.int 0)))))))
        .skip) rest) args b)
      (withCount name args b k) := by
  match args with
  | [] => exact h 1 (by omega) (by omega) rfl
  | [.num f] =>
    have e := h f.toInt (F64.toInt_range f).1 (F64.toInt_range f).2 rfl
    rw [← GoSt.set_set _ .count (.int 1)] at e
    exact e
  | [.str _] => subst hm'; exact agrees_err _ _
  | [.sym _] => subst hm'; exact agrees_err _ _
  | [.list _] => subst hm'; exact agrees_err _ _
  | a :: a' :: as =>
    have e : (((a :: a' :: as).length : Int) > 1) := by simp; omega
    go_run [e]
    subst hm
    cases a <;> exact agrees_err _ _
end
end Texted
