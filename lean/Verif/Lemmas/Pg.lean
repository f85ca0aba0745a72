import Verif.Model.PgRun
import Verif.Spec.Pg
import Verif.Model.Lawful
import Verif.Lemmas.Call
/-
Symbolic execution of the functions of Model/PgSource.
-/
set_option linter.unusedSectionVars false
namespace Texted
variable [Ext]

section
variable {α β : Type}
theorem GoR.ok_bind' (a : α) (k : α → GoR β) : (GoR.ok a).bind k = k a := rfl
theorem GoR.ok_runPg (a : α) (k : α → PgOut) : (GoR.ok a).runPg k = k a := rfl
theorem GoR.panic_bind' (k : α → GoR β) : (GoR.panic).bind k = .panic := rfl
theorem GoR.panic_runPg (k : α → PgOut) : (GoR.panic).runPg k = .panic := rfl
theorem orPanic_some' (a : α) : GoR.orPanic (some a) = .ok a := rfl
end

theorem pgnext_andThen (st : PgSt) (k : PgSt → PgOut) : (PgOut.next st).andThen k = k st := rfl
theorem pgcont_andThen (st : PgSt) (k : PgSt → PgOut) : (PgOut.cont st).andThen k = .cont st := rfl
theorem pgret_andThen (vs : List PgV) (w : PgW) (k : PgSt → PgOut) : (PgOut.ret vs w).andThen k = .ret vs w := rfl
theorem pgpanic_andThen (k : PgSt → PgOut) : PgOut.panic.andThen k = .panic := rfl
theorem pgnext_round (st : PgSt) (k : PgSt → PgOut) : (PgOut.next st).round k = k st := rfl
theorem pgcont_round (st : PgSt) (k : PgSt → PgOut) : (PgOut.cont st).round k = k st := rfl
theorem pgret_round (vs : List PgV) (w : PgW) (k : PgSt → PgOut) : (PgOut.ret vs w).round k = .ret vs w := rfl
theorem pgpanic_round (k : PgSt → PgOut) : PgOut.panic.round k = .panic := rfl

theorem pgIf_true (a b : PgOut) : pgIf (.bool true) a b = a := rfl
theorem pgIf_false (a b : PgOut) : pgIf (.bool false) a b = b := rfl

theorem PgSt.set_vars (st : PgSt) (x y : PgVar) (v : PgV) : (st.set x v).vars y = if y = x then v else st.vars y := rfl
theorem PgSt.set_w (st : PgSt) (x : PgVar) (v : PgV) : (st.set x v).w = st.w := rfl
theorem setAll_nil (st : PgSt) : st.setAll [] [] = some st := rfl
theorem setAll_cons (st : PgSt) (x : PgVar) (xs : List PgVar) (v : PgV) (vs : List PgV) : st.setAll (x :: xs) (v :: vs) = (st.set x v).setAll xs vs := rfl
theorem bindAll_nil (st : PgSt) : st.bindAll [] [] = .next st := rfl
theorem bindAll_cons (st : PgSt) (x : PgVar) (xs : List PgVar) (v : PgV) (vs : List PgV) : st.bindAll (x :: xs) (v :: vs) = (st.set x v).bindAll xs vs := rfl
theorem pgMany_tuple (st : PgSt) (xs : List PgVar) (vs : List PgV) : pgMany st xs (.tuple vs) = st.bindAll xs vs := rfl
theorem results_ret (vs : List PgV) (w : PgW) (st : PgSt) (xs : List PgVar) : (PgOut.ret vs w).results st xs = ({ st with w := w } : PgSt).bindAll xs vs := rfl
theorem results_panic (st : PgSt) (xs : List PgVar) : PgOut.panic.results st xs = .panic := rfl

section
variable (st : PgSt) (a b e : PgE) (es : PgEs)
theorem pgeval_var (x : PgVar) : (PgE.var x).eval st = .ok (st.vars x) := rfl
theorem pgeval_int (n : Int) : (PgE.int n).eval st = .ok (.int n) := rfl
theorem pgeval_str (s : Bytes) : (PgE.str s).eval st = .ok (.str s) := rfl
theorem pgeval_rune (c : Char) : (PgE.rune c).eval st = .ok (.rune c) := rfl
theorem pgeval_bool (t : Bool) : (PgE.bool t).eval st = .ok (.bool t) := rfl
theorem pgeval_nil : (PgE.nil).eval st = .ok .nil := rfl
theorem pgeval_noVals : (PgE.noVals).eval st = .ok (.vals []) := rfl
theorem pgeval_noStrs : (PgE.noStrs).eval st = .ok (.strs []) := rfl
theorem pgeval_noJsons : (PgE.noJsons).eval st = .ok (.jsons []) := rfl
theorem pgeval_buf (f : GoField) : (PgE.buf f).eval st = .ok (st.w.buf.pgField f) := rfl
theorem pgeval_or : (PgE.bin .or a b).eval st = (a.eval st).bind fun v => pgShort true v (b.eval st) := rfl
theorem pgeval_and : (PgE.bin .and a b).eval st = (a.eval st).bind fun v => pgShort false v (b.eval st) := rfl
theorem pgeval_eq : (PgE.bin .eq a b).eval st = (a.eval st).bind fun v => (b.eval st).bind fun w => GoOp.applyPg .eq v w := rfl
theorem pgeval_ne : (PgE.bin .ne a b).eval st = (a.eval st).bind fun v => (b.eval st).bind fun w => GoOp.applyPg .ne v w := rfl
theorem pgeval_lt : (PgE.bin .lt a b).eval st = (a.eval st).bind fun v => (b.eval st).bind fun w => GoOp.applyPg .lt v w := rfl
theorem pgeval_gt : (PgE.bin .gt a b).eval st = (a.eval st).bind fun v => (b.eval st).bind fun w => GoOp.applyPg .gt v w := rfl
theorem pgeval_ge : (PgE.bin .ge a b).eval st = (a.eval st).bind fun v => (b.eval st).bind fun w => GoOp.applyPg .ge v w := rfl
theorem pgeval_add : (PgE.bin .add a b).eval st = (a.eval st).bind fun v => (b.eval st).bind fun w => GoOp.applyPg .add v w := rfl
theorem pgeval_sub : (PgE.bin .sub a b).eval st = (a.eval st).bind fun v => (b.eval st).bind fun w => GoOp.applyPg .sub v w := rfl
theorem pgeval_not : (PgE.not a).eval st = (a.eval st).bind PgV.not := rfl
theorem pgeval_call (p : PgP) : (PgE.call p es).eval st = (es.eval st).bind (p.apply st.w.jsonError) := rfl
theorem evals_nil : PgEs.nil.eval st = .ok [] := rfl
theorem evals_cons : (PgEs.cons e es).eval st = (e.eval st).bind fun v => (es.eval st).bind fun vs => .ok (v :: vs) := rfl
end

theorem pgShort_or (t : Bool) (r : GoR PgV) (u : Bool) (h : t = false → r = .ok (.bool u)) : pgShort true (.bool t) r = .ok (.bool (t || u)) := by
  cases t
  · rw [h rfl]; rfl
  · rfl
theorem pgShort_or_ok (t u : Bool) : pgShort true (.bool t) (.ok (.bool u)) = .ok (.bool (t || u)) := by cases t <;> rfl
theorem pgShort_and_ok (t u : Bool) : pgShort false (.bool t) (.ok (.bool u)) = .ok (.bool (t && u)) := by cases t <;> rfl
theorem pgShort_and_false (r : GoR PgV) : pgShort false (.bool false) r = .ok (.bool false) := rfl
theorem pgnot_bool (t : Bool) : (PgV.bool t).not = .ok (.bool (!t)) := rfl

theorem applyPg_eq (v w : PgV) : GoOp.applyPg .eq v w = (v.eq w).bind fun t => .ok (.bool t) := rfl
theorem applyPg_ne (v w : PgV) : GoOp.applyPg .ne v w = (v.eq w).bind fun t => .ok (.bool (!t)) := rfl
theorem applyPg_add (a b : Int) : GoOp.applyPg .add (.int a) (.int b) = .ok (.int (wrap64 (a + b))) := rfl
theorem applyPg_sub (a b : Int) : GoOp.applyPg .sub (.int a) (.int b) = .ok (.int (wrap64 (a - b))) := rfl
theorem applyPg_lt (a b : Int) : GoOp.applyPg .lt (.int a) (.int b) = .ok (.bool (a < b)) := rfl
theorem applyPg_gt (a b : Int) : GoOp.applyPg .gt (.int a) (.int b) = .ok (.bool (b < a)) := rfl
theorem applyPg_ge (a b : Int) : GoOp.applyPg .ge (.int a) (.int b) = .ok (.bool (b ≤ a)) := rfl
theorem applyPg_cat (a b : Bytes) : GoOp.applyPg .add (.str a) (.str b) = .ok (.str (a ++ b)) := rfl

section
variable (n : Nat) (call : PgFn → List PgV → PgW → PgOut) (st : PgSt)
theorem pgexec_skip : PgS.exec n call .skip st = .next st := rfl
theorem pgexec_seq (a b : PgS) : PgS.exec n call (.seq a b) st = (a.exec n call st).andThen fun st => b.exec n call st := rfl
theorem pgexec_set (x : PgVar) (e : PgE) : PgS.exec n call (.set x e) st = (e.eval st).runPg fun v => .next (st.set x v) := rfl
theorem pgexec_setMany (xs : List PgVar) (e : PgE) : PgS.exec n call (.setMany xs e) st = (e.eval st).runPg (pgMany st xs) := rfl
theorem pgexec_setAt (x : PgVar) (i e : PgE) : PgS.exec n call (.setAt x i e) st =
    (i.eval st).runPg fun i => (e.eval st).runPg fun v => ((st.vars x).setAt i v).runPg fun l => .next (st.set x l) := rfl
theorem pgexec_callFn (xs : List PgVar) (f : PgFn) (args : PgEs) : PgS.exec n call (.callFn xs f args) st =
    (args.eval st).runPg fun vs => (call f vs st.w).results st xs := rfl
theorem pgexec_callValue (xs : List PgVar) (f args : PgE) : PgS.exec n call (.callValue xs f args) st =
    (f.eval st).runPg fun f => (args.eval st).runPg fun a => (pgApply st f a).results st xs := rfl
theorem pgexec_trace (f e : PgE) : PgS.exec n call (.trace f e) st = (f.eval st).runPg fun f => (e.eval st).runPg fun v => pgTrace st f v := rfl
theorem pgexec_if (c : PgE) (a b : PgS) : PgS.exec n call (.if_ c a b) st = (c.eval st).runPg fun v => pgIf v (a.exec n call st) (b.exec n call st) := rfl
theorem pgexec_while (c : PgE) (post body : PgS) : PgS.exec n call (.while c post body) st =
    pgLoop (fun st => c.eval st) (fun st => body.exec n call st) (fun st => post.exec n call st) n st := rfl
theorem pgexec_range (i x : PgVar) (e : PgE) (body : PgS) : PgS.exec n call (.range i x e body) st =
    (e.eval st).runPg fun v => v.items.runPg fun l => pgRange (fun st => body.exec n call st) i x 0 l st := rfl
theorem pgexec_forScan (x : PgVar) (body : PgS) : PgS.exec n call (.forScan x body) st = pgScan (fun st => body.exec n call st) x n st := rfl
theorem pgexec_cont : PgS.exec n call .cont st = .cont st := rfl
theorem pgexec_ret (es : PgEs) : PgS.exec n call (.ret es) st = (es.eval st).runPg fun vs => .ret vs st.w := rfl
end

/-! ### The operations -/

section
variable {say : Bytes → Bytes}
theorem ap_len : PgP.apply say .len [v] = PgV.len v := rfl
theorem ap_index : PgP.apply say .index [v, i] = PgV.index v i := rfl
theorem ap_sliceFrom : PgP.apply say .sliceFrom [v, i] = PgV.sliceFrom v i := rfl
theorem ap_append : PgP.apply say .append [l, v] = PgV.append l v := rfl
theorem ap_make : PgP.apply say .make [.int n] = if n < 0 then .panic else .ok (.slots (List.replicate (Int.toNat n) none)) := rfl
theorem ap_runeString : PgP.apply say .runeString [.rune c] = .ok (.str (encodeRune c)) := rfl
theorem ap_int : PgP.apply say .int [.float x] = .ok (.int (F64.toInt x)) := rfl
theorem ap_float64 : PgP.apply say .float64 [.int n] = .ok (.float (F64.ofInt n)) := rfl
theorem ap_errorf : PgP.apply say .errorf l = (pgPieces l).bind fun s => .ok (.err s) := rfl
theorem ap_errorText : PgP.apply say .errorText [.err e] = .ok (.str e) := rfl
theorem ap_quote : PgP.apply say .quote [.str s] = .ok (.str (Texted.quote s)) := rfl
theorem ap_decimal : PgP.apply say .decimal [.int n] = .ok (.str (intDec n)) := rfl
theorem ap_fmtG : PgP.apply say .fmtG [.float x] = .ok (.str (Texted.fmtG x)) := rfl
theorem ap_fmtF0 : PgP.apply say .fmtF0 [.float x] = .ok (.str (F64.fmtF0 x)) := rfl
theorem ap_typeName : PgP.apply say .typeName [.json j] = .ok (.str (Json.typeName j)) := rfl
theorem ap_typeName2 : PgP.apply say .typeName [.val v] = .ok (.str (Value.goType v)) := rfl
theorem ap_verb : PgP.apply say .verb [.json j] = .ok (.str (Json.verb j)) := rfl
theorem ap_isA : PgP.apply say (.isA t) [.val v] = .ok (.bool (PgT.isValue t v)) := rfl
theorem ap_isA2 : PgP.apply say (.isA t) [.nil] = .panic := rfl
theorem ap_isType : PgP.apply say (.isType t) [v] = (PgT.holds t v).bind fun b => .ok (.bool b) := rfl
theorem ap_as : PgP.apply say (.as t) [v] = PgT.assert t v := rfl
theorem ap_as2 : PgP.apply say (.as2 t) [v] = PgT.assert2 t v := rfl
theorem ap_iface : PgP.apply say .iface [v] = (PgV.toJson v).bind fun j => .ok (.json j) := rfl
theorem ap_isMap : PgP.apply say .isMap [.json j] = .ok (.bool (Json.isObj j)) := rfl
theorem ap_reflectValueOf : PgP.apply say .reflectValueOf [v] = .ok v := rfl
theorem ap_newString : PgP.apply say .newString [.str s] = .ok (.val (.str s)) := rfl
theorem ap_newNumber : PgP.apply say .newNumber [.float x] = .ok (.val (.num x)) := rfl
theorem ap_newSymbol : PgP.apply say .newSymbol [.str s] = .ok (.val (.sym s)) := rfl
theorem ap_newList : PgP.apply say .newList [.vals l] = .ok (.val (.list l)) := rfl
theorem ap_name : PgP.apply say .name [.val (.sym s)] = .ok (.str s) := rfl
theorem ap_value : PgP.apply say .value [.val (.str s)] = .ok (.str s) := rfl
theorem ap_value2 : PgP.apply say .value [.val (.num x)] = .ok (.float x) := rfl
theorem ap_elements : PgP.apply say .elements [.val (.list l)] = .ok (.vals l) := rfl
theorem ap_kindName : PgP.apply say .kindName [.val v] = .ok (.str (Value.kindName v)) := rfl
theorem ap_listLen : PgP.apply say .listLen [.val (.list l)] = .ok (.int (List.length l)) := rfl
theorem ap_listGet : PgP.apply say .listGet [.val (.list l), .int i] = .ok (pgGot (goAt l i)) := rfl
theorem ap_executionError : PgP.apply say .executionError [.err e, .vals p, .val v, .int i, .str c, .int point, .int mark, .str m, .int s, .int t] = .ok (.xerr ⟨e, p, v, (Int.toNat i), c, point, mark, m, s, t⟩) := rfl
theorem ap_failure : PgP.apply say (.failure x) [.xerr e] = .ok (ExecutionError.get e x) := rfl
theorem ap_hasPrefix : PgP.apply say .hasPrefix [.str s, .str t] = .ok (.bool (Texted.hasPrefix s t)) := rfl
theorem ap_hasSuffix : PgP.apply say .hasSuffix [.str s, .str t] = .ok (.bool (Texted.hasSuffix s t)) := rfl
theorem ap_trimSpace : PgP.apply say .trimSpace [.str s] = .ok (.str (Texted.trimSpace s)) := rfl
theorem ap_trimLeft : PgP.apply say .trimLeft [.str s] = .ok (.str (Texted.trimLeft s)) := rfl
theorem ap_join : PgP.apply say .join [.strs l, .str s] = .ok (.str (joinWith s l)) := rfl
theorem ap_unquote : PgP.apply say .unquote [.str s] = .ok (.tuple (pgUnquoted (Texted.unquote s))) := rfl
theorem ap_parseFloat : PgP.apply say .parseFloat [.str s] = .ok (.tuple (pgNumber (Texted.parseFloat s))) := rfl
theorem ap_lookup : PgP.apply say .lookup [.env e, .str s] = .ok (.tuple (pgFunction (e s))) := rfl
theorem ap_newReader : PgP.apply say .newReader [.str s] = .ok (.str s) := rfl
theorem ap_newScanner : PgP.apply say .newScanner [.str s] = .ok (.scanner s [] none) := rfl
theorem ap_scanText : PgP.apply say .scanText [.scanner r t u] = .ok (.str t) := rfl
theorem ap_scanErr : PgP.apply say .scanErr [.scanner r t e] = .ok (pgError e) := rfl
theorem ap_unmarshal : PgP.apply say .unmarshal [.str s] = .ok (pgUnmarshal say s) := rfl
end

/-- The string and error pieces of a message. -/
theorem pieces_nil : pgPieces [] = .ok [] := rfl
theorem pieces_str (s : Bytes) (r : List PgV) : pgPieces (.str s :: r) = (pgPieces r).bind fun t => .ok (s ++ t) := rfl
theorem pieces_err (s : Bytes) (r : List PgV) : pgPieces (.err s :: r) = (pgPieces r).bind fun t => .ok (s ++ t) := rfl
theorem pglen_str (s : Bytes) : (PgV.str s).len = .ok (.int s.length) := rfl
theorem pglen_vals (s : List Value) : (PgV.vals s).len = .ok (.int s.length) := rfl
theorem pglen_strs (s : List Bytes) : (PgV.strs s).len = .ok (.int s.length) := rfl
theorem pglen_jsons (s : List Json) : (PgV.jsons s).len = .ok (.int s.length) := rfl
theorem pgeq_ints (a b : Int) : (PgV.int a).eq (.int b) = .ok (decide (a = b)) := rfl
theorem pgeq_strs (a b : Bytes) : (PgV.str a).eq (.str b) = .ok (decide (a = b)) := rfl
theorem pgeq_runes (a b : Char) : (PgV.rune a).eq (.rune b) = .ok (decide (a = b)) := rfl
theorem pgeq_floats (a b : F64) : (PgV.float a).eq (.float b) = .ok (F64.goEq a b) := rfl
theorem pgeq_nil_nil : PgV.nil.eq .nil = .ok true := rfl
theorem pgeq_err_nil (e : Bytes) : (PgV.err e).eq .nil = .ok false := rfl
theorem pgeq_xerr_nil (e : ExecutionError) : (PgV.xerr e).eq .nil = .ok false := rfl
theorem pgeq_val_nil (v : Value) : (PgV.val v).eq .nil = .ok false := rfl
theorem pgeq_hook_nil : PgV.hook.eq .nil = .ok false := rfl
theorem pgappend_vals (l : List Value) (v : Value) : (PgV.vals l).append (.val v) = .ok (.vals (l ++ [v])) := rfl
theorem pgappend_strs (l : List Bytes) (v : Bytes) : (PgV.strs l).append (.str v) = .ok (.strs (l ++ [v])) := rfl
theorem pgappend_jsons (l : List Json) (v : PgV) : (PgV.jsons l).append v = v.toJson.bind fun j => .ok (.jsons (l ++ [j])) := rfl

/-- One statement or expression after the other. -/
macro "pg" "[" ts:Lean.Parser.Tactic.simpLemma,* "]" : tactic =>
  `(tactic| simp only [GoR.ok_bind', GoR.ok_runPg, orPanic_some', pgnext_andThen, pgcont_andThen, pgret_andThen, pgpanic_andThen, pgnext_round, pgcont_round,
    pgret_round, pgpanic_round, pgIf_true, pgIf_false, PgSt.set_vars, PgSt.set_w, setAll_nil, setAll_cons, bindAll_nil, bindAll_cons, pgMany_tuple, results_ret, results_panic,
    pgeval_var, pgeval_int, pgeval_str, pgeval_rune, pgeval_bool, pgeval_nil, pgeval_noVals, pgeval_noStrs, pgeval_noJsons, pgeval_buf, pgeval_or, pgeval_and, pgeval_eq, pgeval_ne, pgeval_lt, pgeval_gt,
    pgeval_ge, pgeval_add, pgeval_sub, pgeval_not, pgeval_call, evals_nil, evals_cons, pgShort_or_ok, pgShort_and_ok, pgShort_and_false, pgnot_bool, applyPg_eq, applyPg_ne, applyPg_add, applyPg_sub,
    applyPg_lt, applyPg_gt, applyPg_ge, applyPg_cat, pgexec_skip, pgexec_seq, pgexec_set, pgexec_setMany, pgexec_setAt, pgexec_callFn, pgexec_callValue, pgexec_trace, pgexec_if,
    pgexec_cont, pgexec_ret, ap_len, ap_index, ap_sliceFrom, ap_append, ap_make, ap_runeString, ap_int, ap_float64, ap_errorf, ap_errorText, ap_quote, ap_decimal, ap_fmtG, ap_fmtF0, ap_typeName, ap_typeName2, ap_verb, ap_isA, ap_isA2, ap_isType, ap_as, ap_as2, ap_iface, ap_isMap, ap_reflectValueOf, ap_newString, ap_newNumber, ap_newSymbol, ap_newList, ap_name, ap_value, ap_value2, ap_elements, ap_kindName, ap_listLen, ap_listGet, ap_executionError, ap_failure, ap_hasPrefix, ap_hasSuffix, ap_trimSpace, ap_trimLeft, ap_join, ap_unquote, ap_parseFloat, ap_lookup, ap_newReader, ap_newScanner, ap_scanText, ap_scanErr, ap_unmarshal, pieces_nil, pieces_str, pieces_err,
    pglen_str, pglen_vals, pglen_strs, pglen_jsons, pgeq_ints, pgeq_strs, pgeq_runes, pgeq_floats, pgeq_nil_nil, pgeq_err_nil, pgeq_xerr_nil, pgeq_val_nil, pgeq_hook_nil,
    pgappend_vals, pgappend_strs, pgappend_jsons, reduceCtorEq, if_true, if_false, Bool.not_true, Bool.not_false, eq_self, decide_true, decide_false, Bool.or_true, Bool.true_or,
    Bool.or_false, Bool.false_or, Bool.and_true, Bool.and_false, $ts,*])

theorem pgRun_succ (n d : Nat) (f : PgFn) (args : List PgV) (w : PgW) (st : PgSt) (h : ({ vars := fun _ => .nil, w := w } : PgSt).setAll f.params args = some st) :
    pgRun n (d + 1) f args w = f.body.exec n (pgRun n d) st := by
  show (match ({ vars := fun _ => .nil, w := w } : PgSt).setAll f.params args with
    | some st => f.body.exec n (pgRun n d) st
    | none => .stuck) = _
  rw [h]

/-- A loop over a slice whose rounds keep an invariant. -/
theorem pgRange_keeps {σ α : Type} {body : PgSt → PgOut} {i x : PgVar} {Inv : σ → PgSt → Prop} {step : σ → α → σ} (f : α → PgV)
    (hb : ∀ s a (k : Nat) st, Inv s st → ∃ st', (body ((st.set i (.int k)).set x (f a)) = .next st' ∨ body ((st.set i (.int k)).set x (f a)) = .cont st') ∧
      Inv (step s a) st') :
    ∀ (l : List α) (k : Nat) (s : σ) (st : PgSt), Inv s st → ∃ st', pgRange body i x k (l.map f) st = .next st' ∧ Inv (l.foldl step s) st' := by
  intro l
  induction l with
  | nil => intro k s st h; exact ⟨st, rfl, h⟩
  | cons a l ih =>
    intro k s st h
    obtain ⟨st', h₁, h₂⟩ := hb s a k st h
    obtain ⟨st'', h₃, h₄⟩ := ih (k + 1) _ st' h₂
    refine ⟨st'', ?_, h₄⟩
    show (body ((st.set i (.int k)).set x (f a))).round (pgRange body i x (k + 1) (l.map f)) = _
    rcases h₁ with h₁ | h₁ <;> rw [h₁] <;> exact h₃

end Texted
