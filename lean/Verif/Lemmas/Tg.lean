import Verif.Model.TgRun
import Verif.Lemmas.Call
/-
Symbolic execution of the functions of Model/TgSource.
-/
set_option linter.unusedSectionVars false
namespace Texted
variable [Ext]

section
variable {α β : Type}
theorem tgok_bind (a : α) (k : α → GoR β) : (GoR.ok a).bind k = k a := rfl
theorem tgok_run (a : α) (k : α → TgOut) : (GoR.ok a).runTg k = k a := rfl
theorem tgpanic_bind (k : α → GoR β) : (GoR.panic).bind k = .panic := rfl
theorem tgpanic_run (k : α → TgOut) : (GoR.panic).runTg k = .panic := rfl
theorem tgorPanic (a : α) : GoR.orPanic (some a) = .ok a := rfl
end

theorem tgnext_andThen (st : TgSt) (k : TgSt → TgOut) : (TgOut.next st).andThen k = k st := rfl
theorem tgcont_andThen (st : TgSt) (k : TgSt → TgOut) : (TgOut.cont st).andThen k = .cont st := rfl
theorem tgbrk_andThen (st : TgSt) (k : TgSt → TgOut) : (TgOut.brk st).andThen k = .brk st := rfl
theorem tgret_andThen (vs : List TgV) (w : TgW) (k : TgSt → TgOut) : (TgOut.ret vs w).andThen k = .ret vs w := rfl
theorem tgexit_andThen (c : Int) (w : TgW) (k : TgSt → TgOut) : (TgOut.exit c w).andThen k = .exit c w := rfl
theorem tgpanic_andThen (k : TgSt → TgOut) : TgOut.panic.andThen k = .panic := rfl
theorem tgnext_round (st : TgSt) (k : TgSt → TgOut) : (TgOut.next st).round k = k st := rfl
theorem tgcont_round (st : TgSt) (k : TgSt → TgOut) : (TgOut.cont st).round k = k st := rfl
theorem tgbrk_round (st : TgSt) (k : TgSt → TgOut) : (TgOut.brk st).round k = .next st := rfl
theorem tgret_round (vs : List TgV) (w : TgW) (k : TgSt → TgOut) : (TgOut.ret vs w).round k = .ret vs w := rfl
theorem tgexit_round (c : Int) (w : TgW) (k : TgSt → TgOut) : (TgOut.exit c w).round k = .exit c w := rfl
theorem tgpanic_round (k : TgSt → TgOut) : TgOut.panic.round k = .panic := rfl
theorem tgIf_true (a b : TgOut) : tgIf (.bool true) a b = a := rfl
theorem tgIf_false (a b : TgOut) : tgIf (.bool false) a b = b := rfl
theorem tgset_vars (st : TgSt) (x y : TgVar) (v : TgV) : (st.set x v).vars y = if y = x then v else st.vars y := rfl
theorem tgset_w (st : TgSt) (x : TgVar) (v : TgV) : (st.set x v).w = st.w := rfl
theorem tgsetAll_nil (st : TgSt) : st.setAll [] [] = some st := rfl
theorem tgsetAll_cons (st : TgSt) (x : TgVar) (xs : List TgVar) (v : TgV) (vs : List TgV) : st.setAll (x :: xs) (v :: vs) = (st.set x v).setAll xs vs := rfl
theorem tgbindAll_nil (st : TgSt) : st.bindAll [] [] = .next st := rfl
theorem tgbindAll_cons (st : TgSt) (x : TgVar) (xs : List TgVar) (v : TgV) (vs : List TgV) : st.bindAll (x :: xs) (v :: vs) = (st.set x v).bindAll xs vs := rfl
theorem tgMany_tuple (st : TgSt) (xs : List TgVar) (vs : List TgV) : tgMany st xs (.tuple vs) = st.bindAll xs vs := rfl
theorem tgresults_ret (vs : List TgV) (w : TgW) (st : TgSt) (xs : List TgVar) : (TgOut.ret vs w).results st xs = ({ st with w := w } : TgSt).bindAll xs vs := rfl
theorem tgresults_exit (c : Int) (w : TgW) (st : TgSt) (xs : List TgVar) : (TgOut.exit c w).results st xs = .exit c w := rfl
theorem tgresults_panic (st : TgSt) (xs : List TgVar) : TgOut.panic.results st xs = .panic := rfl
theorem tgPrint_str (st : TgSt) (s : Bytes) : tgPrint st (.str s) = .next { st with w := { st.w with out := st.w.out ++ s } } := rfl
theorem tgExit_int (st : TgSt) (c : Int) : tgExit st (.int c) = .exit c st.w := rfl
theorem tgShort_or_ok (t u : Bool) : tgShort true (.bool t) (.ok (.bool u)) = .ok (.bool (t || u)) := by cases t <;> rfl
theorem tgShort_and_ok (t u : Bool) : tgShort false (.bool t) (.ok (.bool u)) = .ok (.bool (t && u)) := by cases t <;> rfl
theorem tgShort_and_false (r : GoR TgV) : tgShort false (.bool false) r = .ok (.bool false) := rfl
theorem tgShort_or_true (r : GoR TgV) : tgShort true (.bool true) r = .ok (.bool true) := rfl
theorem tgnot_bool (t : Bool) : (TgV.bool t).not = .ok (.bool (!t)) := rfl

section
variable {X : TgX} {st : TgSt} {rounds : Nat} {call : TgFn → List TgV → TgW → TgOut}
theorem tgget_0 : TgV.get (TgV.test t) .buffer = .ok (.str (t).buffer) := rfl
theorem tgget_1 : TgV.get (TgV.test t) .input = .ok (.tagged t.input []) := rfl
theorem tgget_2 : TgV.get (TgV.test t) .output = .ok (.str (t).output) := rfl
theorem tgget_3 : TgV.get (TgV.test t) .result = .ok (.tagged t.result t.resultLang) := rfl
theorem tgget_4 : TgV.get (TgV.test t) .error = .ok (.tagged t.error []) := rfl
theorem tgget_5 : TgV.get (TgV.test t) .inputText = .ok (.str (t).input) := rfl
theorem tgget_6 : TgV.get (TgV.test t) .resultText = .ok (.str (t).result) := rfl
theorem tgget_7 : TgV.get (TgV.test t) .resultLang = .ok (.str (t).resultLang) := rfl
theorem tgget_8 : TgV.get (TgV.test t) .errorText = .ok (.str (t).error) := rfl
theorem tgget_9 : TgV.get (TgV.result r) .name = .ok (.str (r).name) := rfl
theorem tgget_10 : TgV.get (TgV.result r) .passed = .ok (.bool (r).passed) := rfl
theorem tgget_11 : TgV.get (TgV.result r) .error = .ok (tgError r.error) := rfl
theorem tgget_12 : TgV.get (TgV.result r) .expected = .ok (.str (r).expected) := rfl
theorem tgget_13 : TgV.get (TgV.result r) .actual = .ok (.str (r).actual) := rfl
theorem tgget_14 : TgV.get (TgV.event ev) .instruction = .ok (.val (ev).1) := rfl
theorem tgget_15 : TgV.get (TgV.event ev) .buffer = .ok (.buffer (ev).2) := rfl
theorem tgget_16 : TgV.get (TgV.doc d) .name = .ok (.str (d).name) := rfl
theorem tgget_17 : TgV.get (TgV.doc d) .summary = .ok (.str (d).summary) := rfl
theorem tgget_18 : TgV.get (TgV.doc d) .description = .ok (.str (d).description) := rfl
theorem tgget_19 : TgV.get (TgV.doc d) .parameters = .ok (.params (d).parameters) := rfl
theorem tgget_20 : TgV.get (TgV.doc d) .examples = .ok (.examples (d).examples) := rfl
theorem tgget_21 : TgV.get (TgV.doc d) .seeAlso = .ok (.strs (d).seeAlso) := rfl
theorem tgget_22 : TgV.get (TgV.doc d) .category = .ok (.str (d).category) := rfl
theorem tgget_23 : TgV.get (TgV.param p) .name = .ok (.str (p).name) := rfl
theorem tgget_24 : TgV.get (TgV.param p) .type = .ok (.str (p).type) := rfl
theorem tgget_25 : TgV.get (TgV.param p) .description = .ok (.str (p).description) := rfl
theorem tgget_26 : TgV.get (TgV.param p) .optional = .ok (.bool (p).optional) := rfl
theorem tgget_27 : TgV.get (TgV.example x) .description = .ok (.str (x).description) := rfl
theorem tgget_28 : TgV.get (TgV.example x) .input = .ok (.str (x).input) := rfl
theorem tgget_29 : TgV.get (TgV.example x) .buffer = .ok (.str (x).buffer) := rfl
theorem tgget_30 : TgV.get (TgV.example x) .output = .ok (.str (x).output) := rfl
theorem tgget_31 : TgV.get (TgV.val (.str s)) .value = .ok (.str s) := rfl
theorem tgget_32 : TgV.get (TgV.val (.num x)) .value = .ok (.float x) := rfl
theorem tgget_33 : TgV.get (TgV.val (.sym s)) .name = .ok (.str s) := rfl
theorem tgsetField_0 : TgV.setField (.result r) .name (.str s) = .ok (.result { r with name := s }) := rfl
theorem tgsetField_1 : TgV.setField (.result r) .passed (.bool t) = .ok (.result { r with passed := t }) := rfl
theorem tgsetField_2 : TgV.setField (.result r) .error (.err e) = .ok (.result { r with error := some e }) := rfl
theorem tgsetField_3 : TgV.setField (.result r) .expected (.str s) = .ok (.result { r with expected := s }) := rfl
theorem tgsetField_4 : TgV.setField (.result r) .actual (.str s) = .ok (.result { r with actual := s }) := rfl
theorem tglen_0 : TgV.len (.strs l) = .ok (.int l.length) := rfl
theorem tglen_1 : TgV.len (.vals l) = .ok (.int l.length) := rfl
theorem tglen_2 : TgV.len (.docs l) = .ok (.int l.length) := rfl
theorem tglen_3 : TgV.len (.params l) = .ok (.int l.length) := rfl
theorem tglen_4 : TgV.len (.examples l) = .ok (.int l.length) := rfl
theorem tglen_5 : TgV.len (.docMap l) = .ok (.int l.length) := rfl
theorem tgitems_0 : TgV.items (.strs l) = .ok (l.map .str) := rfl
theorem tgitems_1 : TgV.items (.results l) = .ok (l.map .result) := rfl
theorem tgitems_2 : TgV.items (.docs l) = .ok (l.map .doc) := rfl
theorem tgitems_3 : TgV.items (.params l) = .ok (l.map .param) := rfl
theorem tgitems_4 : TgV.items (.examples l) = .ok (l.map .example) := rfl
theorem tgentries_0 : TgV.entries (.docMap m) = .ok (m.map fun d => (d.name, .doc d)) := rfl
theorem tgentries_1 : TgV.entries (.groups m) = .ok (m.map fun p => (p.1, .docs p.2)) := rfl
theorem tgentries_2 : TgV.entries (.flags m) = .ok (m.map fun p => (p.1, .bool p.2)) := rfl
theorem tgindex_0 : TgV.index (.vals l) (.int i) = (GoR.orPanic (goAt l i)).bind fun v => .ok (.val v) := rfl
theorem tgindex_1 : TgV.index (.strs l) (.int i) = (GoR.orPanic (goAt l i)).bind fun s => .ok (.str s) := rfl
theorem tgindex_2 : TgV.index (.groups m) (.str k) = .ok (.docs (groupAt m k)) := rfl
theorem tgappend_0 : TgV.append (.strs l) (.str s) = .ok (.strs (l ++ [s])) := rfl
theorem tgappend_1 : TgV.append (.results l) (.result r) = .ok (.results (l ++ [r])) := rfl
theorem tgappend_2 : TgV.append (.docs l) (.doc d) = .ok (.docs (l ++ [d])) := rfl
theorem tgsetAt_0 : TgV.setAt (.groups m) (.str k) (.docs l) = .ok (.groups (putAt k l m)) := rfl
theorem tgsetAt_1 : TgV.setAt (.flags m) (.str k) (.bool t) = .ok (.flags (putAt k t m)) := rfl
theorem tgop_0 : GoOp.applyTg .eq (a) (b) = (a.eq b).bind fun t => .ok (.bool t) := rfl
theorem tgop_1 : GoOp.applyTg .ne (a) (b) = (a.eq b).bind fun t => .ok (.bool (!t)) := rfl
theorem tgop_2 : GoOp.applyTg .add (.int a) (.int b) = .ok (.int (a + b)) := rfl
theorem tgop_3 : GoOp.applyTg .sub (.int a) (.int b) = .ok (.int (a - b)) := rfl
theorem tgop_4 : GoOp.applyTg .lt (.int a) (.int b) = .ok (.bool (a < b)) := rfl
theorem tgop_5 : GoOp.applyTg .le (.int a) (.int b) = .ok (.bool (a ≤ b)) := rfl
theorem tgop_6 : GoOp.applyTg .gt (.int a) (.int b) = .ok (.bool (b < a)) := rfl
theorem tgop_7 : GoOp.applyTg .ge (.int a) (.int b) = .ok (.bool (b ≤ a)) := rfl
theorem tgop_8 : GoOp.applyTg .add (.str a) (.str b) = .ok (.str (a ++ b)) := rfl
theorem tgeq_ints : TgV.eq (.int a) (.int b) = .ok (decide (a = b)) := rfl
theorem tgeq_strs : TgV.eq (.str a) (.str b) = .ok (decide (a = b)) := rfl
theorem tgeq_floats : TgV.eq (.float a) (.float b) = .ok (F64.goEq a b) := rfl
theorem tgeq_nil_nil : TgV.eq (.nil) .nil = .ok true := rfl
theorem tgeq_nil_err : TgV.eq (.err e) .nil = .ok false := rfl
theorem tgeq_nil_val : TgV.eq (.val v) .nil = .ok false := rfl
theorem tgeq_nil_hoo : TgV.eq (.hook) .nil = .ok false := rfl
theorem tgpieces_nil : tgPieces [] = .ok [] := rfl
theorem tgpieces_str : tgPieces (.str s :: r) = (tgPieces r).bind fun t => .ok (s ++ t) := rfl
theorem tgpieces_err : tgPieces (.err s :: r) = (tgPieces r).bind fun t => .ok (s ++ t) := rfl
theorem tgError_some : tgError (some e) = .err e := rfl
theorem tgError_none : tgError none = .nil := rfl
theorem tgap_0 : TgP.apply X .len [v] = v.len := rfl
theorem tgap_1 : TgP.apply X .index [v, i] = v.index i := rfl
theorem tgap_2 : TgP.apply X .append [l, v] = l.append v := rfl
theorem tgap_3 : TgP.apply X .errorf l = (tgPieces l).bind fun s => .ok (.err s) := rfl
theorem tgap_4 : TgP.apply X .sprintf l = (tgPieces l).bind fun s => .ok (.str s) := rfl
theorem tgap_5 : TgP.apply X .decimal [.int n] = .ok (.str (intDec n)) := rfl
theorem tgap_6 : TgP.apply X .quote [.str s] = .ok (.str (Texted.quote s)) := rfl
theorem tgap_7 : TgP.apply X .fmtG [.float r] = .ok (.str (Texted.fmtG r)) := rfl
theorem tgap_8 : TgP.apply X .errorText [.err e] = .ok (.str e) := rfl
theorem tgap_9 : TgP.apply X .int [.float r] = .ok (.int r.toInt) := rfl
theorem tgap_10 : TgP.apply X .float64 [.int n] = .ok (.float (F64.ofInt n)) := rfl
theorem tgap_11 : TgP.apply X (.field f) [v] = v.get f := rfl
theorem tgap_12 : TgP.apply X (.isA t) [.val v] = .ok (.bool (t.isValue v)) := rfl
theorem tgap_13 : TgP.apply X (.isA t) [.nil] = .panic := rfl
theorem tgap_14 : TgP.apply X (.as t) [.val v] = tgAs t v := rfl
theorem tgap_15 : TgP.apply X .listLen [.val (.list l)] = .ok (.int l.length) := rfl
theorem tgap_16 : TgP.apply X .listGet [.val (.list l), .int i] = .ok (tgGot (goAt l i)) := rfl
theorem tgap_17 : TgP.apply X .verb [.val v] = .ok (.str v.toStr) := rfl
theorem tgap_18 : TgP.apply X .newBuffer [.str s] = .ok (.buffer (Texted.newBuffer s)) := rfl
theorem tgap_19 : TgP.apply X .bufferString [.buffer b] = .ok (.str b.content) := rfl
theorem tgap_20 : TgP.apply X .point [.buffer b] = .ok (.int b.point) := rfl
theorem tgap_21 : TgP.apply X .mark [.buffer b] = .ok (.int b.mark) := rfl
theorem tgap_22 : TgP.apply X .newEnv [] = .ok (.env defaultEnv) := rfl
theorem tgap_23 : TgP.apply X .newTestCase [.str b, .tagged i u0, .str o, .tagged r lang, .tagged e u1] = .ok (.test ⟨b, i, o, r, lang, e⟩) := rfl
theorem tgap_24 : TgP.apply X .newTestResult [.str n, .bool p, .nil, .str e, .str a] = .ok (.result ⟨n, p, none, e, a⟩) := rfl
theorem tgap_25 : TgP.apply X .newTestResult [.str n, .bool p, .err m, .str e, .str a] = .ok (.result ⟨n, p, some m, e, a⟩) := rfl
theorem tgap_26 : TgP.apply X .writeString [.builder s, .str t] = .ok (.builder (s ++ t)) := rfl
theorem tgap_27 : TgP.apply X .builderString [.builder s] = .ok (.str s) := rfl
theorem tgap_28 : TgP.apply X .trimSpace [.str s] = .ok (.str (Texted.trimSpace s)) := rfl
theorem tgap_29 : TgP.apply X .trim [.str s, .str t] = .ok (.str (trimSet s t)) := rfl
theorem tgap_30 : TgP.apply X .contains [.str s, .str t] = .ok (.bool (containsSub s t)) := rfl
theorem tgap_31 : TgP.apply X .join [.strs l, .str s] = .ok (.str (joinWith s l)) := rfl
theorem tgap_32 : TgP.apply X .title [.str s] = .ok (.str (strTitle X.title s)) := rfl
theorem tgap_33 : TgP.apply X .pathBase [.str s] = .ok (.str (Texted.pathBase s)) := rfl
theorem tgap_34 : TgP.apply X .matchString [.str p, .str s] = .ok (tgMatch s (Ext.compile p)) := rfl
theorem tgap_35 : TgP.apply X .parseString [.str s] = tgParsed (Texted.parseString s) := rfl
theorem tgap_36 : TgP.apply X .parseFormat [.str f, .str s] = tgParsed (Texted.parseFormat f s) := rfl
theorem tgap_37 : TgP.apply X .equal [.val a, .val b] = .ok (.bool (goEqual a b)) := rfl
theorem tgap_38 : TgP.apply X .equal [.nil, .val u0] = .ok (.bool false) := rfl
theorem tgap_39 : TgP.apply X .lookup [.docMap m, .str k] = .ok (tgFound (m.lookup k)) := rfl
theorem tgap_40 : TgP.apply X .getString [.request j, .str k, .str d] = .ok (.str (Texted.getString j k d)) := rfl
theorem tgap_41 : TgP.apply X .getBool [.request j, .str k, .bool d] = .ok (.bool (Texted.getBool j k d)) := rfl
theorem tgap_42 : TgP.apply X .toolText [.str s] = .ok (.tool (.text s)) := rfl
theorem tgap_43 : TgP.apply X .toolError [.str s] = .ok (.tool (.error s)) := rfl
theorem tgeval_var_y : TgE.eval X st (.var y) = .ok (st.vars y) := rfl
theorem tgeval_int_n : TgE.eval X st (.int n) = .ok (.int n) := rfl
theorem tgeval_str_s : TgE.eval X st (.str s) = .ok (.str s) := rfl
theorem tgeval_bool_t : TgE.eval X st (.bool t) = .ok (.bool t) := rfl
theorem tgeval_nil : TgE.eval X st (.nil) = .ok .nil := rfl
theorem tgeval_noVals : TgE.eval X st (.noVals) = .ok (.vals []) := rfl
theorem tgeval_noStrs : TgE.eval X st (.noStrs) = .ok (.strs []) := rfl
theorem tgeval_noResults : TgE.eval X st (.noResults) = .ok (.results []) := rfl
theorem tgeval_noDocs : TgE.eval X st (.noDocs) = .ok (.docs []) := rfl
theorem tgeval_noText : TgE.eval X st (.noText) = .ok (.builder []) := rfl
theorem tgeval_noGroups : TgE.eval X st (.noGroups) = .ok (.groups []) := rfl
theorem tgeval_noFlags : TgE.eval X st (.noFlags) = .ok (.flags []) := rfl
theorem tgeval_hook : TgE.eval X st (.hook) = .ok .hook := rfl
theorem tgeval_registry : TgE.eval X st (.registry) = .ok (.docMap st.w.reg) := rfl
theorem tgeval_glob : TgE.eval X st (.glob) = .ok (.tuple [.strs (globTests X.names), .nil]) := rfl
theorem tgeval_bin_or_a_b : TgE.eval X st (.bin .or a b) = (a.eval X st).bind fun v => tgShort true v (b.eval X st) := rfl
theorem tgeval_bin_and_a_b : TgE.eval X st (.bin .and a b) = (a.eval X st).bind fun v => tgShort false v (b.eval X st) := rfl
theorem tgeval_eq : TgE.eval X st (.bin .eq a b) = (a.eval X st).bind fun v => (b.eval X st).bind fun w => GoOp.applyTg .eq v w := rfl
theorem tgeval_ne : TgE.eval X st (.bin .ne a b) = (a.eval X st).bind fun v => (b.eval X st).bind fun w => GoOp.applyTg .ne v w := rfl
theorem tgeval_lt : TgE.eval X st (.bin .lt a b) = (a.eval X st).bind fun v => (b.eval X st).bind fun w => GoOp.applyTg .lt v w := rfl
theorem tgeval_le : TgE.eval X st (.bin .le a b) = (a.eval X st).bind fun v => (b.eval X st).bind fun w => GoOp.applyTg .le v w := rfl
theorem tgeval_gt : TgE.eval X st (.bin .gt a b) = (a.eval X st).bind fun v => (b.eval X st).bind fun w => GoOp.applyTg .gt v w := rfl
theorem tgeval_ge : TgE.eval X st (.bin .ge a b) = (a.eval X st).bind fun v => (b.eval X st).bind fun w => GoOp.applyTg .ge v w := rfl
theorem tgeval_add : TgE.eval X st (.bin .add a b) = (a.eval X st).bind fun v => (b.eval X st).bind fun w => GoOp.applyTg .add v w := rfl
theorem tgeval_sub : TgE.eval X st (.bin .sub a b) = (a.eval X st).bind fun v => (b.eval X st).bind fun w => GoOp.applyTg .sub v w := rfl
theorem tgeval_not_a : TgE.eval X st (.not a) = (a.eval X st).bind TgV.not := rfl
theorem tgeval_call_p_args : TgE.eval X st (.call p args) = (args.eval X st).bind (p.apply X) := rfl
theorem tgevals_nil : TgEs.eval X st (.nil) = .ok [] := rfl
theorem tgevals_cons : TgEs.eval X st (.cons e es) = (e.eval X st).bind fun v => (es.eval X st).bind fun vs => .ok (v :: vs) := rfl
theorem tgexec_skip : TgS.exec X rounds call (.skip) st = .next st := rfl
theorem tgexec_seq : TgS.exec X rounds call (.seq a b) st = (a.exec X rounds call st).andThen fun st => b.exec X rounds call st := rfl
theorem tgexec_set : TgS.exec X rounds call (.set y e) st = (e.eval X st).runTg fun v => .next (st.set y v) := rfl
theorem tgexec_setMany : TgS.exec X rounds call (.setMany ys e) st = (e.eval X st).runTg (tgMany st ys) := rfl
theorem tgexec_setField : TgS.exec X rounds call (.setField y f e) st = (e.eval X st).runTg fun v => ((st.vars y).setField f v).runTg fun v => .next (st.set y v) := rfl
theorem tgexec_setAt : TgS.exec X rounds call (.setAt y k e) st = (k.eval X st).runTg fun k => (e.eval X st).runTg fun v => ((st.vars y).setAt k v).runTg fun v => .next (st.set y v) := rfl
theorem tgexec_evalTrace : TgS.exec X rounds call (.evalTrace y err p e b h) st = (p.eval X st).runTg fun p => (e.eval X st).runTg fun e => (h.eval X st).runTg fun h => tgEval (call .traceHook) st y err b p e h := rfl
theorem tgexec_callFn : TgS.exec X rounds call (.callFn ys f args) st = (args.eval X st).runTg fun vs => (call f vs st.w).results st ys := rfl
theorem tgexec_print : TgS.exec X rounds call (.print e) st = (e.eval X st).runTg (tgPrint st) := rfl
theorem tgexec_exit : TgS.exec X rounds call (.exit e) st = (e.eval X st).runTg (tgExit st) := rfl
theorem tgexec_if_ : TgS.exec X rounds call (.if_ c a b) st = (c.eval X st).runTg fun v => tgIf v (a.exec X rounds call st) (b.exec X rounds call st) := rfl
theorem tgexec_while : TgS.exec X rounds call (.while c post body) st = tgLoop (fun st => c.eval X st) (fun st => body.exec X rounds call st) (fun st => post.exec X rounds call st) rounds st := rfl
theorem tgexec_range : TgS.exec X rounds call (.range i y e body) st = (e.eval X st).runTg fun v => v.items.runTg fun l => tgRange (fun st => body.exec X rounds call st) i y 0 l st := rfl
theorem tgexec_rangeMap : TgS.exec X rounds call (.rangeMap k y e body) st = (e.eval X st).runTg fun v => v.entries.runTg fun l => tgEntries (fun st => body.exec X rounds call st) k y (inOrder l (X.order st.w.tick l.length)) { st with w := { st.w with tick := st.w.tick + 1 } } := rfl
theorem tgexec_sortDocs : TgS.exec X rounds call (.sortDocs y f) st = tgSortDocs X st y f := rfl
theorem tgexec_sortStrs : TgS.exec X rounds call (.sortStrs y) st = tgSortStrs st y := rfl
theorem tgexec_register : TgS.exec X rounds call (.register k d) st = (k.eval X st).runTg fun k => (d.eval X st).runTg fun d => tgRegister st k d := rfl
theorem tgexec_cont : TgS.exec X rounds call (.cont) st = .cont st := rfl
theorem tgexec_brk : TgS.exec X rounds call (.brk) st = .brk st := rfl
theorem tgexec_ret : TgS.exec X rounds call (.ret es) st = (es.eval X st).runTg fun vs => .ret vs st.w := rfl
end

/-- One statement or expression after the other. -/
macro "tg" "[" ts:Lean.Parser.Tactic.simpLemma,* "]" : tactic =>
  `(tactic| simp only [tgok_bind, tgok_run, tgpanic_bind, tgpanic_run, tgorPanic, tgnext_andThen, tgcont_andThen, tgbrk_andThen, tgret_andThen, tgexit_andThen,
    tgpanic_andThen, tgnext_round, tgcont_round, tgbrk_round, tgret_round, tgexit_round, tgpanic_round, tgIf_true, tgIf_false, tgset_vars, tgset_w, tgsetAll_nil, tgsetAll_cons,
    tgbindAll_nil, tgbindAll_cons, tgMany_tuple, tgresults_ret, tgresults_exit, tgresults_panic, tgPrint_str, tgExit_int, tgShort_or_ok, tgShort_and_ok, tgShort_and_false,
    tgShort_or_true, tgnot_bool, tgget_0, tgget_1, tgget_2, tgget_3, tgget_4, tgget_5, tgget_6, tgget_7, tgget_8, tgget_9, tgget_10, tgget_11, tgget_12, tgget_13, tgget_14, tgget_15, tgget_16, tgget_17, tgget_18, tgget_19, tgget_20, tgget_21, tgget_22, tgget_23, tgget_24, tgget_25, tgget_26, tgget_27, tgget_28, tgget_29, tgget_30, tgget_31, tgget_32, tgget_33, tgsetField_0, tgsetField_1, tgsetField_2, tgsetField_3, tgsetField_4, tglen_0, tglen_1, tglen_2, tglen_3, tglen_4, tglen_5, tgitems_0, tgitems_1, tgitems_2, tgitems_3, tgitems_4, tgentries_0, tgentries_1, tgentries_2, tgindex_0, tgindex_1, tgindex_2, tgappend_0, tgappend_1, tgappend_2, tgsetAt_0, tgsetAt_1, tgop_0, tgop_1, tgop_2, tgop_3, tgop_4, tgop_5, tgop_6, tgop_7, tgop_8, tgeq_ints, tgeq_strs, tgeq_floats, tgeq_nil_nil, tgeq_nil_err, tgeq_nil_val, tgeq_nil_hoo, tgpieces_nil, tgpieces_str, tgpieces_err, tgError_some, tgError_none, tgap_0, tgap_1, tgap_2, tgap_3, tgap_4, tgap_5, tgap_6, tgap_7, tgap_8, tgap_9, tgap_10, tgap_11, tgap_12, tgap_13, tgap_14, tgap_15, tgap_16, tgap_17, tgap_18, tgap_19, tgap_20, tgap_21, tgap_22, tgap_23, tgap_24, tgap_25, tgap_26, tgap_27, tgap_28, tgap_29, tgap_30, tgap_31, tgap_32, tgap_33, tgap_34, tgap_35, tgap_36, tgap_37, tgap_38, tgap_39, tgap_40, tgap_41, tgap_42, tgap_43, tgeval_var_y, tgeval_int_n, tgeval_str_s, tgeval_bool_t, tgeval_nil, tgeval_noVals, tgeval_noStrs, tgeval_noResults, tgeval_noDocs, tgeval_noText, tgeval_noGroups, tgeval_noFlags, tgeval_hook, tgeval_registry, tgeval_glob, tgeval_bin_or_a_b, tgeval_bin_and_a_b, tgeval_eq, tgeval_ne, tgeval_lt, tgeval_le, tgeval_gt, tgeval_ge, tgeval_add, tgeval_sub, tgeval_not_a, tgeval_call_p_args, tgevals_nil, tgevals_cons, tgexec_skip, tgexec_seq, tgexec_set, tgexec_setMany, tgexec_setField, tgexec_setAt, tgexec_evalTrace, tgexec_callFn, tgexec_print, tgexec_exit, tgexec_if_, tgexec_sortDocs, tgexec_sortStrs, tgexec_register, tgexec_cont, tgexec_brk, tgexec_ret, reduceCtorEq, if_true, if_false, Bool.not_true, Bool.not_false, eq_self, decide_true, decide_false, Bool.or_true, Bool.true_or,
    Bool.or_false, Bool.false_or, Bool.and_true, Bool.and_false, $ts,*])

theorem tgRun_succ (x : TgX) (n d : Nat) (f : TgFn) (args : List TgV) (w : TgW) (st : TgSt) (h : ({ vars := fun _ => .nil, w := w } : TgSt).setAll f.params args = some st) :
    tgRun x n (d + 1) f args w = f.body.exec x n (tgRun x n d) st := by
  unfold tgRun; rw [h]

/-- `range` over a slice, round by round. -/
theorem tgRange_cons (body : TgSt → TgOut) (i x : TgVar) (k : Nat) (v : TgV) (vs : List TgV) (st : TgSt) : tgRange body i x k (v :: vs) st =
    (body ((st.set i (.int k)).set x v)).round (tgRange body i x (k + 1) vs) := rfl
theorem tgRange_nil (body : TgSt → TgOut) (i x : TgVar) (k : Nat) (st : TgSt) : tgRange body i x k [] st = .next st := rfl

end Texted
