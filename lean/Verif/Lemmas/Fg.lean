import Verif.Model.FgRun
import Verif.Lemmas.Proc
/-
Symbolic execution of the functions of Model/FgSource.
-/
set_option linter.unusedSectionVars false
namespace Texted

/-! ### Programs step by step -/

section
variable {α β γ δ : Type}

theorem proc_ret_bind (a : α) (f : α → Proc β) : (Proc.ret a).bind f = f a := rfl
theorem proc_panic_bind (f : α → Proc β) : (Proc.panic).bind f = .panic := rfl
theorem proc_act_bind (a : Act) (k : Except Bytes Bytes → Proc α) (f : α → Proc β) : (Proc.act a k).bind f = .act a fun r => (k r).bind f := rfl

theorem proc_bind_assoc (p : Proc α) (f : α → Proc β) (g : β → Proc γ) : (p.bind f).bind g = p.bind fun a => (f a).bind g := by
  induction p with
  | ret a => rfl
  | panic => rfl
  | act a k ih => exact congrArg (Proc.act a) (funext fun r => ih r)

/-- Two programs take the same actions, whatever the replies are, crash together and end with results that belong together. -/
def Proc.Rel (R : α → β → Prop) : Proc α → Proc β → Prop
  | .ret a, .ret b => R a b
  | .panic, .panic => True
  | .act a k, .act b k' => a = b ∧ ∀ r, (k r).Rel R (k' r)
  | _, _ => False

theorem rel_ret {R : α → β → Prop} {a : α} {b : β} : Proc.Rel R (.ret a) (.ret b) ↔ R a b := Iff.rfl
theorem rel_panic {R : α → β → Prop} : Proc.Rel R .panic .panic ↔ True := Iff.rfl
theorem rel_act {R : α → β → Prop} {a b : Act} {k : Except Bytes Bytes → Proc α} {k' : Except Bytes Bytes → Proc β} :
    Proc.Rel R (.act a k) (.act b k') ↔ a = b ∧ ∀ r, (k r).Rel R (k' r) := Iff.rfl

/-- The replies: data or an error. -/
theorem forall_reply {P : Except Bytes Bytes → Prop} : (∀ r, P r) ↔ (∀ d, P (.ok d)) ∧ ∀ e, P (.error e) :=
  ⟨fun h => ⟨fun d => h _, fun e => h _⟩, fun h r => by cases r; exact h.2 _; exact h.1 _⟩

theorem rel_bind {R : α → β → Prop} {Q : γ → δ → Prop} {f : α → Proc γ} {g : β → Proc δ} :
    ∀ {p : Proc α} {q : Proc β}, p.Rel R q → (∀ a b, R a b → (f a).Rel Q (g b)) → (p.bind f).Rel Q (q.bind g)
  | .ret _, .ret _, h, hf => hf _ _ h
  | .panic, .panic, _, _ => trivial
  | .act _ _, .act _ _, h, hf => ⟨h.1, fun r => rel_bind (h.2 r) hf⟩
  | .ret _, .panic, h, _ => h.elim
  | .ret _, .act _ _, h, _ => h.elim
  | .panic, .ret _, h, _ => h.elim
  | .panic, .act _ _, h, _ => h.elim
  | .act _ _, .ret _, h, _ => h.elim
  | .act _ _, .panic, h, _ => h.elim

theorem rel_refl : ∀ (p : Proc α), p.Rel Eq p
  | .ret _ => rfl
  | .panic => trivial
  | .act _ k => ⟨rfl, fun r => rel_refl (k r)⟩

theorem rel_eq : ∀ {p q : Proc α}, p.Rel Eq q → p = q
  | .ret _, .ret _, h => congrArg _ h
  | .panic, .panic, _ => rfl
  | .act _ _, .act _ _, h => by obtain ⟨rfl, h⟩ := h; exact congrArg _ (funext fun r => rel_eq (h r))
  | .ret _, .panic, h => h.elim
  | .ret _, .act _ _, h => h.elim
  | .panic, .ret _, h => h.elim
  | .panic, .act _ _, h => h.elim
  | .act _ _, .ret _, h => h.elim
  | .act _ _, .panic, h => h.elim

theorem rel_mono {R Q : α → β → Prop} (h : ∀ a b, R a b → Q a b) : ∀ {p : Proc α} {q : Proc β}, p.Rel R q → p.Rel Q q
  | .ret _, .ret _, e => h _ _ e
  | .panic, .panic, _ => trivial
  | .act _ _, .act _ _, e => ⟨e.1, fun r => rel_mono h (e.2 r)⟩
  | .ret _, .panic, h => h.elim
  | .ret _, .act _ _, h => h.elim
  | .panic, .ret _, h => h.elim
  | .panic, .act _ _, h => h.elim
  | .act _ _, .ret _, h => h.elim
  | .act _ _, .panic, h => h.elim

/-- The same program first, then two that belong together. -/
theorem rel_bind_same {Q : γ → δ → Prop} {f : α → Proc γ} {g : α → Proc δ} {p : Proc α} (h : ∀ a, (f a).Rel Q (g a)) : (p.bind f).Rel Q (p.bind g) :=
  rel_bind (rel_refl p) fun a b e => e ▸ h a

end

section
variable {α β : Type}
theorem fgok_bind (a : α) (k : α → GoR β) : (GoR.ok a).bind k = k a := rfl
theorem fgok_run (a : α) (k : α → Proc FgOut) : (GoR.ok a).runFg k = k a := rfl
theorem fgpanic_bind (k : α → GoR β) : (GoR.panic).bind k = .panic := rfl
theorem fgpanic_run (k : α → Proc FgOut) : (GoR.panic).runFg k = .panic := rfl
theorem fgorPanic (a : α) : GoR.orPanic (some a) = .ok a := rfl
end

theorem fgnext_andThen (st : FgSt) (k : FgSt → Proc FgOut) : (FgOut.next st).andThen k = k st := rfl
theorem fgcont_andThen (st : FgSt) (k : FgSt → Proc FgOut) : (FgOut.cont st).andThen k = .ret (.cont st) := rfl
theorem fgbrk_andThen (st : FgSt) (k : FgSt → Proc FgOut) : (FgOut.brk st).andThen k = .ret (.brk st) := rfl
theorem fgret_andThen (vs : List FgV) (k : FgSt → Proc FgOut) : (FgOut.ret vs).andThen k = .ret (.ret vs) := rfl
theorem fgspin_andThen (k : FgSt → Proc FgOut) : FgOut.spin.andThen k = .ret .spin := rfl
theorem fgnext_round (st : FgSt) (k : FgSt → Proc FgOut) : (FgOut.next st).round k = k st := rfl
theorem fgcont_round (st : FgSt) (k : FgSt → Proc FgOut) : (FgOut.cont st).round k = k st := rfl
theorem fgbrk_round (st : FgSt) (k : FgSt → Proc FgOut) : (FgOut.brk st).round k = .ret (.next st) := rfl
theorem fgret_round (vs : List FgV) (k : FgSt → Proc FgOut) : (FgOut.ret vs).round k = .ret (.ret vs) := rfl
theorem fgIf_bool (t : Bool) (a b : Proc FgOut) : fgIf (.bool t) a b = if t then a else b := rfl

theorem fgSet_get (st : FgSt) (x y : FgVar) (v : FgV) : fgSet st x v y = if y = x then v else st y := rfl
theorem fgSetAll_nil (st : FgSt) : fgSetAll st [] [] = some st := rfl
theorem fgSetAll_cons (st : FgSt) (x : FgVar) (xs : List FgVar) (v : FgV) (vs : List FgV) : fgSetAll st (x :: xs) (v :: vs) = fgSetAll (fgSet st x v) xs vs := rfl
theorem fgBind_nil (st : FgSt) : fgBind st [] [] = .next st := rfl
theorem fgBind_cons (st : FgSt) (x : FgVar) (xs : List FgVar) (v : FgV) (vs : List FgV) : fgBind st (x :: xs) (v :: vs) = fgBind (fgSet st x v) xs vs := rfl
theorem fgGot_some (st : FgSt) (xs : List FgVar) (vs : List FgV) : fgGot st xs (some vs) = fgBind st xs vs := rfl
theorem fgresults_ret (vs : List FgV) (st : FgSt) (xs : List FgVar) : (FgOut.ret vs).results st xs = fgBind st xs vs := rfl
theorem fgresults_spin (st : FgSt) (xs : List FgVar) : FgOut.spin.results st xs = .spin := rfl

variable [Ext]

section
variable (st : FgSt) (a b e : FgE) (l : FgEs)
theorem fgeval_var (x : FgVar) : (FgE.var x).eval st = .ok (st x) := rfl
theorem fgeval_int (n : Int) : (FgE.int n).eval st = .ok (.int n) := rfl
theorem fgeval_str (s : Bytes) : (FgE.str s).eval st = .ok (.str s) := rfl
theorem fgeval_bool (t : Bool) : (FgE.bool t).eval st = .ok (.bool t) := rfl
theorem fgeval_nil : (FgE.nil).eval st = .ok .nil := rfl
theorem fgeval_noVals : (FgE.noVals).eval st = .ok (.vals []) := rfl
theorem fgeval_noStrs : (FgE.noStrs).eval st = .ok (.strs []) := rfl
theorem fgeval_noResults : (FgE.noResults).eval st = .ok (.results []) := rfl
theorem fgeval_noText : (FgE.noText).eval st = .ok (.builder []) := rfl
theorem fgeval_stdin : (FgE.stdin).eval st = .ok .stdin := rfl
theorem fgeval_stdout : (FgE.stdout).eval st = .ok .stdout := rfl
theorem fgeval_writer (k : FgW) : (FgE.writer k).eval st = .ok (.writer k) := rfl
theorem fgeval_or : (FgE.bin .or a b).eval st = (a.eval st).bind fun v => fgShort true v (b.eval st) := rfl
theorem fgeval_and : (FgE.bin .and a b).eval st = (a.eval st).bind fun v => fgShort false v (b.eval st) := rfl
theorem fgeval_eq : (FgE.bin .eq a b).eval st = (a.eval st).bind fun v => (b.eval st).bind fun w => GoOp.applyFg .eq v w := rfl
theorem fgeval_ne : (FgE.bin .ne a b).eval st = (a.eval st).bind fun v => (b.eval st).bind fun w => GoOp.applyFg .ne v w := rfl
theorem fgeval_gt : (FgE.bin .gt a b).eval st = (a.eval st).bind fun v => (b.eval st).bind fun w => GoOp.applyFg .gt v w := rfl
theorem fgeval_add : (FgE.bin .add a b).eval st = (a.eval st).bind fun v => (b.eval st).bind fun w => GoOp.applyFg .add v w := rfl
theorem fgeval_not : (FgE.not a).eval st = (a.eval st).bind FgV.not := rfl
theorem fgeval_call (p : FgP) : (FgE.call p l).eval st = (l.eval st).bind p.apply := rfl
theorem fgevals_nil : FgEs.nil.eval st = .ok [] := rfl
theorem fgevals_cons : (FgEs.cons e l).eval st = (e.eval st).bind fun v => (l.eval st).bind fun vs => .ok (v :: vs) := rfl
end

theorem fgShort_or (t u : Bool) : fgShort true (.bool t) (.ok (.bool u)) = .ok (.bool (t || u)) := by cases t <;> rfl
theorem fgShort_and (t u : Bool) : fgShort false (.bool t) (.ok (.bool u)) = .ok (.bool (t && u)) := by cases t <;> rfl
theorem fgnot (t : Bool) : (FgV.bool t).not = .ok (.bool (!t)) := rfl
theorem applyFg_eq (v w : FgV) : GoOp.applyFg .eq v w = (v.eq w).bind fun t => .ok (.bool t) := rfl
theorem applyFg_ne (v w : FgV) : GoOp.applyFg .ne v w = (v.eq w).bind fun t => .ok (.bool (!t)) := rfl
theorem applyFg_add (a b : Int) : GoOp.applyFg .add (.int a) (.int b) = .ok (.int (a + b)) := rfl
theorem applyFg_gt (a b : Int) : GoOp.applyFg .gt (.int a) (.int b) = .ok (.bool (b < a)) := rfl
theorem applyFg_cat (a b : Bytes) : GoOp.applyFg .add (.str a) (.str b) = .ok (.str (a ++ b)) := rfl
theorem fgeq_ints (a b : Int) : (FgV.int a).eq (.int b) = .ok (decide (a = b)) := rfl
theorem fgeq_strs (a b : Bytes) : (FgV.str a).eq (.str b) = .ok (decide (a = b)) := rfl
theorem fgeq_nil : FgV.nil.eq .nil = .ok true := rfl
theorem fgeq_err (e : Bytes) : (FgV.err e).eq .nil = .ok false := rfl
theorem fgpieces_nil : fgPieces [] = .ok [] := rfl
theorem fgpieces_str (s : Bytes) (r : List FgV) : fgPieces (.str s :: r) = (fgPieces r).bind fun t => .ok (s ++ t) := rfl
theorem fgpieces_err (s : Bytes) (r : List FgV) : fgPieces (.err s :: r) = (fgPieces r).bind fun t => .ok (s ++ t) := rfl
theorem fgError_some (e : Bytes) : fgError (some e) = .err e := rfl
theorem fgError_none : fgError none = .nil := rfl
theorem fgget_filename (r : FgResult) : r.get .filename = .str r.filename := rfl
theorem fgget_success (r : FgResult) : r.get .success = .bool r.success := rfl
theorem fgget_error (r : FgResult) : r.get .error = fgError r.error := rfl
theorem fgset_success (r : FgResult) (t : Bool) : (FgV.result r).setField .success (.bool t) = .ok (.result { r with success := t }) := rfl
theorem fgset_error (r : FgResult) (e : Bytes) : (FgV.result r).setField .error (.err e) = .ok (.result { r with error := some e }) := rfl
theorem fglen_str (s : Bytes) : (FgV.str s).len = .ok (.int s.length) := rfl
theorem fglen_strs (s : List Bytes) : (FgV.strs s).len = .ok (.int s.length) := rfl
theorem fgindex (l : List Bytes) (i : Int) : (FgV.strs l).index (.int i) = (GoR.orPanic (goAt l i)).bind fun s => .ok (.str s) := rfl
theorem fgappend_strs (l : List Bytes) (s : Bytes) : (FgV.strs l).append (.str s) = .ok (.strs (l ++ [s])) := rfl
theorem fgappend_results (l : List FgResult) (r : FgResult) : (FgV.results l).append (.result r) = .ok (.results (l ++ [r])) := rfl

theorem fp_len (v : FgV) : FgP.apply .len [v] = v.len := rfl
theorem fp_index (v i : FgV) : FgP.apply .index [v, i] = v.index i := rfl
theorem fp_append (v i : FgV) : FgP.apply .append [v, i] = v.append i := rfl
theorem fp_errorf (l : List FgV) : FgP.apply .errorf l = (fgPieces l).bind fun s => .ok (.err s) := rfl
theorem fp_sprintf (l : List FgV) : FgP.apply .sprintf l = (fgPieces l).bind fun s => .ok (.str s) := rfl
theorem fp_decimal (n : Int) : FgP.apply .decimal [.int n] = .ok (.str (intDec n)) := rfl
theorem fp_newBuffer (s : Bytes) : FgP.apply .newBuffer [.str s] = .ok (.buffer (newBuffer s)) := rfl
theorem fp_bufferString (b : Buffer) : FgP.apply .bufferString [.buffer b] = .ok (.str b.content) := rfl
theorem fp_builderString (b : Bytes) : FgP.apply .builderString [.builder b] = .ok (.str b) := rfl
theorem fp_newList (v : Value) : FgP.apply .newList [.val v] = .ok (.val (.list [v])) := rfl
theorem fp_sexpText (v : Value) : FgP.apply .sexpText [.val v] = .ok (.str v.toStr) := rfl
theorem fp_newEnv : FgP.apply .newEnv [] = .ok .env := rfl
theorem fp_newEditResult (f : Bytes) : FgP.apply .newEditResult [.str f] = .ok (.result ⟨f, false, none⟩) := rfl
theorem fp_field (f : FgField) (r : FgResult) : FgP.apply (.field f) [.result r] = .ok (r.get f) := rfl
theorem fp_getString (j : Json) (k d : Bytes) : FgP.apply .getString [.request j, .str k, .str d] = .ok (.str (getString j k d)) := rfl
theorem fp_getBool (j : Json) (k : Bytes) (d : Bool) : FgP.apply .getBool [.request j, .str k, .bool d] = .ok (.bool (getBool j k d)) := rfl
theorem fp_toolText (s : Bytes) : FgP.apply .toolText [.str s] = .ok (.tool (.text s)) := rfl
theorem fp_toolError (s : Bytes) : FgP.apply .toolError [.str s] = .ok (.tool (.error s)) := rfl
theorem fp_isWriter (k k' : FgW) : FgP.apply (.isWriter k) [.writer k'] = .ok (.bool (k = k')) := rfl

theorem fo_readFile (f : Bytes) : FgOp.run .readFile [.str f] = .act (.read f) fun r => .ret (some (fgData r)) := rfl
theorem fo_writeFile (f d : Bytes) : FgOp.run .writeFile [.str f, .str d] = .act (.write f d) fun r => .ret (some [fgErr r]) := rfl
theorem fo_readStdin : FgOp.run .readStdin [] = .act .stdin fun r => .ret (some (fgData r)) := rfl
theorem fo_print (t : Bytes) : FgOp.run .print [.str t] = .act (.print t) fun r => .ret (some [.nil, fgErr r]) := rfl
theorem fo_fprint (w : FgV) (t : Bytes) : FgOp.run .fprint [w, .str t] = fgFprint w t := rfl
theorem fo_encode (w : FgV) (j : Json) : FgOp.run .encode [w, .json j] = fgEncode w j := rfl
theorem fo_parseString (s : Bytes) : FgOp.run .parseString [.str s] = fgParsed (parseString s) := rfl
theorem fo_parseJSONString (s : Bytes) : FgOp.run .parseJSONString [.str s] = fgParsed (Res.ofExcept (parseJsonString s)) := rfl
theorem fo_parseReader : FgOp.run .parseReader [.stdin] = .act .stdin (fgParsedFrom parseString) := rfl
theorem fo_parseJSONReader : FgOp.run .parseJSONReader [.stdin] = .act .stdin (fgParsedFrom fun s => Res.ofExcept (parseJsonReader s)) := rfl
theorem fo_eval (p : List Value) (b : Buffer) : FgOp.run .eval [.vals p, .env, .buffer b] = fgEvaluated (eval defaultEnv p b) := rfl
theorem fo_valueToShellString (v : Value) : FgOp.run .valueToShellString [.val v] = .ret (some (fgText (shellString v))) := rfl
theorem fo_valueToJSON (v : Value) : FgOp.run .valueToJSON [.val v] = .ret (some [.json (valueToJson v), .nil]) := rfl
theorem fo_flagString (s : Bytes) (l : List Bytes) : FgOp.run .flagString [.cmd s l, .str (b! "script")] = .ret (some [.str s, .nil]) := rfl
theorem fo_flagStrings (s : Bytes) (l : List Bytes) : FgOp.run .flagStrings [.cmd s l, .str (b! "expression")] = .ret (some [.strs l, .nil]) := rfl
theorem fo_requireString (j : Json) (k : Bytes) : FgOp.run .requireString [.request j, .str k] = .ret (some (fgText (requireString j k))) := rfl
theorem fo_requireStrings (j : Json) (k : Bytes) : FgOp.run .requireStrings [.request j, .str k] = .ret (some (fgStrings (requireStringSlice j k))) := rfl
theorem fgFprint_builder (s t : Bytes) : fgFprint (.builder s) t = .ret (some [.nil, .nil, .builder (s ++ t)]) := rfl
theorem fgFprint_stdout (t : Bytes) : fgFprint .stdout t = .act (.print t) fun r => .ret (some [.nil, fgErr r, .stdout]) := rfl

section
variable (n : Nat) (call : FgFn → List FgV → Proc FgOut) (st : FgSt)
theorem fgexec_skip : FgS.exec n call .skip st = .ret (.next st) := rfl
theorem fgexec_seq (a b : FgS) : FgS.exec n call (.seq a b) st = (a.exec n call st).bind fun o => o.andThen fun st => b.exec n call st := rfl
theorem fgexec_set (x : FgVar) (e : FgE) : FgS.exec n call (.set x e) st = (e.eval st).runFg fun v => .ret (.next (fgSet st x v)) := rfl
theorem fgexec_setField (x : FgVar) (f : FgField) (e : FgE) : FgS.exec n call (.setField x f e) st =
    (e.eval st).runFg fun v => ((st x).setField f v).runFg fun v => .ret (.next (fgSet st x v)) := rfl
theorem fgexec_op (xs : List FgVar) (o : FgOp) (args : FgEs) : FgS.exec n call (.op xs o args) st =
    (args.eval st).runFg fun vs => (o.run vs).bind fun r => .ret (fgGot st xs r) := rfl
theorem fgexec_callFn (xs : List FgVar) (f : FgFn) (args : FgEs) : FgS.exec n call (.callFn xs f args) st =
    (args.eval st).runFg fun vs => (call f vs).bind fun o => .ret (o.results st xs) := rfl
theorem fgexec_if (c : FgE) (a b : FgS) : FgS.exec n call (.if_ c a b) st = (c.eval st).runFg fun v => fgIf v (a.exec n call st) (b.exec n call st) := rfl
theorem fgexec_range (i x : FgVar) (e : FgE) (body : FgS) : FgS.exec n call (.range i x e body) st =
    (e.eval st).runFg fun v => v.items.runFg fun l => fgRange (fun st => body.exec n call st) i x 0 l st := rfl
theorem fgexec_forever (body : FgS) : FgS.exec n call (.forever body) st = fgForever (fun st => body.exec n call st) n st := rfl
theorem fgexec_cont : FgS.exec n call .cont st = .ret (.cont st) := rfl
theorem fgexec_brk : FgS.exec n call .brk st = .ret (.brk st) := rfl
theorem fgexec_ret (l : FgEs) : FgS.exec n call (.ret l) st = (l.eval st).runFg fun vs => .ret (.ret vs) := rfl
end

theorem fgData_ok (d : Bytes) : fgData (.ok d) = [.str d, .nil] := rfl
theorem fgData_error (e : Bytes) : fgData (.error e) = [.str [], .err e] := rfl
theorem fgErr_ok (d : Bytes) : fgErr (.ok d) = .nil := rfl
theorem fgErr_error (e : Bytes) : fgErr (.error e) = .err e := rfl
theorem fgitems_vals (l : List Value) : (FgV.vals l).items = .ok (l.map .val) := rfl
theorem fgitems_strs (l : List Bytes) : (FgV.strs l).items = .ok (l.map .str) := rfl
theorem fgitems_results (l : List FgResult) : (FgV.results l).items = .ok (l.map .result) := rfl
theorem fgParsed_ok (p : List Value) : fgParsed (.ok p) = .ret (some [.vals p, .nil]) := rfl
theorem fgParsed_err (e : Bytes) : fgParsed (.err e) = .ret (some [.vals [], .err e]) := rfl
theorem fgParsed_panic : fgParsed .panic = .panic := rfl
theorem fgEvaluated_ok (v : Value) (b : Buffer) : fgEvaluated (.ok v, b) = .ret (some [.val v, .nil, .buffer b]) := rfl
theorem fgEvaluated_err (e : ExecutionError) (b : Buffer) : fgEvaluated (.err e, b) = .ret (some [.nil, .err e.message, .buffer b]) := rfl
theorem fgEvaluated_panic (b : Buffer) : fgEvaluated (.panic, b) = .panic := rfl
theorem fgText_ok (t : Bytes) : fgText (.ok t) = [.str t, .nil] := rfl
theorem fgText_error (e : Bytes) : fgText (.error e) = [.str [], .err e] := rfl
theorem fgStrings_ok (t : List Bytes) : fgStrings (.ok t) = [.strs t, .nil] := rfl
theorem fgStrings_error (e : Bytes) : fgStrings (.error e) = [.strs [], .err e] := rfl
theorem fgDec_ofNat (k : Nat) : intDec (k : Int) = natDec k := by
  rw [intDec, if_neg (by omega)]; rfl
theorem intDec_succ (k : Nat) : intDec ((k : Int) + 1) = natDec (k + 1) := fgDec_ofNat (k + 1)
theorem nl_byte : nl = 10 := rfl

/-- One statement or expression after the other. -/
macro "fg" "[" ts:Lean.Parser.Tactic.simpLemma,* "]" : tactic =>
  `(tactic| simp only [proc_ret_bind, proc_panic_bind, proc_act_bind, proc_bind_assoc, rel_ret, rel_panic, rel_act, fgok_bind, fgok_run, fgpanic_bind, fgpanic_run, fgorPanic,
    fgnext_andThen, fgcont_andThen, fgbrk_andThen, fgret_andThen, fgspin_andThen, fgnext_round, fgcont_round, fgbrk_round, fgret_round, fgIf_bool, fgSet_get, fgSetAll_nil, fgSetAll_cons, fgBind_nil, fgBind_cons,
    fgGot_some, fgresults_ret, fgresults_spin, fgeval_var, fgeval_int, fgeval_str, fgeval_bool, fgeval_nil, fgeval_noVals, fgeval_noStrs, fgeval_noResults, fgeval_noText, fgeval_stdin,
    fgeval_stdout, fgeval_writer, fgeval_or, fgeval_and, fgeval_eq, fgeval_ne, fgeval_gt, fgeval_add, fgeval_not, fgeval_call, fgevals_nil, fgevals_cons, fgShort_or, fgShort_and,
    fgnot, applyFg_eq, applyFg_ne, applyFg_add, applyFg_gt, applyFg_cat, fgeq_ints, fgeq_strs, fgeq_nil, fgeq_err, fgpieces_nil, fgpieces_str, fgpieces_err, fgError_some, fgError_none,
    fgget_filename, fgget_success, fgget_error, fgset_success, fgset_error, fglen_str, fglen_strs, fgindex, fgappend_strs, fgappend_results, fp_len, fp_index, fp_append, fp_errorf,
    fp_sprintf, fp_decimal, fp_newBuffer, fp_bufferString, fp_builderString, fp_newList, fp_sexpText, fp_newEnv, fp_newEditResult, fp_field, fp_getString, fp_getBool, fp_toolText,
    fp_toolError, fp_isWriter, fo_readFile, fo_writeFile, fo_readStdin, fo_print, fo_fprint, fo_encode, fo_parseString, fo_parseJSONString, fo_parseReader, fo_parseJSONReader, fo_eval,
    fo_valueToShellString, fo_valueToJSON, fo_flagString, fo_flagStrings, fo_requireString, fo_requireStrings, fgFprint_builder, fgFprint_stdout, fgexec_skip, fgexec_seq, fgexec_set,
    fgexec_setField, fgexec_op, fgexec_callFn, fgexec_if, fgexec_cont, fgexec_brk, fgexec_ret, fgData_ok, fgData_error, fgErr_ok, fgErr_error, fgitems_vals, fgitems_strs,
    fgitems_results, fgParsed_ok, fgParsed_err, fgParsed_panic, fgEvaluated_ok, fgEvaluated_err, fgEvaluated_panic, fgText_ok, fgText_error, fgStrings_ok, fgStrings_error,
    reduceCtorEq, if_true, if_false, Bool.not_true, Bool.not_false, Bool.false_eq_true, eq_self, decide_true, decide_false, Bool.or_true, Bool.true_or, Bool.or_false, Bool.false_or,
    Bool.and_true, Bool.and_false, Bool.true_and, Bool.false_and, List.append_nil, List.nil_append, List.append_assoc, true_and, and_true, forall_const, $ts,*])

theorem fgRun_succ (n d : Nat) (f : FgFn) (args : List FgV) (st : FgSt) (h : fgSetAll (fun _ => .nil) f.params args = some st) :
    fgRun n (d + 1) f args = f.body.exec n (fgRun n d) st := by
  show (match fgSetAll (fun _ => .nil) f.params args with
    | some st => f.body.exec n (fgRun n d) st
    | none => .ret .stuck) = _
  rw [h]

/-! ### /repo/texted.go -/

/-- The two results of a function that returns a string and an error. -/
def fgRes : Res Bytes Bytes → Proc FgOut
  | .ok t => .ret (.ret [.str t, .nil])
  | .err e => .ret (.ret [.str [], .err e])
  | .panic => .panic

variable {n d : Nat}

theorem fg_IsValidFormat (f : Bytes) : fgRun n (d + 1) .IsValidFormat [.str f] = .ret (.ret [.bool (isValidFormat f)]) := by
  rw [fgRun_succ _ _ _ _ _ rfl]
  simp only [FgFn.body, fgIsValidFormat]
  fg []
  show _ = Proc.ret (FgOut.ret [.bool (decide (f = b! "shell") || decide (f = b! "sexp") || decide (f = b! "json"))])
  cases decide (f = b! "shell") <;> cases decide (f = b! "sexp") <;> cases decide (f = b! "json") <;> rfl

theorem fg_isValidFormat2 (f : Bytes) : fgRun n (d + 1) .isValidFormat [.str f] = .ret (.ret [.bool (isValidFormat f)]) := fg_IsValidFormat f

theorem fg_ExecuteScript (input script : Bytes) : fgRun n (d + 1) .ExecuteScript [.str input, .str script] = fgRes (executeScript input script) := by
  rw [fgRun_succ _ _ _ _ _ rfl]
  simp only [FgFn.body, fgExecuteScript]
  fg []
  rw [executeScript]
  cases parseString script with
  | err e => fg []; rfl
  | panic => rfl
  | ok p =>
    simp only [executeParsed, evalOn]
    fg []
    rcases eval defaultEnv p (newBuffer input) with ⟨r, b⟩
    cases r <;> fg [fgRes]

/-- A valid format is JSON, or one of the other two. -/
theorem valid_cases {f : Bytes} (h : isValidFormat f = true) : f = b! "json" ∨
    (¬ f = b! "json" ∧ (decide (f = b! "shell") || decide (f = b! "sexp")) = true) := by
  simp only [isValidFormat, Bool.or_eq_true, decide_eq_true_eq] at h ⊢
  rcases h with (h | h) | h
  · exact .inr ⟨h ▸ by decide, .inl h⟩
  · exact .inr ⟨h ▸ by decide, .inr h⟩
  · exact .inl h

theorem json_not_shell : ((b! "json") = (b! "shell")) = False := by decide
theorem json_not_sexp : ((b! "json") = (b! "sexp")) = False := by decide

theorem fg_ExecuteScriptWithFormat (input script format : Bytes) :
    fgRun n (d + 2) .ExecuteScriptWithFormat [.str input, .str script, .str format] = fgRes (executeScriptWithFormat input script format) := by
  rw [fgRun_succ _ _ _ _ _ rfl]
  simp only [FgFn.body, fgExecuteScriptWithFormat]
  fg [fg_IsValidFormat]
  rw [executeScriptWithFormat]
  cases hv : isValidFormat format with
  | false => fg [fgRes]
  | true =>
    fg []
    rw [executeParsed.eq_def, parseScript]
    rcases valid_cases hv with hj | ⟨hj, ho⟩
    · fg [hj, json_not_shell, json_not_sexp]
      cases Res.ofExcept (parseJsonString script) with
      | err e => fg [fgRes]
      | panic => fg [fgRes]
      | ok p =>
        simp only [evalOn]
        fg []
        rcases eval defaultEnv p (newBuffer input) with ⟨r, b⟩
        cases r <;> fg [fgRes]
    · fg [hj, ho]
      cases parseString script with
      | err e => fg [fgRes]
      | panic => fg [fgRes]
      | ok p =>
        simp only [evalOn]
        fg []
        rcases eval defaultEnv p (newBuffer input) with ⟨r, b⟩
        cases r <;> fg [fgRes]

/-- The error of a function, or nil. -/
def fgFails (p : Proc (Option Bytes)) : Proc FgOut := p.bind fun e => .ret (.ret [fgError e])

/-- `data, err` of `readFile`. -/
def fgRead (f : Bytes) : Except Bytes Bytes → FgOut
  | .ok d => .ret [.str d, .nil]
  | .error e => .ret [.str [], .err (b! "failed to read file " ++ (f ++ (b! ": " ++ e)))]

/-- The error of `writeFile`. -/
def fgWrote (f : Bytes) : Except Bytes Bytes → FgOut
  | .ok _ => .ret [.nil]
  | .error e => .ret [.err (b! "failed to write file " ++ (f ++ (b! ": " ++ e)))]

theorem fg_readFile (f : Bytes) : fgRun n (d + 1) .readFile [.str f] = .act (.read f) fun r => .ret (fgRead f r) := by
  rw [fgRun_succ _ _ _ _ _ rfl]
  simp only [FgFn.body, fgReadFile]
  fg []
  refine congrArg _ (funext fun r => ?_)
  cases r <;> fg [fgRead]

theorem fg_writeFile (f c : Bytes) : fgRun n (d + 1) .writeFile [.str f, .str c] = .act (.write f c) fun r => .ret (fgWrote f r) := by
  rw [fgRun_succ _ _ _ _ _ rfl]
  simp only [FgFn.body, fgWriteFile]
  fg []
  refine congrArg _ (funext fun r => ?_)
  cases r <;> fg [fgWrote]

theorem fg_EditFile (f script : Bytes) : fgRun n (d + 2) .EditFile [.str f, .str script] = fgFails (editFile f script) := by
  rw [fgRun_succ _ _ _ _ _ rfl]
  simp only [FgFn.body, fgEditFile, fgFails, editFile, editFileBy]
  fg [fg_readFile]
  refine congrArg _ (funext fun r => ?_)
  cases r with
  | error e => fg [fgRead]
  | ok c =>
    fg [fgRead, fg_ExecuteScript]
    cases executeScript c script with
    | err e => fg [fgRes]
    | panic => fg [fgRes]
    | ok t =>
      fg [fgRes, fg_writeFile]
      refine congrArg _ (funext fun r => ?_)
      cases r <;> fg [fgWrote]

theorem fg_EditFileWithFormat (f script format : Bytes) :
    fgRun n (d + 3) .EditFileWithFormat [.str f, .str script, .str format] = fgFails (editFileWithFormat f script format) := by
  rw [fgRun_succ _ _ _ _ _ rfl]
  simp only [FgFn.body, fgEditFileWithFormat, fgFails, editFileWithFormat, editFileBy]
  fg [fg_readFile]
  refine congrArg _ (funext fun r => ?_)
  cases r with
  | error e => fg [fgRead]
  | ok c =>
    fg [fgRead, fg_ExecuteScriptWithFormat]
    cases executeScriptWithFormat c script format with
    | err e => fg [fgRes]
    | panic => fg [fgRes]
    | ok t =>
      fg [fgRes, fg_writeFile]
      refine congrArg _ (funext fun r => ?_)
      cases r <;> fg [fgWrote]

/-- An `EditResult` as Go keeps it. -/
def fgResult (r : EditResult) : FgResult := ⟨r.filename, r.success, r.error⟩

/-- A loop whose rounds belong, one by one, to the steps of a program. -/
theorem fgRange_fold {β : Type} {body : FgSt → Proc FgOut} {i x : FgVar} {step : Bytes → Proc β} {I : List β → FgSt → Prop}
    (h : ∀ k f acc st, I acc st → (body (fgSet (fgSet st i (.int k)) x (.str f))).Rel (fun o b => ∃ st', (o = .next st' ∨ o = .cont st') ∧ I (acc ++ [b]) st') (step f)) :
    ∀ (l : List Bytes) (k : Nat) (acc : List β) (st : FgSt), I acc st →
      (fgRange body i x k (l.map .str) st).Rel (fun o bs => ∃ st', o = .next st' ∧ I (acc ++ bs) st')
        (l.foldr (fun f p => (step f).bind fun b => p.bind fun bs => .ret (b :: bs)) (.ret []))
  | [], _, acc, st, hi => ⟨st, rfl, by simpa using hi⟩
  | f :: l, k, acc, st, hi => by
    refine rel_bind (h k f acc st hi) fun o b hb => ?_
    obtain ⟨st', ho, hi'⟩ := hb
    have ih := fgRange_fold h l (k + 1) (acc ++ [b]) st' hi'
    have e : o.round (fgRange body i x (k + 1) (l.map .str)) = fgRange body i x (k + 1) (l.map .str) st' := by
      rcases ho with rfl | rfl <;> rfl
    rw [e]
    have : fgRange body i x (k + 1) (l.map .str) st' = (fgRange body i x (k + 1) (l.map .str) st').bind .ret := by
      generalize fgRange body i x (k + 1) (l.map .str) st' = p
      induction p with
      | ret a => rfl
      | panic => rfl
      | act a k ih => exact congrArg _ (funext fun r => ih r)
    rw [this]
    refine rel_bind ih fun o bs hb => ?_
    obtain ⟨st'', rfl, hi''⟩ := hb
    exact ⟨st'', rfl, by simpa using hi''⟩

/-- A loop, and what follows it, against a recursive program: `J` is what the rounds keep, for a ghost state. -/
theorem fgRange_rec {α σ : Type} {enc : α → FgV} {body : FgSt → Proc FgOut} {i x : FgVar} {fin : FgOut → Proc FgOut} (J : σ → FgSt → Prop)
    (model : Nat → List α → σ → Proc FgOut)
    (hnil : ∀ k s st, J s st → (fin (.next st)).Rel Eq (model k [] s))
    (hcons : ∀ k a l s st (rest : FgSt → Proc FgOut), J s st → (∀ s' st', J s' st' → ((rest st').bind fin).Rel Eq (model (k + 1) l s')) →
      ((body (fgSet (fgSet st i (.int k)) x (enc a))).bind fun o => (o.round rest).bind fin).Rel Eq (model k (a :: l) s)) :
    ∀ (l : List α) (k : Nat) (s : σ) (st : FgSt), J s st → ((fgRange body i x k (l.map enc) st).bind fin).Rel Eq (model k l s)
  | [], k, s, st, h => hnil k s st h
  | a :: l, k, s, st, h => by
    have := hcons k a l s st (fgRange body i x (k + 1) (l.map enc)) h fun s' st' h' => fgRange_rec J model hnil hcons l (k + 1) s' st' h'
    rw [← proc_bind_assoc] at this
    exact this

theorem editFilesBy_fold (edit : Bytes → Proc (Option Bytes)) : ∀ l, editFilesBy edit l =
    l.foldr (fun f p => ((edit f).bind fun e => .ret (EditResult.mk f e)).bind fun b => p.bind fun bs => .ret (b :: bs)) (.ret [])
  | [] => rfl
  | f :: l => by
    rw [editFilesBy, editFilesBy_fold edit l, List.foldr_cons, proc_bind_assoc]
    rfl

theorem fg_EditFiles (files : List Bytes) (script : Bytes) : fgRun n (d + 3) .EditFiles [.strs files, .str script] =
    (editFiles files script).bind fun rs => .ret (.ret [.results (rs.map fgResult), .nil]) := by
  rw [fgRun_succ _ _ _ _ _ rfl]
  simp only [FgFn.body, fgEditFiles]
  fg [fgexec_range]
  rw [editFiles, editFilesBy_fold]
  refine rel_eq (rel_bind (fgRange_fold (I := fun acc st => st .results = .results (acc.map fgResult) ∧ st .script = .str script) (fun k f acc st hi => ?_) files 0 [] _ ⟨?_, ?_⟩) fun o rs h => ?_)
  · fg [hi.1, hi.2, fg_EditFile, fgFails]
    refine rel_bind_same fun e => ?_
    cases e <;> fg [hi.1, hi.2] <;> exact ⟨_, .inl rfl, by fg [hi.1, hi.2]; simp [fgResult, EditResult.success]⟩
  · fg []; rfl
  · fg []
  · obtain ⟨st, rfl, hi⟩ := h
    fg [hi.1]

theorem fg_EditFilesWithFormat (files : List Bytes) (script format : Bytes) : fgRun n (d + 4) .EditFilesWithFormat [.strs files, .str script, .str format] =
    (editFilesWithFormat files script format).bind fun rs => .ret (.ret [.results (rs.map fgResult), .nil]) := by
  rw [fgRun_succ _ _ _ _ _ rfl]
  simp only [FgFn.body, fgEditFilesWithFormat]
  fg [fgexec_range]
  rw [editFilesWithFormat, editFilesBy_fold]
  refine rel_eq (rel_bind (fgRange_fold (I := fun acc st => st .results = .results (acc.map fgResult) ∧ st .script = .str script ∧ st .format = .str format) (fun k f acc st hi => ?_) files 0 [] _ ⟨?_, ?_, ?_⟩) fun o rs h => ?_)
  · obtain ⟨h1, h2, h3⟩ := hi
    fg [h1, h2, h3, fg_EditFileWithFormat, fgFails]
    refine rel_bind_same fun e => ?_
    cases e <;> fg [h1, h2, h3] <;> exact ⟨_, .inl rfl, by fg [h1, h2, h3]; simp [fgResult, EditResult.success]⟩
  · fg []; rfl
  · fg []
  · fg []
  · obtain ⟨st, rfl, hi⟩ := h
    fg [hi.1]

end Texted
