import Verif.Spec.Link
import Verif.Lemmas.FgMono
import Verif.Lemmas.Fg
import Verif.Props.PgSource
/-
The linked program against the program with the operations of the model.
-/
set_option linter.unusedSectionVars false
namespace Texted
open Spec

/-- As `Upto`, for the results of operations. -/
inductive UptoL : Proc LinkOut → Proc LinkOut → Prop
  | spin (q : Proc LinkOut) : UptoL (.ret .spin) q
  | ret (o : LinkOut) : UptoL (.ret o) (.ret o)
  | panic : UptoL .panic .panic
  | act (a : Act) {k k' : Except Bytes Bytes → Proc LinkOut} (h : ∀ r, UptoL (k r) (k' r)) : UptoL (.act a k) (.act a k')

theorem uptoL_refl (p : Proc LinkOut) : UptoL p p := by
  induction p with
  | ret o => exact .ret o
  | panic => exact .panic
  | act a k ih => exact .act a ih

theorem uptoL_put {p q : Proc LinkOut} (h : UptoL p q) (st : FgSt) (xs : List FgVar) :
    Upto (p.bind fun r => .ret (r.put st xs)) (q.bind fun r => .ret (r.put st xs)) := by
  induction h with
  | spin q => exact .spin _
  | ret o => exact .ret _
  | panic => exact .panic
  | act a _ ih => exact .act a ih

section
variable [Ext]

theorem upto_execBy {op op' : FgOp → List FgV → Proc LinkOut} (ho : ∀ o vs, UptoL (op o vs) (op' o vs)) {n n' : Nat} (hn : n ≤ n')
    {call call' : FgFn → List FgV → Proc FgOut} (hc : ∀ f vs, Upto (call f vs) (call' f vs)) :
    ∀ (s : FgS) (st : FgSt), Upto (s.execBy op n call st) (s.execBy op' n' call' st)
  | .skip, _ => upto_refl _
  | .seq a b, st => upto_bind (upto_execBy ho hn hc a st) rfl fun o => upto_andThen o fun st => upto_execBy ho hn hc b st
  | .set _ _, _ => upto_refl _
  | .setField _ _ _, _ => upto_refl _
  | .op xs o _, st => upto_runFg _ fun vs => uptoL_put (ho o vs) st xs
  | .callFn _ _ _, _ => upto_runFg _ fun _ => upto_bind (hc _ _) rfl fun _ => upto_refl _
  | .if_ _ a b, st => upto_runFg _ fun v => upto_if v (upto_execBy ho hn hc a st) (upto_execBy ho hn hc b st)
  | .range i x _ body, st => upto_runFg _ fun _ => upto_runFg _ fun l => upto_range (fun st => upto_execBy ho hn hc body st) i x l 0 st
  | .forever body, st => upto_forever (fun st => upto_execBy ho hn hc body st) hn st
  | .cont, _ => upto_refl _
  | .brk, _ => upto_refl _
  | .ret _, _ => upto_refl _

theorem upto_runBy {op op' : FgOp → List FgV → Proc LinkOut} (ho : ∀ o vs, UptoL (op o vs) (op' o vs)) {n n' : Nat} (hn : n ≤ n') :
    ∀ {d d' : Nat}, d ≤ d' → ∀ (f : FgFn) (args : List FgV), Upto (fgRunBy op n d f args) (fgRunBy op' n' d' f args)
  | 0, _, _, _, _ => .spin _
  | d + 1, 0, h, _, _ => absurd h (by omega)
  | d + 1, d' + 1, h, f, args => by
    rw [fgRunBy, fgRunBy]
    cases fgSetAll (fun _ => .nil) f.params args with
    | none => exact upto_refl _
    | some st => exact upto_execBy ho hn (fun f vs => upto_runBy ho hn (Nat.le_of_succ_le_succ h) f vs) f.body st

/-- The operations of the model. -/
def modelOp (o : FgOp) (vs : List FgV) : Proc LinkOut := (o.run vs).bind fun r => .ret (linkGot r)

theorem put_linkGot (st : FgSt) (xs : List FgVar) (r : Option (List FgV)) : (linkGot r).put st xs = fgGot st xs r := by cases r <;> rfl

theorem exec_model {n : Nat} {call call' : FgFn → List FgV → Proc FgOut} (hc : call = call') :
    ∀ (s : FgS), s.execBy modelOp n call = s.exec n call'
  | .skip => rfl
  | .seq a b => by funext st; simp only [FgS.execBy, FgS.exec, exec_model hc a, exec_model hc b]
  | .set _ _ => rfl
  | .setField _ _ _ => rfl
  | .op xs o _ => by funext st; simp only [FgS.execBy, FgS.exec, modelOp, proc_bind_assoc, proc_ret_bind, put_linkGot]
  | .callFn _ _ _ => by funext st; simp only [FgS.execBy, FgS.exec, hc]
  | .if_ _ a b => by funext st; simp only [FgS.execBy, FgS.exec, exec_model hc a, exec_model hc b]
  | .range i x _ body => by funext st; simp only [FgS.execBy, FgS.exec, exec_model hc body]
  | .forever body => by funext st; simp only [FgS.execBy, FgS.exec, exec_model hc body]
  | .cont => rfl
  | .brk => rfl
  | .ret _ => rfl

theorem run_modelOp (n : Nat) : ∀ (d : Nat), fgRunBy modelOp n d = fgRun n d
  | 0 => rfl
  | d + 1 => by
    funext f args
    rw [fgRunBy, fgRun]
    cases fgSetAll (fun _ => .nil) f.params args with
    | none => rfl
    | some st => show f.body.execBy modelOp n _ st = _; rw [exec_model (run_modelOp n d)]

/-! ### The operations -/

theorem ends_or {f : PgFn} {args : List PgV} {w : PgW} {o : PgOut} (h : GoEnds f args w o) (n d : Nat) : pgRun n d f args w = .spin ∨ pgRun n d f args w = o := by
  by_cases hs : pgRun n d f args w = .spin
  · exact .inl hs
  · exact .inr (C94_one_end.1 ⟨hs, n, d, rfl⟩ h)

theorem ends_even {f : PgFn} {args : List PgV} {w : PgW} {o : PgOut} (h : GoEnds f args w o) : ∃ k, ∀ k', k ≤ k' → pgRun k' k' f args w = o := by
  obtain ⟨ho, n, d, h⟩ := h
  exact ⟨max n d, fun k' hk => (C94_one_end (o' := o)).2 n d h ho k' k' (Nat.le_trans (Nat.le_max_left ..) hk) (Nat.le_trans (Nat.le_max_right ..) hk)⟩

/-- How an operation of the linked program compares with one of the model: it does the same if it is followed far enough, and else nothing. -/
def Approaches (P : Nat → Nat → Proc LinkOut) (q : Proc LinkOut) : Prop := (∀ n d, P n d = .ret .spin ∨ P n d = q) ∧ ∃ k, ∀ k', k ≤ k' → P k' k' = q

theorem approaches_of {f : PgFn} {args : List PgV} {w : PgW} {o : PgOut} (h : GoEnds f args w o) (g : PgOut → Proc LinkOut) (hg : g .spin = .ret .spin) :
    Approaches (fun n d => g (pgRun n d f args w)) (g o) := by
  constructor
  · intro n d
    dsimp only; rcases ends_or h n d with e | e <;> rw [e]
    · exact .inl hg
    · exact .inr rfl
  · obtain ⟨k, hk⟩ := ends_even h
    exact ⟨k, fun k' h' => by simp only [hk k' h']⟩

theorem approaches_parse {f : PgFn} {args : List PgV} {w : PgW} {r : Res Bytes (List Value)} (h : AnswersAll f args w r) :
    Approaches (fun n d => linkParsed (pgRun n d f args w)) ((fgParsed r).bind fun r => .ret (linkGot r)) := by
  cases r with
  | ok p => exact approaches_of h _ rfl
  | err e => exact approaches_of h _ rfl
  | panic => exact approaches_of h _ rfl

theorem approaches_fitting {t : Bool} {P : Nat → Nat → Proc LinkOut} {q : Proc LinkOut} (h : t = true → Approaches P q) :
    Approaches (fun n d => fitting t (P n d)) (fitting t q) := by
  cases t with
  | true => exact h rfl
  | false => exact ⟨fun _ _ => .inl rfl, 0, fun _ _ => rfl⟩

theorem approaches_const (q : Proc LinkOut) : Approaches (fun _ _ => q) q := ⟨fun _ _ => .inr rfl, 0, fun _ _ => rfl⟩

theorem approaches_text {v : Value} {w : PgW} :
    Approaches (fun n d => linkText (pgRun n d .valueToShellString [.writer, .val v] w)) ((FgOp.run .valueToShellString [.val v]).bind fun r => .ret (linkGot r)) := by
  have h := C94_writers (w := w) v
  rw [fo_valueToShellString]
  cases hs : shellString v with
  | ok t => exact approaches_of (h.2.1 t hs) _ rfl
  | error e => exact approaches_of (h.2.2.1 e hs) _ rfl

theorem approaches_json {v : Value} {w : PgW} :
    Approaches (fun n d => linkJson (pgRun n d .valueToJSON [.writer, .val v] w)) ((FgOp.run .valueToJSON [.val v]).bind fun r => .ret (linkGot r)) := by
  rw [fo_valueToJSON]
  exact approaches_of (C94_writers (w := w) v).1 _ rfl

theorem approaches_error {e : ExecutionError} {b : Buffer} {w : PgW} :
    Approaches (fun n d => linkError b (pgRun n d .errorMessage [.xerr e] w)) (.ret (.got [.nil, .err e.message, .buffer b])) :=
  approaches_of (C94_errors [] [] 0 (.str []) (fun _ => none) e).2 _ rfl

theorem approaches_eval [LawfulExt] (L : Linking) (he : RunsGo L.env) {p : List Value} {b : Buffer} (hp : Held (Value.partsAll p)) (hb : Reached b)
    (hs : ∀ c ∈ scriptCalls defaultEnv p b, Small c.args c.buf) :
    Approaches (fun n d => (Linking.upTo L n d).evaluated (pgRun n d .Eval [.vals p, .env L.env, .buffer] (L.world b)))
      ((FgOp.run .eval [.vals p, .env, .buffer b]).bind fun r => .ret (linkGot r)) := by
  have h := (C94_eval (w := L.world b) L.env p hp).1
  have e : eval L.env p b = eval defaultEnv p b := (loop_go he p p 0 (.str []) b hb hs).2
  rw [show (L.world b).buf = b from rfl, e] at h
  rw [fo_eval]
  rcases hr : eval defaultEnv p b with ⟨r, b'⟩
  rw [hr] at h
  cases r with
  | ok v =>
    constructor
    · intro n d
      dsimp only; rcases ends_or h n d with e | e <;> rw [e]
      · exact .inl rfl
      · exact .inr rfl
    · obtain ⟨k, hk⟩ := ends_even h
      exact ⟨k, fun k' h' => by simp only [hk k' h']; rfl⟩
  | panic =>
    constructor
    · intro n d
      dsimp only; rcases ends_or h n d with e | e <;> rw [e]
      · exact .inl rfl
      · exact .inr rfl
    · obtain ⟨k, hk⟩ := ends_even h
      exact ⟨k, fun k' h' => by simp only [hk k' h']; rfl⟩
  | err x =>
    obtain ⟨m₁, k₂, m₂⟩ := approaches_error (e := x) (b := b') (w := L.world (newBuffer []))
    constructor
    · intro n d
      dsimp only; rcases ends_or h n d with e | e <;> rw [e]
      · exact .inl rfl
      · exact m₁ n d
    · obtain ⟨k, hk⟩ := ends_even h
      refine ⟨max k k₂, fun k' h' => ?_⟩
      simp only [hk k' (Nat.le_trans (Nat.le_max_left ..) h')]
      exact m₂ k' (Nat.le_trans (Nat.le_max_right ..) h')

/-- The operation, in the linked program. -/
def opBy (L : Linking) (o : FgOp) (vs : List FgV) (n d : Nat) : Proc LinkOut := (Linking.upTo L n d).op o vs

/-- Every operation other than reading a script from standard input. -/
theorem op_approaches [LawfulExt] {L : Linking} (hL : Linking.Real L) (o : FgOp) (vs : List FgV) (h : ¬ (o = .parseReader ∧ vs = [.stdin])) :
    Approaches (opBy L o vs) (fittingOp L.mem o vs) := by
  unfold opBy Linking.op
  split
  · exact approaches_fitting (t := L.mem.text _) fun h => approaches_parse (w := L.world (newBuffer [])) (C94_parse _ (hL.mem.text _ h)).2.1
  · exact approaches_fitting (t := L.mem.jsonText _) fun h =>
      approaches_parse (w := L.world (newBuffer [])) ((C94_json _ (hL.mem.jsonText _ h).1).1 (hL.mem.jsonText _ h).2)
  · exact absurd ⟨rfl, rfl⟩ h
  · exact approaches_fitting (t := L.mem.run _ _) fun h => approaches_eval L hL.env (hL.mem.run _ _ h).1 (hL.mem.run _ _ h).2.1 (hL.mem.run _ _ h).2.2
  · exact approaches_text (w := L.world (newBuffer []))
  · exact approaches_json (w := L.world (newBuffer []))
  · unfold fittingOp
    split
    all_goals first
      | exact approaches_const _
      | (exfalso; simp_all)

/-- Reading a script from standard input. -/
theorem reader_approaches {L : Linking} (hL : Linking.Real L) (r : Except Bytes Bytes) :
    Approaches (fun n d => (Linking.upTo L n d).parseFrom r) (match r with
      | .ok s => fitting (L.mem.text s) ((fgParsed (parseString s)).bind fun r => .ret (linkGot r))
      | .error e => .ret (.got [.vals [], .err e])) := by
  cases r with
  | ok s => exact approaches_fitting (t := L.mem.text s) fun h => approaches_parse (w := L.world (newBuffer [])) (C94_parse _ (hL.mem.text _ h)).1
  | error e => exact approaches_const _

theorem uptoL_of {p q : Proc LinkOut} (h : p = .ret .spin ∨ p = q) : UptoL p q := by
  rcases h with rfl | rfl
  · exact .spin _
  · exact uptoL_refl _

/-- An operation of the linked program does what the model's does, as far as it is followed. -/
theorem op_upto [LawfulExt] {L : Linking} (hL : Linking.Real L) (n d : Nat) (o : FgOp) (vs : List FgV) :
    UptoL ((Linking.upTo L n d).op o vs) (fittingOp L.mem o vs) := by
  by_cases h : o = .parseReader ∧ vs = [.stdin]
  · obtain ⟨rfl, rfl⟩ := h
    exact .act _ fun r => uptoL_of ((reader_approaches hL r).1 n d)
  · exact uptoL_of ((op_approaches hL o vs h).1 n d)

theorem uptoL_fitting (t : Bool) (p : Proc LinkOut) : UptoL (fitting t p) p := by
  cases t
  · exact .spin _
  · exact uptoL_refl _

theorem fitting_upto (m : Memory) (o : FgOp) (vs : List FgV) : UptoL (fittingOp m o vs) (modelOp o vs) := by
  unfold fittingOp
  split
  · exact uptoL_fitting _ _
  · exact uptoL_fitting _ _
  · refine .act _ fun r => ?_
    cases r
    · exact uptoL_refl _
    · exact uptoL_fitting _ _
  · exact uptoL_fitting _ _
  · exact uptoL_refl _

/-! ### Following the functions further and further -/

/-- What `q` can do, the programs `P k` can do from some `k` on. -/
structure Reaches {α : Type} (P : Nat → Proc α) (q : Proc α) : Prop where
  ends : ∀ w a w', Ends q w a w' → ∃ k, ∀ k', k ≤ k' → Ends (P k') w a w'
  sees : ∀ w w', Sees q w w' → ∃ k, ∀ k', k ≤ k' → Sees (P k') w w'

variable {α β : Type}

theorem reaches_same (q : Proc α) : Reaches (fun _ => q) q := ⟨fun _ _ _ h => ⟨0, fun _ _ => h⟩, fun _ _ h => ⟨0, fun _ _ => h⟩⟩

theorem reaches_bind {P : Nat → Proc α} {q : Proc α} {f : Nat → α → Proc β} {g : α → Proc β} (h : Reaches P q) (hf : ∀ a, Reaches (fun k => f k a) (g a)) :
    Reaches (fun k => (P k).bind (f k)) (q.bind g) := by
  constructor
  · intro w b w' he
    obtain ⟨a, w1, h1, h2⟩ := ends_bind.1 he
    obtain ⟨k₁, e₁⟩ := h.ends _ _ _ h1
    obtain ⟨k₂, e₂⟩ := (hf a).ends _ _ _ h2
    exact ⟨max k₁ k₂, fun k' hk => ends_bind.2 ⟨a, w1, e₁ k' (Nat.le_trans (Nat.le_max_left ..) hk), e₂ k' (Nat.le_trans (Nat.le_max_right ..) hk)⟩⟩
  · intro w w' he
    rcases sees_bind.1 he with h1 | ⟨a, w1, h1, h2⟩
    · obtain ⟨k, e⟩ := h.sees _ _ h1
      exact ⟨k, fun k' hk => sees_bind.2 (.inl (e k' hk))⟩
    · obtain ⟨k₁, e₁⟩ := h.ends _ _ _ h1
      obtain ⟨k₂, e₂⟩ := (hf a).sees _ _ h2
      exact ⟨max k₁ k₂, fun k' hk => sees_bind.2 (.inr ⟨a, w1, e₁ k' (Nat.le_trans (Nat.le_max_left ..) hk), e₂ k' (Nat.le_trans (Nat.le_max_right ..) hk)⟩)⟩

theorem reaches_act (a : Act) {P : Nat → Except Bytes Bytes → Proc α} {q : Except Bytes Bytes → Proc α} (h : ∀ r, Reaches (fun k => P k r) (q r)) :
    Reaches (fun k => .act a (P k)) (.act a q) := by
  constructor
  · intro w b w' he
    obtain ⟨r, w1, h1, h2⟩ := ends_act.1 he
    obtain ⟨k, e⟩ := (h r).ends _ _ _ h2
    exact ⟨k, fun k' hk => ends_act.2 ⟨r, w1, h1, e k' hk⟩⟩
  · intro w w' he
    rcases sees_act.1 he with h1 | ⟨r, w1, h1, h2⟩
    · exact ⟨0, fun _ _ => sees_act.2 (.inl h1)⟩
    · obtain ⟨k, e⟩ := (h r).sees _ _ h2
      exact ⟨k, fun k' hk => sees_act.2 (.inr ⟨r, w1, h1, e k' hk⟩)⟩

theorem reaches_approaches {P : Nat → Nat → Proc LinkOut} {q : Proc LinkOut} (h : Approaches P q) : Reaches (fun k => P k k) q := by
  obtain ⟨_, k, h⟩ := h
  exact ⟨fun w a w' e => ⟨k, fun k' hk => by rw [h k' hk]; exact e⟩, fun w w' e => ⟨k, fun k' hk => by rw [h k' hk]; exact e⟩⟩

/-- An operation of the linked program, followed far enough, does what the model's does on what fits into memory. -/
theorem op_reaches [LawfulExt] {L : Linking} (hL : Linking.Real L) (o : FgOp) (vs : List FgV) :
    Reaches (fun k => (Linking.upTo L k k).op o vs) (fittingOp L.mem o vs) := by
  by_cases h : o = .parseReader ∧ vs = [.stdin]
  · obtain ⟨rfl, rfl⟩ := h
    exact reaches_act .stdin fun r => reaches_approaches (reader_approaches hL r)
  · exact reaches_approaches (op_approaches hL o vs h)

theorem reaches_andThen (o : FgOut) {f : Nat → FgSt → Proc FgOut} {g : FgSt → Proc FgOut} (hf : ∀ st, Reaches (fun k => f k st) (g st)) :
    Reaches (fun k => o.andThen (f k)) (o.andThen g) := by
  cases o <;> first | exact hf _ | exact reaches_same _

theorem reaches_round (o : FgOut) {f : Nat → FgSt → Proc FgOut} {g : FgSt → Proc FgOut} (hf : ∀ st, Reaches (fun k => f k st) (g st)) :
    Reaches (fun k => o.round (f k)) (o.round g) := by
  cases o <;> first | exact hf _ | exact reaches_same _

theorem reaches_runFg (v : GoR α) {f : Nat → α → Proc FgOut} {g : α → Proc FgOut} (hf : ∀ a, Reaches (fun k => f k a) (g a)) :
    Reaches (fun k => v.runFg (f k)) (v.runFg g) := by
  cases v <;> first | exact hf _ | exact reaches_same _

theorem reaches_if (v : FgV) {a b : Nat → Proc FgOut} {a' b' : Proc FgOut} (ha : Reaches a a') (hb : Reaches b b') :
    Reaches (fun k => fgIf v (a k) (b k)) (fgIf v a' b') := by
  cases v with
  | bool t => cases t <;> assumption
  | _ => exact reaches_same _

theorem reaches_range {f : Nat → FgSt → Proc FgOut} {g : FgSt → Proc FgOut} (hf : ∀ st, Reaches (fun k => f k st) (g st)) (i x : FgVar) :
    ∀ (l : List FgV) (j : Nat) (st : FgSt), Reaches (fun k => fgRange (f k) i x j l st) (fgRange g i x j l st)
  | [], _, _ => reaches_same _
  | _ :: l, j, _ => reaches_bind (hf _) fun o => reaches_round o fun st => reaches_range hf i x l (j + 1) st

theorem reaches_forever {f : Nat → FgSt → Proc FgOut} {g : FgSt → Proc FgOut} (hf : ∀ st, Reaches (fun k => f k st) (g st)) :
    ∀ (n : Nat) (st : FgSt), Reaches (fun k => fgForever (f k) n st) (fgForever g n st)
  | 0, _ => reaches_same _
  | n + 1, st => reaches_bind (hf st) fun o => reaches_round o fun st => reaches_forever hf n st

theorem reaches_exec [LawfulExt] {L : Linking} (hL : Linking.Real L) {n : Nat} {call : Nat → FgFn → List FgV → Proc FgOut} {call' : FgFn → List FgV → Proc FgOut}
    (hc : ∀ f vs, Reaches (fun k => call k f vs) (call' f vs)) :
    ∀ (s : FgS) (st : FgSt), Reaches (fun k => s.execBy (Linking.upTo L k k).op n (call k) st) (s.execBy (fittingOp L.mem) n call' st)
  | .skip, _ => reaches_same _
  | .seq a b, st => reaches_bind (reaches_exec hL hc a st) fun o => reaches_andThen o fun st => reaches_exec hL hc b st
  | .set _ _, _ => reaches_same _
  | .setField _ _ _, _ => reaches_same _
  | .op _ o _, _ => reaches_runFg _ fun vs => reaches_bind (op_reaches hL o vs) fun _ => reaches_same _
  | .callFn _ _ _, _ => reaches_runFg _ fun _ => reaches_bind (hc _ _) fun _ => reaches_same _
  | .if_ _ a b, st => reaches_runFg _ fun v => reaches_if v (reaches_exec hL hc a st) (reaches_exec hL hc b st)
  | .range i x _ body, st => reaches_runFg _ fun _ => reaches_runFg _ fun l => reaches_range (fun st => reaches_exec hL hc body st) i x l 0 st
  | .forever body, st => reaches_forever (fun st => reaches_exec hL hc body st) n st
  | .cont, _ => reaches_same _
  | .brk, _ => reaches_same _
  | .ret _, _ => reaches_same _

theorem reaches_run [LawfulExt] {L : Linking} (hL : Linking.Real L) (n : Nat) :
    ∀ (d : Nat) (f : FgFn) (args : List FgV), Reaches (fun k => linkedRun (Linking.upTo L k k) n d f args) (fgRunBy (fittingOp L.mem) n d f args)
  | 0, _, _ => reaches_same _
  | d + 1, f, args => by
    simp only [linkedRun]
    unfold fgRunBy
    cases fgSetAll (fun _ => .nil) f.params args with
    | none => exact reaches_same _
    | some st => exact reaches_exec hL (fun f vs => reaches_run hL n d f vs) f.body st

end
end Texted
