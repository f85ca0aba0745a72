import Verif.Model.FgRun
import Verif.Lemmas.Proc
/-
More rounds and more calls: a run that has ended within the rounds and calls given does the same with more of them.
-/
set_option linter.unusedSectionVars false
namespace Texted

/-- `q` does what `p` does, as far as `p` gets within its rounds and calls. -/
inductive Upto : Proc FgOut → Proc FgOut → Prop
  | spin (q : Proc FgOut) : Upto (.ret .spin) q
  | ret (o : FgOut) : Upto (.ret o) (.ret o)
  | panic : Upto .panic .panic
  | act (a : Act) {k k' : Except Bytes Bytes → Proc FgOut} (h : ∀ r, Upto (k r) (k' r)) : Upto (.act a k) (.act a k')

theorem upto_refl (p : Proc FgOut) : Upto p p := by
  induction p with
  | ret o => exact .ret o
  | panic => exact .panic
  | act a k ih => exact .act a ih

theorem upto_bind {p q : Proc FgOut} {f g : FgOut → Proc FgOut} (h : Upto p q) (hs : f .spin = .ret .spin) (hf : ∀ o, Upto (f o) (g o)) :
    Upto (p.bind f) (q.bind g) := by
  induction h with
  | spin q => rw [Proc.bind, hs]; exact .spin _
  | ret o => exact hf o
  | panic => exact .panic
  | act a _ ih => exact .act a ih

theorem upto_same {α : Type} (p : Proc α) {f g : α → Proc FgOut} (hf : ∀ a, Upto (f a) (g a)) : Upto (p.bind f) (p.bind g) := by
  induction p with
  | ret a => exact hf a
  | panic => exact .panic
  | act a k ih => exact .act a ih

theorem upto_andThen (o : FgOut) {f g : FgSt → Proc FgOut} (hf : ∀ st, Upto (f st) (g st)) : Upto (o.andThen f) (o.andThen g) := by
  cases o <;> first | exact hf _ | exact upto_refl _

theorem upto_round (o : FgOut) {f g : FgSt → Proc FgOut} (hf : ∀ st, Upto (f st) (g st)) : Upto (o.round f) (o.round g) := by
  cases o <;> first | exact hf _ | exact upto_refl _

theorem upto_runFg {α : Type} (v : GoR α) {f g : α → Proc FgOut} (hf : ∀ a, Upto (f a) (g a)) : Upto (v.runFg f) (v.runFg g) := by
  cases v <;> first | exact hf _ | exact upto_refl _

theorem upto_if (v : FgV) {a a' b b' : Proc FgOut} (ha : Upto a a') (hb : Upto b b') : Upto (fgIf v a b) (fgIf v a' b') := by
  cases v with
  | bool t => cases t <;> assumption
  | _ => exact upto_refl _

theorem upto_range {f g : FgSt → Proc FgOut} (hf : ∀ st, Upto (f st) (g st)) (i x : FgVar) : ∀ (l : List FgV) (k : Nat) (st : FgSt),
    Upto (fgRange f i x k l st) (fgRange g i x k l st)
  | [], _, _ => upto_refl _
  | _ :: l, k, _ => upto_bind (hf _) rfl fun o => upto_round o fun st => upto_range hf i x l (k + 1) st

theorem upto_forever {f g : FgSt → Proc FgOut} (hf : ∀ st, Upto (f st) (g st)) : ∀ {n n' : Nat}, n ≤ n' → ∀ st, Upto (fgForever f n st) (fgForever g n' st)
  | 0, _, _, _ => .spin _
  | n + 1, 0, h, _ => absurd h (by omega)
  | n + 1, n' + 1, h, st => upto_bind (hf st) rfl fun o => upto_round o fun st => upto_forever hf (Nat.le_of_succ_le_succ h) st

section
variable [Ext]

theorem upto_exec {n n' : Nat} (hn : n ≤ n') {call call' : FgFn → List FgV → Proc FgOut} (hc : ∀ f vs, Upto (call f vs) (call' f vs)) :
    ∀ (s : FgS) (st : FgSt), Upto (s.exec n call st) (s.exec n' call' st)
  | .skip, _ => upto_refl _
  | .seq a b, st => upto_bind (upto_exec hn hc a st) rfl fun o => upto_andThen o fun st => upto_exec hn hc b st
  | .set _ _, _ => upto_refl _
  | .setField _ _ _, _ => upto_refl _
  | .op _ _ _, _ => upto_refl _
  | .callFn _ _ _, _ => upto_runFg _ fun _ => upto_bind (hc _ _) rfl fun _ => upto_refl _
  | .if_ _ a b, st => upto_runFg _ fun v => upto_if v (upto_exec hn hc a st) (upto_exec hn hc b st)
  | .range i x _ body, st => upto_runFg _ fun _ => upto_runFg _ fun l => upto_range (fun st => upto_exec hn hc body st) i x l 0 st
  | .forever body, st => upto_forever (fun st => upto_exec hn hc body st) hn st
  | .cont, _ => upto_refl _
  | .brk, _ => upto_refl _
  | .ret _, _ => upto_refl _

theorem upto_fgRun {n n' : Nat} (hn : n ≤ n') : ∀ {d d' : Nat}, d ≤ d' → ∀ (f : FgFn) (args : List FgV), Upto (fgRun n d f args) (fgRun n' d' f args)
  | 0, _, _, _, _ => .spin _
  | d + 1, 0, h, _, _ => absurd h (by omega)
  | d + 1, d' + 1, h, f, args => by
    rw [fgRun, fgRun]
    cases fgSetAll (fun _ => .nil) f.params args with
    | none => exact upto_refl _
    | some st => exact upto_exec hn (fun f vs => upto_fgRun hn (Nat.le_of_succ_le_succ h) f vs) f.body st

end

theorem upto_ends {p q : Proc FgOut} (h : Upto p q) {w w' : World} {o : FgOut} (ho : o ≠ .spin) (he : Ends p w o w') : Ends q w o w' := by
  induction h generalizing w with
  | spin q => exact absurd (ends_ret.1 he).1 (by intro e; exact ho (by first | exact e | exact e.symm))
  | ret o => exact he
  | panic => exact he
  | act a _ ih =>
    obtain ⟨r, w1, h1, h2⟩ := ends_act.1 he
    exact ends_act.2 ⟨r, w1, h1, ih r h2⟩

theorem upto_sees {p q : Proc FgOut} (h : Upto p q) {w w' : World} (hs : Sees p w w') : Sees q w w' := by
  induction h generalizing w with
  | spin q => rw [sees_ret.1 hs]; exact ⟨_, .refl⟩
  | ret o => exact hs
  | panic => exact hs
  | act a _ ih =>
    rcases sees_act.1 hs with h | ⟨r, w1, h1, h2⟩
    · exact sees_act.2 (.inl h)
    · exact sees_act.2 (.inr ⟨r, w1, h1, ih r h2⟩)

/-- A program that always ends within its rounds and calls. -/
theorem upto_returns {p : Proc (List FgV)} {q : Proc FgOut} (h : Upto (p.bind fun vs => .ret (.ret vs)) q) :
    q = p.bind fun vs => .ret (.ret vs) := by
  induction p generalizing q with
  | ret a => cases h; rfl
  | panic => cases h; rfl
  | act a k ih =>
    cases h with
    | act _ h => exact congrArg _ (funext fun r => ih r (h r))

end Texted
