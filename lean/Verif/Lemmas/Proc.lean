import Verif.Model.Proc
/-
Compositional reasoning about runs: what a program can see and how it can end, action by action.
-/
namespace Texted

variable {α β : Type}

theorem World.put_put (w : World) (p a b : Bytes) : (w.put p a).put p b = w.put p b := by
  unfold World.put; congr 1; funext q; simp only; split <;> rfl

theorem World.put_same (w : World) (p d : Bytes) : (w.put p d).files p = some d := by simp [World.put]
theorem World.put_other (w : World) (p d q : Bytes) (h : q ≠ p) : (w.put p d).files q = w.files q := by simp [World.put, h]

theorem writeAt_take (d : Bytes) (n m : Nat) (h1 : n < m) (h2 : m ≤ d.length) : writeAt (d.take n) n ((d.take m).drop n) = d.take m := by
  have hn : (d.take n).length = n := by simp; omega
  have hdrop : (d.take n).drop (n + ((d.take m).drop n).length) = [] := List.drop_eq_nil_of_le (by rw [hn]; omega)
  unfold writeAt
  rw [hdrop, hn, Nat.sub_self, List.replicate_zero, List.append_nil, List.append_nil, List.take_take, Nat.min_self]
  have : d.take n = (d.take m).take n := by rw [List.take_take, Nat.min_eq_left (by omega)]
  rw [this, List.take_append_drop]

theorem Steps.trans {a b c : Run α × World} (h1 : Steps a b) (h2 : Steps b c) : Steps a c := by
  induction h1 with
  | refl => exact h2
  | step s _ ih => exact .step s (ih h2)

theorem Steps.one {a b : Run α × World} (h : Step a b) : Steps a b := .step h .refl

/-- How an action can end. -/
def ActEnds (a : Act) (w : World) (r : Except Bytes Bytes) (w' : World) : Prop :=
  match a with
  | .read p => w' = w ∧ ((∃ d, w.files p = some d ∧ r = .ok d) ∨ ∃ e, r = .error e)
  | .stdin => w' = { w with input := [] } ∧ (r = .ok w.input ∨ ∃ e, r = .error e)
  | .print d => (r = .ok [] ∧ w' = { w with out := w.out ++ d }) ∨ (∃ n e, r = .error e ∧ w' = { w with out := w.out ++ d.take n })
  | .write p d => (r = .ok [] ∧ w' = w.put p d) ∨ (∃ e, r = .error e ∧ (w' = w ∨ ∃ n, n ≤ d.length ∧ w' = w.put p (d.take n)))

/-- What can be seen while an action is under way. -/
def ActSees (a : Act) (w w' : World) : Prop :=
  w' = w ∨ match a with
    | .write p d => ∃ n, n ≤ d.length ∧ w' = w.put p (d.take n)
    | _ => False

/-- Inside `os.WriteFile`. -/
theorem writing_inv {p d : Bytes} {k : Except Bytes Bytes → Proc α} {c : Run α × World} {w0 : World} :
    ∀ {n : Nat}, n ≤ d.length → Steps (.writing p d n k, w0.put p (d.take n)) c →
    (∃ m, m ≤ d.length ∧ c = (.writing p d m k, w0.put p (d.take m))) ∨
    (∃ r w1, ActEnds (.write p d) w0 r w1 ∧ Steps (.at (k r), w1) c) := by
  intro n hn h
  generalize ha : ((.writing p d n k, w0.put p (d.take n)) : Run α × World) = a at h
  induction h generalizing n with
  | refl => subst ha; exact Or.inl ⟨n, hn, rfl⟩
  | step s t ih =>
    subst ha
    cases s with
    | piece h1 h2 =>
      rename_i m
      apply ih h2
      rw [World.put_put, World.put_same, Option.getD_some, writeAt_take d n m h1 h2]
    | writeErr => exact Or.inr ⟨_, _, Or.inr ⟨_, rfl, Or.inr ⟨n, hn, rfl⟩⟩, t⟩
    | close =>
      refine Or.inr ⟨_, _, Or.inl ⟨rfl, ?_⟩, t⟩
      rw [List.take_length]

theorem act_inv {a : Act} {k : Except Bytes Bytes → Proc α} {w : World} {c : Run α × World} (h : Steps (.at (.act a k), w) c) :
    c = (.at (.act a k), w) ∨ (∃ p d n, a = .write p d ∧ n ≤ d.length ∧ c = (.writing p d n k, w.put p (d.take n))) ∨
    (∃ r w1, ActEnds a w r w1 ∧ Steps (.at (k r), w1) c) := by
  cases h with
  | refl => exact Or.inl rfl
  | step s t =>
    refine Or.inr ?_
    cases s with
    | readOk hd => exact Or.inr ⟨_, _, ⟨rfl, Or.inl ⟨_, hd, rfl⟩⟩, t⟩
    | readErr => exact Or.inr ⟨_, _, ⟨rfl, Or.inr ⟨_, rfl⟩⟩, t⟩
    | stdinOk => exact Or.inr ⟨_, _, ⟨rfl, Or.inl rfl⟩, t⟩
    | stdinErr => exact Or.inr ⟨_, _, ⟨rfl, Or.inr ⟨_, rfl⟩⟩, t⟩
    | printOk => exact Or.inr ⟨_, _, Or.inl ⟨rfl, rfl⟩, t⟩
    | printErr => exact Or.inr ⟨_, _, Or.inr ⟨_, _, rfl, rfl⟩, t⟩
    | openErr => exact Or.inr ⟨_, _, Or.inr ⟨_, rfl, Or.inl rfl⟩, t⟩
    | «open» =>
      rename_i p d
      rcases writing_inv (n := 0) (Nat.zero_le _) t with ⟨m, hm, rfl⟩ | h
      · exact Or.inl ⟨p, d, m, rfl, hm, rfl⟩
      · exact Or.inr h

theorem steps_writing (p d : Bytes) (k : Except Bytes Bytes → Proc α) (w : World) (n : Nat) (hn : n ≤ d.length) :
    Steps (.at (.act (.write p d) k), w) (.writing p d n k, w.put p (d.take n)) := by
  refine .step .open ?_
  by_cases h0 : n = 0
  · subst h0; exact .refl
  · refine .step (.piece (m := n) (by omega) hn) ?_
    rw [World.put_put, World.put_same, Option.getD_some]
    have := writeAt_take d 0 n (by omega) hn
    rw [show d.take 0 = [] from rfl] at this
    rw [this]
    exact .refl

theorem act_steps {a : Act} {k : Except Bytes Bytes → Proc α} {w w1 : World} {r : Except Bytes Bytes} (h : ActEnds a w r w1) :
    Steps (.at (.act a k), w) (.at (k r), w1) := by
  cases a with
  | read p =>
    obtain ⟨rfl, ⟨d, hd, rfl⟩ | ⟨e, rfl⟩⟩ := h
    · exact .one (.readOk hd)
    · exact .one .readErr
  | stdin =>
    obtain ⟨rfl, rfl | ⟨e, rfl⟩⟩ := h
    · exact .one .stdinOk
    · exact .one .stdinErr
  | print d =>
    rcases h with ⟨rfl, rfl⟩ | ⟨n, e, rfl, rfl⟩
    · exact .one .printOk
    · exact .one .printErr
  | write p d =>
    rcases h with ⟨rfl, rfl⟩ | ⟨e, rfl, rfl | ⟨n, hn, rfl⟩⟩
    · have := steps_writing p d k w d.length (Nat.le_refl _)
      rw [List.take_length] at this
      exact this.trans (.one .close)
    · exact .one .openErr
    · exact (steps_writing p d k w n hn).trans (.one .writeErr)

theorem ret_inv {a : α} {w : World} {c : Run α × World} (h : Steps (.at (.ret a), w) c) : c = (.at (.ret a), w) := by
  cases h with
  | refl => rfl
  | step s _ => cases s

theorem panic_inv {w : World} {c : Run α × World} (h : Steps (.at .panic, w) c) : c = (.at .panic, w) := by
  cases h with
  | refl => rfl
  | step s _ => cases s

/-! ### How programs end -/

theorem ends_ret {a b : α} {w w' : World} : Ends (.ret a) w b w' ↔ b = a ∧ w' = w := by
  constructor
  · intro h; have := ret_inv h; simp at this; exact this
  · rintro ⟨rfl, rfl⟩; exact .refl

theorem ends_panic {b : α} {w w' : World} : ¬ Ends .panic w b w' := by
  intro h; have := panic_inv h; simp at this

theorem ends_act {a : Act} {k : Except Bytes Bytes → Proc α} {b : α} {w w' : World} :
    Ends (.act a k) w b w' ↔ ∃ r w1, ActEnds a w r w1 ∧ Ends (k r) w1 b w' := by
  constructor
  · intro h
    rcases act_inv h with h | ⟨p, d, n, _, _, h⟩ | h
    · simp at h
    · simp at h
    · exact h
  · rintro ⟨r, w1, h1, h2⟩; exact (act_steps h1).trans h2

theorem ends_bind {p : Proc α} {f : α → Proc β} {b : β} {w w' : World} :
    Ends (p.bind f) w b w' ↔ ∃ a w1, Ends p w a w1 ∧ Ends (f a) w1 b w' := by
  induction p generalizing w with
  | ret a =>
    rw [Proc.bind]
    constructor
    · intro h; exact ⟨a, w, .refl, h⟩
    · rintro ⟨a', w1, h1, h2⟩; obtain ⟨rfl, rfl⟩ := ends_ret.1 h1; exact h2
  | panic =>
    rw [Proc.bind]
    exact ⟨fun h => absurd h ends_panic, fun ⟨_, _, h, _⟩ => absurd h ends_panic⟩
  | act a k ih =>
    rw [Proc.bind, ends_act]
    constructor
    · rintro ⟨r, w1, h1, h2⟩
      obtain ⟨a', w2, h3, h4⟩ := (ih r).1 h2
      exact ⟨a', w2, ends_act.2 ⟨r, w1, h1, h3⟩, h4⟩
    · rintro ⟨a', w2, h3, h4⟩
      obtain ⟨r, w1, h1, h2⟩ := ends_act.1 h3
      exact ⟨r, w1, h1, (ih r).2 ⟨a', w2, h2, h4⟩⟩

/-! ### What can be seen on the way -/

theorem sees_ret {a : α} {w w' : World} : Sees (.ret a) w w' ↔ w' = w := by
  constructor
  · rintro ⟨r, h⟩; have := ret_inv h; simp at this; exact this.2
  · rintro rfl; exact ⟨_, .refl⟩

theorem sees_panic {w w' : World} : Sees (.panic : Proc α) w w' ↔ w' = w := by
  constructor
  · rintro ⟨r, h⟩; have := panic_inv h; simp at this; exact this.2
  · rintro rfl; exact ⟨_, .refl⟩

theorem sees_act {a : Act} {k : Except Bytes Bytes → Proc α} {w w' : World} :
    Sees (.act a k) w w' ↔ ActSees a w w' ∨ ∃ r w1, ActEnds a w r w1 ∧ Sees (k r) w1 w' := by
  constructor
  · rintro ⟨c, h⟩
    rcases act_inv h with h | ⟨p, d, n, rfl, hn, h⟩ | ⟨r, w1, h1, h2⟩
    · simp at h; exact Or.inl (Or.inl h.2)
    · simp at h; exact Or.inl (Or.inr ⟨n, hn, h.2⟩)
    · exact Or.inr ⟨r, w1, h1, _, h2⟩
  · rintro (h | ⟨r, w1, h1, c, h2⟩)
    · rcases h with rfl | h
      · exact ⟨_, .refl⟩
      · cases a with
        | write p d => obtain ⟨n, hn, rfl⟩ := h; exact ⟨_, steps_writing p d k w n hn⟩
        | read => exact h.elim
        | print => exact h.elim
        | stdin => exact h.elim
    · exact ⟨c, (act_steps h1).trans h2⟩

theorem sees_bind {p : Proc α} {f : α → Proc β} {w w' : World} :
    Sees (p.bind f) w w' ↔ Sees p w w' ∨ ∃ a w1, Ends p w a w1 ∧ Sees (f a) w1 w' := by
  induction p generalizing w with
  | ret a =>
    rw [Proc.bind]
    constructor
    · intro h; exact Or.inr ⟨a, w, .refl, h⟩
    · rintro (h | ⟨a', w1, h1, h2⟩)
      · rw [sees_ret.1 h]; exact ⟨_, .refl⟩
      · obtain ⟨rfl, rfl⟩ := ends_ret.1 h1; exact h2
  | panic =>
    rw [Proc.bind]
    constructor
    · intro h; exact Or.inl (sees_panic.2 (sees_panic.1 h))
    · rintro (h | ⟨_, _, h, _⟩)
      · exact sees_panic.2 (sees_panic.1 h)
      · exact absurd h ends_panic
  | act a k ih =>
    rw [Proc.bind, sees_act, sees_act]
    constructor
    · rintro (h | ⟨r, w1, h1, h2⟩)
      · exact Or.inl (Or.inl h)
      · rcases (ih r).1 h2 with h3 | ⟨b, w2, h3, h4⟩
        · exact Or.inl (Or.inr ⟨r, w1, h1, h3⟩)
        · exact Or.inr ⟨b, w2, ends_act.2 ⟨r, w1, h1, h3⟩, h4⟩
    · rintro ((h | ⟨r, w1, h1, h3⟩) | ⟨b, w2, h3, h4⟩)
      · exact Or.inl h
      · exact Or.inr ⟨r, w1, h1, (ih r).2 (Or.inl h3)⟩
      · obtain ⟨r, w1, h1, h2⟩ := ends_act.1 h3
        exact Or.inr ⟨r, w1, h1, (ih r).2 (Or.inr ⟨b, w2, h2, h4⟩)⟩

theorem ends_sees {p : Proc α} {a : α} {w w' : World} (h : Ends p w a w') : Sees p w w' := ⟨_, h⟩

/-- The run without failures is one of the possible runs. -/
theorem runOk_ends (missing : Bytes → Bytes) (p : Proc α) (w : World) :
    (∀ a, (runOk missing p w).1 = some a → Ends p w a (runOk missing p w).2) ∧ Sees p w (runOk missing p w).2 := by
  induction p generalizing w with
  | ret a => exact ⟨fun b h => by cases h; exact .refl, sees_ret.2 rfl⟩
  | panic => exact ⟨fun b h => (nomatch h), sees_panic.2 rfl⟩
  | act a k ih =>
    cases a with
    | read p =>
      have hr : ActEnds (.read p) w (match w.files p with | some d => .ok d | none => .error (missing p)) w := by
        refine ⟨rfl, ?_⟩
        split
        · rename_i d h; exact Or.inl ⟨d, h, rfl⟩
        · exact Or.inr ⟨_, rfl⟩
      exact ⟨fun b h => ends_act.2 ⟨_, _, hr, (ih _ w).1 b h⟩, sees_act.2 (Or.inr ⟨_, _, hr, (ih _ w).2⟩)⟩
    | write p d =>
      have hr : ActEnds (.write p d) w (.ok []) (w.put p d) := Or.inl ⟨rfl, rfl⟩
      exact ⟨fun b h => ends_act.2 ⟨_, _, hr, (ih _ _).1 b h⟩, sees_act.2 (Or.inr ⟨_, _, hr, (ih _ _).2⟩)⟩
    | print d =>
      have hr : ActEnds (.print d) w (.ok []) { w with out := w.out ++ d } := Or.inl ⟨rfl, rfl⟩
      exact ⟨fun b h => ends_act.2 ⟨_, _, hr, (ih _ _).1 b h⟩, sees_act.2 (Or.inr ⟨_, _, hr, (ih _ _).2⟩)⟩
    | stdin =>
      have hr : ActEnds .stdin w (.ok w.input) { w with input := [] } := ⟨rfl, Or.inl rfl⟩
      exact ⟨fun b h => ends_act.2 ⟨_, _, hr, (ih _ _).1 b h⟩, sees_act.2 (Or.inr ⟨_, _, hr, (ih _ _).2⟩)⟩

theorem runOk_bind (missing : Bytes → Bytes) (p : Proc α) (f : α → Proc β) (w : World) :
    runOk missing (p.bind f) w = match runOk missing p w with
      | (some a, w') => runOk missing (f a) w'
      | (none, w') => (none, w') := by
  induction p generalizing w with
  | ret a => rfl
  | panic => rfl
  | act a k ih => cases a <;> (simp only [Proc.bind, runOk]; exact ih _ _)

/-! ### Which files a program can write -/

/-- Every write of the program is to a file in `S`. -/
def WritesOnly (S : Bytes → Prop) : Proc α → Prop
  | .ret _ => True
  | .panic => True
  | .act a k => (match a with | .write p _ => S p | _ => True) ∧ ∀ r, WritesOnly S (k r)

theorem ActEnds.files {a : Act} {w w' : World} {r : Except Bytes Bytes} (h : ActEnds a w r w') (q : Bytes) (hq : ∀ p d, a = .write p d → q ≠ p) :
    w'.files q = w.files q := by
  cases a with
  | read p => obtain ⟨rfl, _⟩ := h; rfl
  | stdin => obtain ⟨rfl, _⟩ := h; rfl
  | print d => rcases h with ⟨_, rfl⟩ | ⟨_, _, _, rfl⟩ <;> rfl
  | write p d =>
    have := hq p d rfl
    rcases h with ⟨rfl, rfl⟩ | ⟨e, rfl, rfl | ⟨n, hn, rfl⟩⟩
    · exact World.put_other _ _ _ _ this
    · rfl
    · exact World.put_other _ _ _ _ this

theorem WritesOnly.sees {S : Bytes → Prop} {p : Proc α} (h : WritesOnly S p) {w w' : World} (hs : Sees p w w') (q : Bytes) (hq : ¬ S q) :
    w'.files q = w.files q := by
  induction p generalizing w with
  | ret a => rw [sees_ret.1 hs]
  | panic => rw [sees_panic.1 hs]
  | act a k ih =>
    have hne : ∀ p d, a = .write p d → q ≠ p := by
      rintro p d rfl rfl; exact hq h.1
    rcases sees_act.1 hs with (rfl | hs) | ⟨r, w1, h1, h2⟩
    · rfl
    · cases a with
      | write p d => obtain ⟨n, _, rfl⟩ := hs; exact World.put_other _ _ _ _ (hne p d rfl)
      | read => exact hs.elim
      | print => exact hs.elim
      | stdin => exact hs.elim
    · rw [ih r (h.2 r) h2, h1.files q hne]

theorem WritesOnly.bind {S : Bytes → Prop} {p : Proc α} {f : α → Proc β} (h : WritesOnly S p) (hf : ∀ a, WritesOnly S (f a)) :
    WritesOnly S (p.bind f) := by
  induction p with
  | ret a => exact hf a
  | panic => trivial
  | act a k ih => exact ⟨h.1, fun r => ih r (h.2 r)⟩

theorem WritesOnly.say {S : Bytes → Prop} {c : Bool} {t : Bytes} {p : Proc α} (h : WritesOnly S p) : WritesOnly S (say c t p) := by
  unfold Texted.say; split
  · exact ⟨trivial, fun _ => h⟩
  · exact h

theorem WritesOnly.mono {S T : Bytes → Prop} {p : Proc α} (h : WritesOnly S p) (hST : ∀ q, S q → T q) : WritesOnly T p := by
  induction p with
  | ret a => trivial
  | panic => trivial
  | act a k ih =>
    refine ⟨?_, fun r => ih r (h.2 r)⟩
    cases a with
    | write p d => exact hST p h.1
    | read => trivial
    | print => trivial
    | stdin => trivial

end Texted
