import Verif.Props.Safety
/- C01, C02 for whole programs, as equivalences. -/
namespace Texted
variable [Ext]

/-- This call panics. -/
def CallPanics (c : Bytes × List Value × Buffer) : Prop := (call c.1 c.2.1 c.2.2).1 = .panic

mutual
theorem panic_expr : ∀ (e : Value) (b : Buffer),
    (evalExpr defaultEnv e b).1 = .panic ↔ ∃ c ∈ callLog defaultEnv e b, CallPanics c
  | .str s, b => by simp [callLog, evalExpr]
  | .num s, b => by simp [callLog, evalExpr]
  | .sym s, b => by simp [callLog, evalExpr]
  | .list [], b => by simp [callLog, evalExpr]
  | .list (.str s :: args), b => by simp [callLog, evalExpr]
  | .list (.num s :: args), b => by simp [callLog, evalExpr]
  | .list (.list s :: args), b => by simp [callLog, evalExpr]
  | .list (.sym f :: args), b => by
    have ih := panic_args args b
    simp only [callLog, evalExpr]
    cases hf : defaultEnv f with
    | none => simp
    | some fn =>
      simp only [List.mem_append, or_and_right, exists_or, ← ih]
      cases ha : evalArgs defaultEnv args b with
      | mk r b' =>
        cases r with
        | ok vs =>
          have e : call f vs b' = fn vs b' := by simp [call, hf]
          simp [CallPanics, e]
        | err e => simp
        | panic => simp
theorem panic_args : ∀ (as : List Value) (b : Buffer),
    (evalArgs defaultEnv as b).1 = .panic ↔ ∃ c ∈ argLog defaultEnv as b, CallPanics c
  | [], b => by simp [evalArgs, argLog]
  | a :: as, b => by
    have ih := panic_expr a b
    have ih' := fun b' => panic_args as b'
    simp only [argLog, evalArgs, List.mem_append, or_and_right, exists_or, ← ih]
    cases ha : evalExpr defaultEnv a b with
    | mk r b' =>
      cases r with
      | ok v =>
        simp only [← ih']
        cases hb : evalArgs defaultEnv as b' with
        | mk r' b'' => cases r' <;> simp
      | err e => simp
      | panic => simp
end

theorem panic_loop (w : List Value) : ∀ (es : List Value) (i : Nat) (v : Value) (b : Buffer),
    (evalLoopNoTrace defaultEnv w i v es b).1 = .panic ↔ ∃ c ∈ progLog defaultEnv es b, CallPanics c
  | [], i, v, b => by simp [evalLoopNoTrace, progLog]
  | e :: es, i, v, b => by
    have ih := panic_expr e b
    simp only [evalLoopNoTrace, progLog, List.mem_append, or_and_right, exists_or, ← ih]
    cases ha : evalExpr defaultEnv e b with
    | mk r b' =>
      cases r with
      | ok v' => simp [panic_loop w es (i + 1) v' b']
      | err e => simp
      | panic => simp

/-- None of the calls puts point outside the buffer. -/
def Stays (log : List (Bytes × List Value × Buffer)) : Prop := ∀ c ∈ log, ¬ LeavesBuffer c.1 c.2.1 c.2.2

mutual
theorem stays_expr [LawfulExt] : ∀ (e : Value) (b : Buffer), InRange b → Stays (callLog defaultEnv e b) →
    InRange (evalExpr defaultEnv e b).2 ∧ ∀ c ∈ callLog defaultEnv e b, InRange c.2.2
  | .str s, b, h, _ => by simpa [callLog, evalExpr] using h
  | .num s, b, h, _ => by simpa [callLog, evalExpr] using h
  | .sym s, b, h, _ => by simpa [callLog, evalExpr] using h
  | .list [], b, h, _ => by simpa [callLog, evalExpr] using h
  | .list (.str s :: args), b, h, _ => by simpa [callLog, evalExpr] using h
  | .list (.num s :: args), b, h, _ => by simpa [callLog, evalExpr] using h
  | .list (.list s :: args), b, h, _ => by simpa [callLog, evalExpr] using h
  | .list (.sym f :: args), b, h, hz => by
    have ih := stays_args args b h
    simp only [callLog, evalExpr] at hz ⊢
    cases hf : defaultEnv f with
    | none => simpa using h
    | some fn =>
      simp only [hf] at hz
      obtain ⟨i1, i2⟩ := ih fun c hc => hz c (List.mem_append_left _ hc)
      cases ha : evalArgs defaultEnv args b with
      | mk r b' =>
        rw [ha] at i1 hz
        cases r with
        | ok vs =>
          have e : call f vs b' = fn vs b' := by simp [call, hf]
          have hl := hz (f, vs, b') (by simp)
          refine ⟨Classical.byContradiction fun hn => hl ((C02_leaves_iff f vs b' i1).1 (by rw [e]; exact hn)), ?_⟩
          intro c hc
          simp only [List.mem_append, List.mem_singleton] at hc
          rcases hc with hc | rfl
          · exact i2 c hc
          · exact i1
        | err e => exact ⟨i1, by simpa using i2⟩
        | panic => exact ⟨i1, by simpa using i2⟩
theorem stays_args [LawfulExt] : ∀ (as : List Value) (b : Buffer), InRange b → Stays (argLog defaultEnv as b) →
    InRange (evalArgs defaultEnv as b).2 ∧ ∀ c ∈ argLog defaultEnv as b, InRange c.2.2
  | [], b, h, _ => by simpa [argLog, evalArgs] using h
  | a :: as, b, h, hz => by
    have ih := stays_expr a b h
    have ih' := fun b' => stays_args as b'
    simp only [argLog, evalArgs] at hz ⊢
    obtain ⟨i1, i2⟩ := ih fun c hc => hz c (List.mem_append_left _ hc)
    cases ha : evalExpr defaultEnv a b with
    | mk r b' =>
      rw [ha] at i1 hz
      cases r with
      | ok v =>
        obtain ⟨j1, j2⟩ := ih' b' i1 fun c hc => hz c (List.mem_append_right _ hc)
        have hj : ∀ c ∈ callLog defaultEnv a b ++ argLog defaultEnv as b', InRange c.2.2 := by
          intro c hc
          rcases List.mem_append.1 hc with hc | hc
          · exact i2 c hc
          · exact j2 c hc
        cases hb : evalArgs defaultEnv as b' with
        | mk r1 b1 => rw [hb] at j1; simp only [hb]; cases r1 <;> exact ⟨j1, hj⟩
      | err e => exact ⟨i1, by simpa using i2⟩
      | panic => exact ⟨i1, by simpa using i2⟩
end

theorem stays_loop [LawfulExt] (w : List Value) : ∀ (es : List Value) (i : Nat) (v : Value) (b : Buffer), InRange b →
    Stays (progLog defaultEnv es b) →
    InRange (evalLoopNoTrace defaultEnv w i v es b).2 ∧ ∀ c ∈ progLog defaultEnv es b, InRange c.2.2
  | [], i, v, b, h, _ => by simpa [progLog, evalLoopNoTrace] using h
  | e :: es, i, v, b, h, hz => by
    simp only [progLog, evalLoopNoTrace] at hz ⊢
    obtain ⟨i1, i2⟩ := stays_expr e b h fun c hc => hz c (List.mem_append_left _ hc)
    cases ha : evalExpr defaultEnv e b with
    | mk r b' =>
      rw [ha] at i1 hz
      cases r with
      | ok v' =>
        obtain ⟨j1, j2⟩ := stays_loop w es (i + 1) v' b' i1 fun c hc => hz c (List.mem_append_right _ hc)
        refine ⟨j1, fun c hc => ?_⟩
        rcases List.mem_append.1 hc with hc | hc
        · exact i2 c hc
        · exact j2 c hc
      | err e => exact ⟨i1, by simpa using i2⟩
      | panic => exact ⟨i1, by simpa using i2⟩

/-- C02 for whole programs, exactly: point is inside the buffer before and after every call the program makes if and
only if none of those calls is one of the three listed ones. -/
theorem C02_program_exact [LawfulExt] (prog : List Value) (text : Bytes) :
    (∀ c ∈ progLog defaultEnv prog (newBuffer text), InRange c.2.2 ∧ InRange (call c.1 c.2.1 c.2.2).2) ↔
      ∀ c ∈ progLog defaultEnv prog (newBuffer text), ¬ LeavesBuffer c.1 c.2.1 c.2.2 := by
  constructor
  · intro h c hc hl
    exact (C02_leaves_iff _ _ _ (h c hc).1).2 hl (h c hc).2
  · intro h c hc
    have hr := (stays_loop prog prog 0 (.str []) (newBuffer text) (inRange_new text) h).2 c hc
    exact ⟨hr, Classical.byContradiction fun hn => h c hc ((C02_leaves_iff _ _ _ hr).1 hn)⟩

/-- C01 for whole programs, exactly: a program that never loses point (in the sense of C02) panics if and only if it
calls `delete-char` with a count that reaches back before the start of the buffer. -/
theorem C01_program_exact [LawfulExt] (prog : List Value) (text : Bytes)
    (h : ∀ c ∈ progLog defaultEnv prog (newBuffer text), ¬ LeavesBuffer c.1 c.2.1 c.2.2) :
    (eval defaultEnv prog (newBuffer text)).1 = .panic ↔
      ∃ c ∈ progLog defaultEnv prog (newBuffer text), Panics c.1 c.2.1 c.2.2 := by
  have hr := (stays_loop prog prog 0 (.str []) (newBuffer text) (inRange_new text) h).2
  refine (panic_loop prog prog 0 (.str []) (newBuffer text)).trans ?_
  constructor
  · rintro ⟨c, hc, hp⟩; exact ⟨c, hc, (C01_panic_iff _ _ _ (hr c hc)).1 hp⟩
  · rintro ⟨c, hc, hp⟩; exact ⟨c, hc, (C01_panic_iff _ _ _ (hr c hc)).2 hp⟩

/-- A program that panics without ever losing point. -/
example : (∀ c ∈ progLog defaultEnv [.list [.sym b! "delete-char", numV (-1)]] (newBuffer b! "ab"),
      ¬ LeavesBuffer c.1 c.2.1 c.2.2) ∧
    (eval defaultEnv [.list [.sym b! "delete-char", numV (-1)]] (newBuffer b! "ab")).1 = .panic := by
  refine ⟨?_, rfl⟩
  have : progLog defaultEnv [.list [.sym b! "delete-char", numV (-1)]] (newBuffer b! "ab") =
      [(b! "delete-char", [numV (-1)], newBuffer b! "ab")] := rfl
  rw [this]
  intro c hc
  simp only [List.mem_singleton] at hc
  subst hc
  rintro (⟨h, _⟩ | ⟨h, _⟩ | ⟨h, _⟩) <;> exact absurd h (by decide)

end Texted
