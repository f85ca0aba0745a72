import Verif.Props.GoSource
import Verif.Lemmas.GoInts
import Verif.Props.Frame
/-
C93, continued: whole scripts.
-/
namespace Texted
open Spec

section
variable [Ext]

/-- **C93** Whatever functions are called one after the other, the numbers of the buffer stay Go ints; so every call that fits into
memory meets the conditions of `C93_table`. -/
theorem C93_reached [LawfulExt] {b : Buffer} (h : Reached b) : Ints b ∧ ∀ args, Small args b → Machine args b := by
  have key : Ints b := by
    induction h with
    | new text => exact ⟨by simp [newBuffer], by simp [newBuffer], by simp [newBuffer], by simp [newBuffer]⟩
    | @call b args name f hr hs hf ih => exact ints_call ⟨hs.content, hs.count, hs.strings, hs.found, ih.point, ih.mark, ih.lastStart, ih.lastEnd⟩ hf
  exact ⟨key, fun args hs => ⟨hs.content, hs.count, hs.strings, hs.found, key.point, key.mark, key.lastStart, key.lastEnd⟩⟩

/-- A panic leaves the buffer as it was (in the model; the program ends). -/
theorem panic_same {name : Bytes} {f : Builtin} (hf : (name, f) ∈ builtinTable) (args : List Value) (b : Buffer) (h : (f args b).1 = .panic) :
    (f args b).2 = b := by
  have key : ∀ p ∈ builtinTable, (p.2 args b).1 = .panic → (p.2 args b).2 = b := by
    unfold builtinTable
    simp only [List.forall_mem_cons, List.not_mem_nil, false_implies, implies_true, and_true]
    repeat' apply And.intro
    all_goals branches
  exact key _ hf h

omit [Ext] in
theorem agrees_outcome {out : GoOut} {r : Res Bytes Value × Buffer} {b : Buffer} (h : Agrees out r) (hp : r.1 = .panic → r.2 = b) :
    outcome out b = some r := by
  obtain ⟨r, c⟩ := r
  unfold Agrees at h
  split at h
  · rename_i heq; cases heq; obtain ⟨rfl, rfl⟩ := h; rfl
  · rename_i heq; cases heq; obtain ⟨rfl, rfl⟩ := h; rfl
  · rename_i heq; cases heq; rw [show c = b from hp rfl]; rfl
  · exact h.elim

omit [Ext] in
theorem names_nodup : (goTable.map (·.1)).Nodup := by decide +kernel

theorem lookup_pair {R : Bytes × GoS → Bytes × Builtin → Prop} (hn : ∀ p q, R p q → p.1 = q.1) {l : List (Bytes × GoS)} {l' : List (Bytes × Builtin)}
    (h : List.Forall₂ R l l') (hd : (l.map (·.1)).Nodup) {name : Bytes} {f : GoS} (hf : (name, f) ∈ l) :
    ∃ g, tableLookup l' name = some g ∧ (name, g) ∈ l' ∧ R (name, f) (name, g) := by
  induction h with
  | nil => cases hf
  | @cons p q l l' hpq hl ih =>
    rw [List.map_cons, List.nodup_cons] at hd
    obtain ⟨qn, g⟩ := q
    have e := hn _ _ hpq
    rcases List.mem_cons.mp hf with rfl | hf
    · cases (show name = qn from e)
      exact ⟨g, by simp [tableLookup], List.mem_cons_self, hpq⟩
    · obtain ⟨g', h1, h2, h3⟩ := ih hd.2 hf
      refine ⟨g', ?_, List.mem_cons_of_mem _ h2, h3⟩
      rw [tableLookup, if_neg, h1]
      intro e'
      apply hd.1
      rw [e, show qn = name from e']
      exact List.mem_map.2 ⟨_, hf, rfl⟩

theorem lookup_known {R : Bytes × GoS → Bytes × Builtin → Prop} (hn : ∀ p q, R p q → p.1 = q.1) {l : List (Bytes × GoS)} {l' : List (Bytes × Builtin)}
    (h : List.Forall₂ R l l') (name : Bytes) : (tableLookup l' name).isSome ↔ name ∈ l.map (·.1) := by
  induction h with
  | nil => simp [tableLookup]
  | @cons p q l l' hpq hl ih =>
    obtain ⟨qn, g⟩ := q
    have e : p.1 = qn := hn _ _ hpq
    rw [tableLookup, List.map_cons, List.mem_cons, e]
    by_cases hq : qn = name
    · simp [hq]
    · rw [if_neg hq, ih]
      constructor
      · exact .inr
      · rintro (h | h)
        · exact absurd h.symm hq
        · exact h

/-- One call. -/
theorem runs_call [LawfulExt] {env : Env} (he : RunsGo env) {b : Buffer} (hb : Reached b) {args : List Value} (hs : Small args b) {name : Bytes} {g : Builtin}
    (hg : env name = some g) : ∃ f, defaultEnv name = some f ∧ (name, f) ∈ builtinTable ∧ g args b = f args b := by
  have hm := (he.1 name).1 (by rw [hg]; rfl)
  obtain ⟨⟨name', s⟩, hsm, rfl⟩ := List.mem_map.1 hm
  obtain ⟨f, h1, h2, h3⟩ := lookup_pair (fun _ _ h => h.1) C93_table names_nodup hsm
  have hmach := (C93_reached hb).2 args hs
  have := h3.2 (plenty args b) args b hmach (plenty_enough _)
  exact ⟨f, h1, h2, he.2 _ s hsm g hg _ args b _ (agrees_outcome this (panic_same h2 args b))⟩

theorem env_none [LawfulExt] {env : Env} (he : RunsGo env) {name : Bytes} : env name = none ↔ defaultEnv name = none := by
  have h1 := he.1 name
  have h2 : (defaultEnv name).isSome ↔ _ := lookup_known (fun _ _ h => h.1) C93_table name
  rw [← h2] at h1
  cases h3 : env name <;> cases h4 : defaultEnv name <;> simp_all

mutual
theorem expr_go [LawfulExt] {env : Env} (he : RunsGo env) : ∀ (e : Value) (b : Buffer), Reached b →
    (∀ c ∈ exprCalls defaultEnv e b, Small c.args c.buf) →
    evalExpr env e b = evalExpr defaultEnv e b ∧ Reached (evalExpr defaultEnv e b).2
  | .str s, b, hb, _ => ⟨by simp only [evalExpr], by simpa only [evalExpr] using hb⟩
  | .num x, b, hb, _ => ⟨by simp only [evalExpr], by simpa only [evalExpr] using hb⟩
  | .sym x, b, hb, _ => ⟨by simp only [evalExpr], by simpa only [evalExpr] using hb⟩
  | .list [], b, hb, _ => ⟨by simp only [evalExpr], by simpa only [evalExpr] using hb⟩
  | .list (.str s :: l), b, hb, _ => ⟨by simp only [evalExpr], by simpa only [evalExpr] using hb⟩
  | .list (.num s :: l), b, hb, _ => ⟨by simp only [evalExpr], by simpa only [evalExpr] using hb⟩
  | .list (.list s :: l), b, hb, _ => ⟨by simp only [evalExpr], by simpa only [evalExpr] using hb⟩
  | .list (.sym f :: args), b, hb, hc => by
    simp only [evalExpr]
    cases hd : defaultEnv f with
    | none =>
      rw [(env_none he).2 hd]
      exact ⟨rfl, hb⟩
    | some fn =>
      cases hg : env f with
      | none => rw [(env_none he).1 hg] at hd; cases hd
      | some g =>
        simp only [exprCalls, hd, Option.isSome_some, if_true, List.mem_append] at hc
        obtain ⟨h1, h2⟩ := args_go he args b hb fun c h => hc c (.inl h)
        dsimp only
        rw [h1]
        rcases hr : evalArgs defaultEnv args b with ⟨r, b'⟩
        rw [hr] at h2 hc
        cases r with
        | ok vs =>
          have hs : Small vs b' := hc ⟨f, vs, b'⟩ (.inr (by simp))
          obtain ⟨f', e1, e2, e3⟩ := runs_call he h2 hs hg
          rw [hd] at e1
          cases e1
          exact ⟨e3, .call h2 hs e2⟩
        | err e => exact ⟨rfl, h2⟩
        | panic => exact ⟨rfl, h2⟩
theorem args_go [LawfulExt] {env : Env} (he : RunsGo env) : ∀ (as : List Value) (b : Buffer), Reached b →
    (∀ c ∈ argsCalls defaultEnv as b, Small c.args c.buf) →
    evalArgs env as b = evalArgs defaultEnv as b ∧ Reached (evalArgs defaultEnv as b).2
  | [], b, hb, _ => ⟨by simp only [evalArgs], by simpa only [evalArgs] using hb⟩
  | a :: as, b, hb, hc => by
    simp only [argsCalls, List.mem_append] at hc
    obtain ⟨h1, h2⟩ := expr_go he a b hb fun c h => hc c (.inl h)
    simp only [evalArgs]
    rw [h1]
    rcases hr : evalExpr defaultEnv a b with ⟨r, b'⟩
    rw [hr] at h2 hc
    cases r with
    | ok v =>
      obtain ⟨h3, h4⟩ := args_go he as b' h2 fun c h => hc c (.inr h)
      dsimp only
      rw [h3]
      rcases hr' : evalArgs defaultEnv as b' with ⟨r', b''⟩
      rw [hr'] at h4
      cases r' <;> exact ⟨rfl, h4⟩
    | err e => exact ⟨rfl, h2⟩
    | panic => exact ⟨rfl, h2⟩
end

theorem loop_go [LawfulExt] {env : Env} (he : RunsGo env) (whole : List Value) : ∀ (es : List Value) (i : Nat) (v : Value) (b : Buffer), Reached b →
    (∀ c ∈ scriptCalls defaultEnv es b, Small c.args c.buf) →
    evalLoop env whole i v es b = evalLoop defaultEnv whole i v es b ∧ evalLoopNoTrace env whole i v es b = evalLoopNoTrace defaultEnv whole i v es b
  | [], _, _, _, _, _ => ⟨rfl, rfl⟩
  | e :: es, i, v, b, hb, hc => by
    simp only [scriptCalls, List.mem_append] at hc
    obtain ⟨h1, h2⟩ := expr_go he e b hb fun c h => hc c (.inl h)
    simp only [evalLoop, evalLoopNoTrace]
    rw [h1]
    rcases hr : evalExpr defaultEnv e b with ⟨r, b'⟩
    rw [hr] at h2 hc
    cases r with
    | ok v =>
      obtain ⟨h3, h4⟩ := loop_go he whole es (i + 1) v b' h2 fun c h => hc c (.inr h)
      dsimp only
      rw [h3, h4]
      exact ⟨rfl, rfl⟩
    | err e => exact ⟨rfl, rfl⟩
    | panic => exact ⟨rfl, rfl⟩

/-- **C93** A script run on a text does the same with the functions as they are written in Go as with the definitions of the model: the same
result, the same text, point and mark, the same traced steps — as long as each call it makes fits into memory. -/
theorem C93_script [LawfulExt] {env : Env} (he : RunsGo env) (script : List Value) (text : Bytes)
    (hs : ∀ c ∈ scriptCalls defaultEnv script (newBuffer text), Small c.args c.buf) :
    eval env script (newBuffer text) = eval defaultEnv script (newBuffer text) ∧
    evalWithTrace env script (newBuffer text) = evalWithTrace defaultEnv script (newBuffer text) :=
  let h := loop_go he script script 0 (.str []) (newBuffer text) (.new text) hs
  ⟨h.2, h.1⟩

omit [Ext] in
theorem outcome_spin {b : Buffer} {out : GoOut} {o : Res Bytes Value × Buffer} (h : outcome out b = some o) : out ≠ .spin := by
  rintro rfl; cases h

/-- Two runs that ended, ended alike. -/
theorem outcome_unique {f : GoS} {n n' : Nat} {args : List Value} {b : Buffer} {o o' : Res Bytes Value × Buffer}
    (h : outcome (f.call n args b) b = some o) (h' : outcome (f.call n' args b) b = some o') : o = o' := by
  rcases Nat.le_total n n' with hn | hn
  · rw [C93_more f hn (outcome_spin h), h] at h'; exact Option.some.inj h'
  · rw [C93_more f hn (outcome_spin h'), h'] at h; exact (Option.some.inj h).symm

/-- **C93** There is such an environment: it gives each call of a function of the table as many rounds as it needs. -/
theorem C93_runs : ∃ env : Env, RunsGo env := by
  classical
  let env : Env := fun name => (goTable.find? fun p => p.1 = name).map fun p args b =>
    if h : ∃ o n, outcome (p.2.call n args b) b = some o then h.choose else (.panic, b)
  refine ⟨env, fun name => ?_, fun name f hf g hg n args b o ho => ?_⟩
  · simp only [env, Option.isSome_map, List.find?_isSome, List.mem_map]
    exact ⟨fun ⟨p, h, h'⟩ => ⟨p, h, by simpa using h'⟩, fun ⟨p, h, h'⟩ => ⟨p, h, by simpa using h'⟩⟩
  · simp only [env, Option.map_eq_some_iff] at hg
    obtain ⟨⟨name', f'⟩, h1, rfl⟩ := hg
    have hn : name' = name := by simpa using List.find?_some h1
    have hm := List.mem_of_find?_eq_some h1
    have hff : f' = f := by
      subst hn
      have hd := names_nodup
      clear h1 env
      revert hm hf hd
      generalize goTable = l
      intro hf hm hd
      induction l with
      | nil => cases hf
      | cons p l ih =>
        rw [List.map_cons, List.nodup_cons] at hd
        rcases List.mem_cons.mp hf with rfl | hf' <;> rcases List.mem_cons.mp hm with h | hm
        · exact (Prod.mk.inj h).2.symm
        · exact absurd (List.mem_map.2 ⟨(name', f), hm, rfl⟩) hd.1
        · subst h; exact absurd (List.mem_map.2 ⟨(name', f'), hf', rfl⟩) hd.1
        · exact ih hf' hm hd.2
    subst hff
    have hex : ∃ o n, outcome (f'.call n args b) b = some o := ⟨o, n, ho⟩
    simp only [dif_pos hex]
    obtain ⟨m, hm⟩ := hex.choose_spec
    exact outcome_unique hm ho

end

/-! ### A concrete case -/

theorem small_lit {b : Buffer} {args : List Value} (h : b.content.length < 4611686018427387904) (h₁ : args.length < 4611686018427387904)
    (h₂ : ∀ s, Value.str s ∈ args → s.length < 4611686018427387904) : @Small litExt args b := by
  letI := litExt
  refine ⟨h, h₁, h₂, ?_⟩
  intro p re s hc _
  cases hc
  show (((indexOf p s).map fun i => (i, i + p.length)).toList).length < _
  cases indexOf p s <;> simp

/-- A script that searches, edits and moves, with a nested call: all its calls fit. -/
example : letI := litExt
    let script := [.list [.sym (b! "search-forward"), .str (b! "b c")], .list [.sym (b! "replace-match"), .list [.sym (b! "upcase"), .str (b! "x")]],
      Value.list [.sym (b! "backward-word")], .list [.sym (b! "delete-line")]]
    ∀ c ∈ scriptCalls defaultEnv script (newBuffer (b! "a b c\nd")), Small c.args c.buf := by
  letI := litExt
  intro script
  have e : (scriptCalls defaultEnv script (newBuffer (b! "a b c\nd"))).map (fun c => (c.args, c.buf)) =
      [([.str (b! "b c")], newBuffer (b! "a b c\nd")), ([.str (b! "x")], { content := b! "a b c\nd", point := 6, mark := 1, lastMatch := b! "b c", lastStart := 3, lastEnd := 6 }),
       ([.str (b! "X")], { content := b! "a b c\nd", point := 6, mark := 1, lastMatch := b! "b c", lastStart := 3, lastEnd := 6 }),
       ([], { content := b! "a X\nd", point := 4, mark := 1, lastMatch := b! "b c", lastStart := 3, lastEnd := 6 }),
       ([], { content := b! "a X\nd", point := 3, mark := 1, lastMatch := b! "b c", lastStart := 3, lastEnd := 6 })] := by rfl
  intro c hc
  have := List.mem_map_of_mem (f := fun c : ACall => (c.args, c.buf)) hc
  rw [e] at this
  simp only [List.mem_cons, List.not_mem_nil, or_false, Prod.mk.injEq] at this
  rcases this with ⟨ha, hb⟩ | ⟨ha, hb⟩ | ⟨ha, hb⟩ | ⟨ha, hb⟩ | ⟨ha, hb⟩ <;> rw [ha, hb] <;> exact small_lit (by decide) (by decide) (by simp)

end Texted
