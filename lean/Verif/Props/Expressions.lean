import Verif.Props.EditCmd
import Verif.Props.Evaluator
import Verif.Props.Frame
import Verif.Spec.Expressions
/-
C58: `texted edit -e`.
-/
namespace Texted
open Spec

section
variable [Ext]

theorem call_plain (name : Bytes) (args : List Value) (b b' : Buffer) (v : Value) (h : call name args b = (.ok v, b')) : PlainResult v := by
  have key : ∀ v, (call name args b).1 = .ok v → PlainResult v := by
    by_cases h : name ∈ allNames
    · each_name h <;> branches <;> simp [PlainResult, numV, symT, symNil] <;> exact ⟨_, rfl⟩
    · rw [call_unknown name h]; intro v h; cases h
  exact key v (by rw [h])

theorem evalExpr_plain (v : Value) (hv : isList v) (b b' : Buffer) (r : Value) (h : evalExpr defaultEnv v b = (.ok r, b')) : PlainResult r := by
  have hb := (C26_big_step defaultEnv v b (.ok r) b').1 h
  generalize hr : Res.ok r = res at hb
  cases hb with
  | str s b => exact absurd hv (by simp [isList])
  | num x b => exact absurd hv (by simp [isList])
  | sym => cases hr
  | empty => cases hr
  | head => cases hr
  | unknown => cases hr
  | call f fn args b vs b1 hf ha =>
    refine call_plain f vs b1 (fn vs b1).2 r ?_
    unfold call
    rw [hf]
    simp only
    rw [hr]
  | argErr => cases hr
  | argPanic => cases hr

/-! ### Evaluation -/

theorem evaluated_cons {format e : Bytes} {es : List Bytes} {b b' : Buffer} {vs : List Value} (h : Evaluated format (e :: es) b vs b') :
    ∃ p v b1 vs', parseScript format e = .ok p ∧ eval defaultEnv p b = (.ok v, b1) ∧ Evaluated format es b1 vs' b' ∧ vs = v :: vs' := by
  cases h with
  | cons h1 h2 h3 => exact ⟨_, _, _, _, h1, h2, h3, rfl⟩

theorem exprs_ok (m : Bytes → Bytes) (a : EditArgs) (hq : a.quiet = false) (hv : a.verbose = false) (src : Bytes) (es : List Bytes) :
    ∀ (i : Nat) (b : Buffer) (w w' : World), runOk m (evalExpressions a src i es b) w = (some none, w') ↔
      ∃ vs b' text, Evaluated a.format es b vs b' ∧ Printed a.outputFormat vs text ∧ w' = { w with out := w.out ++ text } := by
  have hl : a.loud = false := by rw [EditArgs.loud, hv]; rfl
  induction es with
  | nil =>
    intro i b w w'
    simp only [evalExpressions, runOk, Prod.mk.injEq, true_and]
    constructor
    · rintro rfl; exact ⟨[], b, [], .nil b, ⟨[], rfl, rfl⟩, by simp⟩
    · rintro ⟨vs, b', text, h1, h2, rfl⟩
      cases h1
      obtain ⟨ts, h3, rfl⟩ := h2
      have : ts = [] := by simpa using h3.symm
      subst this; simp
  | cons e es ih =>
    intro i b w w'
    unfold evalExpressions
    rw [hl, hq]
    simp only [say, Bool.false_eq_true, if_false, Bool.not_false, if_true]
    cases hp : parseScript a.format e with
    | panic =>
      simp only [runOk, Prod.mk.injEq, reduceCtorEq, false_and, false_iff]
      rintro ⟨vs, b', text, h1, _⟩
      obtain ⟨_, _, _, _, h2, h3, h1, rfl⟩ := evaluated_cons h1; rw [hp] at h2; cases h2
    | err x =>
      simp only [runOk, Prod.mk.injEq, Option.some.injEq, reduceCtorEq, false_and, false_iff]
      rintro ⟨vs, b', text, h1, _⟩
      obtain ⟨_, _, _, _, h2, h3, h1, rfl⟩ := evaluated_cons h1; rw [hp] at h2; cases h2
    | ok p =>
      rcases he : eval defaultEnv p b with ⟨r, b1⟩
      cases r with
      | panic =>
        simp only [he, runOk, Prod.mk.injEq, reduceCtorEq, false_and, false_iff]
        rintro ⟨vs, b', text, h1, _⟩
        obtain ⟨_, _, _, _, h2, h3, h1, rfl⟩ := evaluated_cons h1; rw [hp] at h2; cases h2; rw [he] at h3; cases h3
      | err x =>
        simp only [he, runOk, Prod.mk.injEq, Option.some.injEq, reduceCtorEq, false_and, false_iff]
        rintro ⟨vs, b', text, h1, _⟩
        obtain ⟨_, _, _, _, h2, h3, h1, rfl⟩ := evaluated_cons h1; rw [hp] at h2; cases h2; rw [he] at h3; cases h3
      | ok v =>
        simp only [he]
        cases ht : resultText a.outputFormat v with
        | error x =>
          simp only [runOk, Prod.mk.injEq, Option.some.injEq, reduceCtorEq, false_and, false_iff]
          rintro ⟨vs, b', text, h1, ⟨ts, h4, _⟩, _⟩
          obtain ⟨_, _, _, _, h2, h3, h1, rfl⟩ := evaluated_cons h1; rw [hp] at h2; cases h2; rw [he] at h3; cases h3
          cases ts with
          | nil => simp at h4
          | cons t ts => simp only [List.map_cons, List.cons.injEq] at h4; rw [ht] at h4; cases h4.1
        | ok t =>
          simp only [runOk]
          rw [ih (i + 1) b1 _ w']
          constructor
          · rintro ⟨vs, b', text, h1, ⟨ts, h2, rfl⟩, rfl⟩
            refine ⟨v :: vs, b', t ++ [nl] ++ ts.flatMap (· ++ [nl]), .cons hp he h1, ⟨t :: ts, ?_, ?_⟩, ?_⟩
            · simp [ht, h2]
            · simp
            · simp
          · rintro ⟨vs, b', text, h1, ⟨ts, h4, rfl⟩, rfl⟩
            obtain ⟨_, _, _, _, h2, h3, h1, rfl⟩ := evaluated_cons h1; rw [hp] at h2; cases h2; rw [he] at h3; cases h3
            cases ts with
            | nil => simp at h4
            | cons t' ts =>
              simp only [List.map_cons, List.cons.injEq] at h4
              rw [ht] at h4; obtain ⟨h5, h4⟩ := h4; cases h5
              exact ⟨_, b', _, h1, ⟨ts, h4, rfl⟩, by simp⟩

theorem exprs_err (m : Bytes → Bytes) (a : EditArgs) (hq : a.quiet = false) (hv : a.verbose = false) (src : Bytes) (msg : Bytes) (es : List Bytes) :
    ∀ (i : Nat) (b : Buffer) (w w' : World), runOk m (evalExpressions a src i es b) w = (some (some msg), w') ↔
      ∃ before e after vs b1 text line, es = before ++ e :: after ∧ Evaluated a.format before b vs b1 ∧ Printed a.outputFormat vs text ∧
        Stops a.format a.outputFormat (i + before.length + 1) e b1 msg line ∧ w' = { w with out := w.out ++ text ++ line } := by
  have hl : a.loud = false := by rw [EditArgs.loud, hv]; rfl
  induction es with
  | nil =>
    intro i b w w'
    simp [evalExpressions, runOk]
  | cons e es ih =>
    intro i b w w'
    -- the failing expression is this one, or it comes later
    have split : (∃ before e' after vs b1 text line, e :: es = before ++ e' :: after ∧ Evaluated a.format before b vs b1 ∧ Printed a.outputFormat vs text ∧
        Stops a.format a.outputFormat (i + before.length + 1) e' b1 msg line ∧ w' = { w with out := w.out ++ text ++ line }) ↔
        (∃ line, Stops a.format a.outputFormat (i + 1) e b msg line ∧ w' = { w with out := w.out ++ line }) ∨
        (∃ p v b2 t, parseScript a.format e = .ok p ∧ eval defaultEnv p b = (.ok v, b2) ∧ resultText a.outputFormat v = .ok t ∧
          ∃ before e' after vs b1 text line, es = before ++ e' :: after ∧ Evaluated a.format before b2 vs b1 ∧ Printed a.outputFormat vs text ∧
            Stops a.format a.outputFormat (i + 1 + before.length + 1) e' b1 msg line ∧
            w' = { w with out := w.out ++ (t ++ [nl]) ++ text ++ line }) := by
      constructor
      · rintro ⟨before, e', after, vs, b1, text, line, h1, h2, ⟨ts, h3, rfl⟩, h4, rfl⟩
        cases before with
        | nil =>
          cases h2
          have : ts = [] := by simpa using h3.symm
          subst this
          cases h1
          exact Or.inl ⟨line, h4, by simp⟩
        | cons x before =>
          obtain ⟨rfl, rfl⟩ := List.cons.inj h1
          obtain ⟨p, v, b2, vs, k1, k2, k3, rfl⟩ := evaluated_cons h2
          cases ts with
          | nil => simp at h3
          | cons t ts =>
            simp only [List.map_cons, List.cons.injEq] at h3
            refine Or.inr ⟨p, v, b2, t, k1, k2, h3.1, before, e', after, vs, b1, _, line, rfl, k3, ⟨ts, h3.2, rfl⟩, ?_, by simp⟩
            rw [show i + 1 + before.length + 1 = i + (e :: before).length + 1 by simp; omega]
            exact h4
      · rintro (⟨line, h4, rfl⟩ | ⟨p, v, b2, t, k1, k2, k3, before, e', after, vs, b1, text, line, rfl, h2, ⟨ts, h3, rfl⟩, h4, rfl⟩)
        · exact ⟨[], e, es, [], b, [], line, rfl, .nil b, ⟨[], rfl, rfl⟩, h4, by simp⟩
        · refine ⟨e :: before, e', after, v :: vs, b1, t ++ [nl] ++ ts.flatMap (· ++ [nl]), line, rfl, .cons k1 k2 h2, ⟨t :: ts, by simp [k3, h3], by simp⟩, ?_, by simp⟩
          rw [show i + (e :: before).length + 1 = i + 1 + before.length + 1 by simp; omega]
          exact h4
    rw [split]
    unfold evalExpressions
    rw [hl, hq]
    simp only [say, Bool.false_eq_true, if_false, Bool.not_false, if_true]
    cases hp : parseScript a.format e with
    | panic =>
      simp only [runOk, Prod.mk.injEq, reduceCtorEq, false_and, false_iff]
      rintro (⟨line, h4, _⟩ | ⟨p, v, b2, t, k1, _⟩)
      · cases h4 with
        | parse h => rw [hp] at h; cases h
        | run h _ => rw [hp] at h; cases h
        | «show» h _ _ => rw [hp] at h; cases h
    | err x =>
      simp only [runOk, Prod.mk.injEq, Option.some.injEq, reduceCtorEq, false_and, exists_false, or_false]
      constructor
      · rintro ⟨rfl, rfl⟩; exact ⟨_, .parse hp, rfl⟩
      · rintro ⟨line, h4, rfl⟩
        cases h4 with
        | parse h => rw [hp] at h; cases h; exact ⟨rfl, rfl⟩
        | run h _ => rw [hp] at h; cases h
        | «show» h _ _ => rw [hp] at h; cases h
    | ok p =>
      rcases he : eval defaultEnv p b with ⟨r, b1⟩
      cases r with
      | panic =>
        simp only [he, runOk, Prod.mk.injEq, reduceCtorEq, false_and, false_iff]
        rintro (⟨line, h4, _⟩ | ⟨p, v, b2, t, k1, k2, _⟩)
        · cases h4 with
          | parse h => rw [hp] at h; cases h
          | run h h' => rw [hp] at h; cases h; rw [he] at h'; cases h'
          | «show» h h' _ => rw [hp] at h; cases h; rw [he] at h'; cases h'
        · cases k1; rw [he] at k2; cases k2
      | err x =>
        simp only [he, runOk, Prod.mk.injEq, Option.some.injEq]
        constructor
        · rintro ⟨rfl, rfl⟩; exact Or.inl ⟨_, .run hp he, rfl⟩
        · rintro (⟨line, h4, rfl⟩ | ⟨p, v, b2, t, k1, k2, _⟩)
          · cases h4 with
            | parse h => rw [hp] at h; cases h
            | run h h' => rw [hp] at h; cases h; rw [he] at h'; cases h'; exact ⟨rfl, rfl⟩
            | «show» h h' _ => rw [hp] at h; cases h; rw [he] at h'; cases h'
          · cases k1; rw [he] at k2; cases k2
      | ok v =>
        simp only [he]
        cases ht : resultText a.outputFormat v with
        | error x =>
          simp only [runOk, Prod.mk.injEq, Option.some.injEq]
          constructor
          · rintro ⟨rfl, rfl⟩; exact Or.inl ⟨[], .show hp he ht, by simp⟩
          · rintro (⟨line, h4, rfl⟩ | ⟨p, v, b2, t, k1, k2, k3, _⟩)
            · cases h4 with
              | parse h => rw [hp] at h; cases h
              | run h h' => rw [hp] at h; cases h; rw [he] at h'; cases h'
              | «show» h h' h'' => rw [hp] at h; cases h; rw [he] at h'; cases h'; rw [ht] at h''; cases h''; exact ⟨rfl, by simp⟩
            · cases k1; rw [he] at k2; cases k2; rw [ht] at k3; cases k3
        | ok t =>
          simp only [runOk]
          rw [ih (i + 1) b1 _ w']
          constructor
          · intro h; exact Or.inr ⟨p, v, b1, t, rfl, he, ht, h⟩
          · rintro (⟨line, h4, rfl⟩ | ⟨p, v, b2, t', k1, k2, k3, h⟩)
            · cases h4 with
              | parse h => rw [hp] at h; cases h
              | run h h' => rw [hp] at h; cases h; rw [he] at h'; cases h'
              | «show» h h' h'' => rw [hp] at h; cases h; rw [he] at h'; cases h'; rw [ht] at h''; cases h''
            · cases k1; rw [he] at k2; cases k2; rw [ht] at k3; cases k3; exact h

/-! ### The command -/

/-- The world after standard input was read to its end, if it was read at all. -/
def afterInput (a : EditArgs) (w : World) : World := { w with input := if a.files = [] then [] else w.input }

theorem runEdit_expressions (a : EditArgs) (h : ¬ Contradictory a) (he : a.expressions ≠ []) : runEdit a = runExpressions a := by
  unfold Contradictory at h
  have h1 := fun x => h (Or.inl x)
  have h2 := fun x => h (Or.inr (Or.inl x))
  have h3 := fun x => h (Or.inr (Or.inr (Or.inl x)))
  have h4 := fun x => h (Or.inr (Or.inr (Or.inr x)))
  unfold runEdit
  rw [if_neg, if_neg h2, if_neg, if_neg h4, if_pos]
  · exact List.length_pos_iff.2 he
  · intro hx; exact h3 ⟨hx.1, by simpa using hx.2⟩
  · intro hx
    have : isValidFormat a.format = true := (isValidFormat_iff _).2 (Classical.byContradiction h1)
    rw [this] at hx; cases hx

theorem runExpressions_one (m : Bytes → Bytes) (a : EditArgs) (hf : a.files.length ≤ 1) (w : World) (c : Bytes) (hin : InputOf a w c) :
    ∃ src, runOk m (runExpressions a) w = runOk m (evalExpressions a src 0 a.expressions (newBuffer c)) (afterInput a w) := by
  unfold runExpressions InputOf at *
  cases hfs : a.files with
  | nil =>
    rw [hfs] at hin
    simp only [List.isEmpty_nil, if_true, runOk] at *
    subst hin
    refine ⟨b! "stdin", ?_⟩
    rw [afterInput, if_pos hfs]
  | cons f fs =>
    have : fs = [] := by
      rw [hfs] at hf; simp only [List.length_cons] at hf
      exact List.length_eq_zero_iff.1 (by omega)
    subst this
    rw [hfs] at hin
    simp only at hin
    refine ⟨f, ?_⟩
    have hw : afterInput a w = w := by rw [afterInput, if_neg (by rw [hfs]; simp)]
    rw [hw]
    simp only [List.isEmpty_cons, Bool.false_eq_true, if_false, expressionsOnFiles, runOk, hin, List.length_cons, List.length_nil,
      Nat.zero_add, gt_iff_lt, Nat.lt_irrefl, decide_false, Bool.false_and, say]
    rw [runOk_bind]
    rcases hr : runOk m (evalExpressions a f 0 a.expressions (newBuffer c)) w with ⟨r, w'⟩
    cases r with
    | none => rfl
    | some r => cases r <;> rfl

/-- C58. With -e and at most one text, the command succeeds iff all expressions parse, run and can be shown, each on the buffer its
predecessor left; it then has printed the results in order, each followed by a newline, and changed nothing else. -/
theorem C58_success (m : Bytes → Bytes) (a : EditArgs) (h : ¬ Contradictory a) (he : a.expressions ≠ []) (hf : a.files.length ≤ 1)
    (hq : a.quiet = false) (hv : a.verbose = false) (w w' : World) (c : Bytes) (hin : InputOf a w c) :
    runOk m (runEdit a) w = (some none, w') ↔
      ∃ vs b' text, Evaluated a.format a.expressions (newBuffer c) vs b' ∧ Printed a.outputFormat vs text ∧
        w'.out = w.out ++ text ∧ w'.files = w.files ∧ w'.input = (if a.files = [] then [] else w.input) := by
  rw [runEdit_expressions a h he]
  obtain ⟨src, hr⟩ := runExpressions_one m a hf w c hin
  rw [hr, exprs_ok m a hq hv]
  constructor
  · rintro ⟨vs, b', text, h1, h2, rfl⟩; exact ⟨vs, b', text, h1, h2, rfl, rfl, rfl⟩
  · rintro ⟨vs, b', text, h1, h2, h3, h4, h5⟩; exact ⟨vs, b', text, h1, h2, world_ext h4 h5 h3⟩

/-- C58. It ends with an error iff some expression is the first that does not parse, fails, or has a result that cannot be shown:
the results of the expressions before it have been printed, then a line naming the failed expression by its number (none when only the
result cannot be shown), and nothing after it has been evaluated. -/
theorem C58_stops_at_first_error (m : Bytes → Bytes) (a : EditArgs) (h : ¬ Contradictory a) (he : a.expressions ≠ []) (hf : a.files.length ≤ 1)
    (hq : a.quiet = false) (hv : a.verbose = false) (w w' : World) (c : Bytes) (hin : InputOf a w c) (msg : Bytes) :
    runOk m (runEdit a) w = (some (some msg), w') ↔
      ∃ before e after vs b1 text line, a.expressions = before ++ e :: after ∧ Evaluated a.format before (newBuffer c) vs b1 ∧
        Printed a.outputFormat vs text ∧ Stops a.format a.outputFormat (before.length + 1) e b1 msg line ∧
        w'.out = w.out ++ text ++ line ∧ w'.files = w.files ∧ w'.input = (if a.files = [] then [] else w.input) := by
  rw [runEdit_expressions a h he]
  obtain ⟨src, hr⟩ := runExpressions_one m a hf w c hin
  rw [hr, exprs_err m a hq hv]
  simp only [Nat.zero_add]
  constructor
  · rintro ⟨before, e, after, vs, b1, text, line, h0, h1, h2, h3, rfl⟩
    exact ⟨before, e, after, vs, b1, text, line, h0, h1, h2, h3, rfl, rfl, rfl⟩
  · rintro ⟨before, e, after, vs, b1, text, line, h0, h1, h2, h3, h4, h5, h6⟩
    exact ⟨before, e, after, vs, b1, text, line, h0, h1, h2, h3, world_ext h5 h6 h4⟩

theorem expressionsOnFiles_ok (m : Bytes → Bytes) (a : EditArgs) (hq : a.quiet = false) (hv : a.verbose = false) (fs : List Bytes) :
    ∀ (w w' : World), runOk m (expressionsOnFiles a true fs) w = (some none, w') ↔
      ∃ texts : List Bytes, texts.length = fs.length ∧
        (∀ p ∈ fs.zip texts, ∃ c vs b', w.files p.1 = some c ∧ Evaluated a.format a.expressions (newBuffer c) vs b' ∧ Printed a.outputFormat vs p.2) ∧
        w' = { w with out := w.out ++ (fs.zip texts).flatMap fun p => b! "=== " ++ p.1 ++ b! " ===\n" ++ p.2 } := by
  induction fs with
  | nil =>
    intro w w'
    simp only [expressionsOnFiles, runOk, Prod.mk.injEq, true_and]
    constructor
    · rintro rfl; exact ⟨[], rfl, by simp, by simp⟩
    · rintro ⟨texts, _, _, rfl⟩; simp
  | cons f fs ih =>
    intro w w'
    simp only [expressionsOnFiles, runOk]
    cases hc : w.files f with
    | none =>
      simp only [runOk_say, runOk, Prod.mk.injEq, Option.some.injEq, reduceCtorEq, false_and, false_iff]
      rintro ⟨texts, h1, h2, _⟩
      cases texts with
      | nil => simp at h1
      | cons t texts =>
        obtain ⟨c, vs, b', h3, _⟩ := h2 (f, t) (by simp)
        rw [hc] at h3; cases h3
    | some c =>
      simp only [runOk_say, runOk_bind, hq, Bool.not_false, Bool.true_and, World.printed, if_true]
      generalize hw1 : ({ w with out := w.out ++ (b! "=== " ++ f ++ b! " ===\n") } : World) = w1
      have hfiles : w1.files = w.files := by rw [← hw1]
      have hinput : w1.input = w.input := by rw [← hw1]
      have hout : w1.out = w.out ++ (b! "=== " ++ f ++ b! " ===\n") := by rw [← hw1]
      have hiff := fun w2 => exprs_ok m a hq hv f a.expressions 0 (newBuffer c) w1 w2
      rcases hr : runOk m (evalExpressions a f 0 a.expressions (newBuffer c)) w1 with ⟨r, w2⟩
      rw [hr] at hiff
      have hnot : r ≠ some none → ¬ ∃ texts : List Bytes, texts.length = (f :: fs).length ∧
        (∀ p ∈ (f :: fs).zip texts, ∃ c vs b', w.files p.1 = some c ∧ Evaluated a.format a.expressions (newBuffer c) vs b' ∧ Printed a.outputFormat vs p.2) ∧
        w' = { w with out := w.out ++ ((f :: fs).zip texts).flatMap fun p => b! "=== " ++ p.1 ++ b! " ===\n" ++ p.2 } := by
        rintro hne ⟨texts, h1, h2, _⟩
        cases texts with
        | nil => simp at h1
        | cons t texts =>
          obtain ⟨c', vs, b', h3, h4, h5⟩ := h2 (f, t) (by simp)
          rw [hc] at h3; cases h3
          have := (hiff _).2 ⟨vs, b', t, h4, h5, rfl⟩
          cases this
          exact hne rfl
      cases r with
      | none => simp only [Prod.mk.injEq, reduceCtorEq, false_and, false_iff]; exact hnot (by simp)
      | some r =>
        cases r with
        | some e => simp only [runOk, Prod.mk.injEq, Option.some.injEq, reduceCtorEq, false_and, false_iff]; exact hnot (by simp)
        | none =>
          obtain ⟨vs, b', text, k1, k2, k3⟩ := (hiff w2).1 rfl
          have k4 : w2.files = w.files := by rw [k3]; exact hfiles
          have k5 : w2.input = w.input := by rw [k3]; exact hinput
          have k6 : w2.out = w.out ++ (b! "=== " ++ f ++ b! " ===\n") ++ text := by rw [k3, ← hout]
          simp only
          rw [ih w2 w']
          rw [k4]
          constructor
          · rintro ⟨texts, h1, h2, h3⟩
            refine ⟨text :: texts, by simp [h1], ?_, ?_⟩
            · intro p hp
              rcases List.mem_cons.1 (by simpa using hp : p ∈ (f, text) :: fs.zip texts) with rfl | hp
              · exact ⟨c, vs, b', hc, k1, k2⟩
              · exact h2 p hp
            · rw [h3]
              refine world_ext rfl k5 ?_
              simp [k6]
          · rintro ⟨texts, h1, h2, h3⟩
            cases texts with
            | nil => simp at h1
            | cons t texts =>
              obtain ⟨c', vs', b'', h4, h5, h6⟩ := h2 (f, t) (by simp)
              rw [hc] at h4; cases h4
              have hw2 := (hiff _).2 ⟨vs', b'', t, h5, h6, rfl⟩
              have hw2 : w2 = { w1 with out := w1.out ++ t } := by cases hw2; rfl
              have ht : text = t := by
                have e1 : w2.out = w1.out ++ text := by rw [k3]
                have e2 : w2.out = w1.out ++ t := by rw [hw2]
                exact List.append_cancel_left (e1.symm.trans e2)
              subst ht
              refine ⟨texts, by simpa using h1, fun p hp => h2 p (by simp [hp]), ?_⟩
              rw [h3]
              refine world_ext rfl k5.symm ?_
              simp [k6]

/-- C58. With -e and several files, each file gets a buffer of its own with that file's contents; the command succeeds iff the
expressions succeed on every file, and prints for each file a header with its name and then its results. -/
theorem C58_files (m : Bytes → Bytes) (a : EditArgs) (h : ¬ Contradictory a) (he : a.expressions ≠ []) (hf : a.files.length > 1)
    (hq : a.quiet = false) (hv : a.verbose = false) (w w' : World) :
    runOk m (runEdit a) w = (some none, w') ↔
      ∃ texts : List Bytes, texts.length = a.files.length ∧
        (∀ p ∈ a.files.zip texts, ∃ c vs b', w.files p.1 = some c ∧ Evaluated a.format a.expressions (newBuffer c) vs b' ∧ Printed a.outputFormat vs p.2) ∧
        w' = { w with out := w.out ++ (a.files.zip texts).flatMap fun p => b! "=== " ++ p.1 ++ b! " ===\n" ++ p.2 } := by
  rw [runEdit_expressions a h he]
  unfold runExpressions
  have : a.files.isEmpty = false := by cases h : a.files with | nil => rw [h] at hf; simp at hf | cons => rfl
  rw [this, decide_eq_true hf]
  exact expressionsOnFiles_ok m a hq hv a.files w w'

/-! ### The same as one script -/

omit [Ext] in
theorem res_cat_ok {ε α : Type} {x y : Res ε (List α)} {l : List α} :
    x.cat y = .ok l ↔ ∃ p q, x = .ok p ∧ y = .ok q ∧ l = p ++ q := by
  cases x with
  | ok p =>
    cases y with
    | ok q => simp only [Res.cat, Res.bind, Res.ok.injEq]; constructor
              · rintro rfl; exact ⟨p, q, rfl, rfl, rfl⟩
              · rintro ⟨_, _, rfl, rfl, rfl⟩; rfl
    | err e => simp [Res.cat, Res.bind]
    | panic => simp [Res.cat, Res.bind]
  | err e => simp [Res.cat, Res.bind]
  | panic => simp [Res.cat, Res.bind]

theorem eval_append_ok (env : Env) (p q : List Value) (b b' : Buffer) :
    (∃ v, eval env (p ++ q) b = (.ok v, b')) ↔ ∃ u b1 v, eval env p b = (.ok u, b1) ∧ eval env q b1 = (.ok v, b') := by
  cases q with
  | nil =>
    rw [List.append_nil]
    constructor
    · rintro ⟨v, h⟩; exact ⟨v, b', .str [], h, rfl⟩
    · rintro ⟨u, b1, v, h1, h2⟩
      rw [C25_empty] at h2; cases h2; exact ⟨u, h1⟩
  | cons e es =>
    rw [C25_sequential env p (e :: es) (by simp)]
    rcases hp : eval env p b with ⟨r, b1⟩
    cases r with
    | err x => simp [hp]
    | panic => simp [hp]
    | ok u =>
      simp only [hp]
      rcases hq : eval env (e :: es) b1 with ⟨r, b2⟩
      cases r with
      | ok v =>
        simp only [hq]
        constructor
        · rintro ⟨v', h⟩; cases h; exact ⟨u, b1, v, rfl, hq⟩
        · rintro ⟨u', b1', v', h1, h2⟩; cases h1; rw [hq] at h2; exact ⟨v', h2⟩
      | err x => 
        constructor
        · rintro ⟨v', h⟩; cases h
        · rintro ⟨u', b1', v', h1, h2⟩; cases h1; rw [hq] at h2; cases h2
      | panic =>
        constructor
        · rintro ⟨v', h⟩; cases h
        · rintro ⟨u', b1', v', h1, h2⟩; cases h1; rw [hq] at h2; cases h2

/-- C58. Evaluating expressions one after the other does to the text what the script with the expressions on a line each does: one
succeeds iff the other does, with the same text. (For the shell and S-expression formats; JSON expressions are whole arrays, which do
not make an array when put together.) -/
theorem C58_like_one_script (format : Bytes) (hf : format ≠ b! "json") (e : Bytes) (es : List Bytes) (c t : Bytes) :
    (∃ vs b', Evaluated format (e :: es) (newBuffer c) vs b' ∧ b'.content = t) ↔ executeScript c (joinWith [nl] (e :: es)) = .ok t := by
  have key : ∀ (es : List Bytes) (e : Bytes) (b b' : Buffer), (∃ vs, Evaluated format (e :: es) b vs b') ↔
      ∃ p v, parseString (joinWith [nl] (e :: es)) = .ok p ∧ eval defaultEnv p b = (.ok v, b') := by
    intro es
    induction es with
    | nil =>
      intro e b b'
      constructor
      · rintro ⟨vs, h⟩
        obtain ⟨p, v, b1, vs', h1, h2, h3, rfl⟩ := evaluated_cons h
        cases h3
        rw [parseScript, if_neg hf] at h1
        exact ⟨p, v, h1, h2⟩
      · rintro ⟨p, v, h1, h2⟩
        exact ⟨[v], .cons (by rw [parseScript, if_neg hf]; exact h1) h2 (.nil _)⟩
    | cons e' es ih =>
      intro e b b'
      have hj : joinWith [nl] (e :: e' :: es) = e ++ nl :: joinWith [nl] (e' :: es) := by simp [joinWith]
      rw [hj, parseString_append]
      constructor
      · rintro ⟨vs, h⟩
        obtain ⟨p, v, b1, vs', h1, h2, h3, rfl⟩ := evaluated_cons h
        rw [parseScript, if_neg hf] at h1
        obtain ⟨q, u, h4, h5⟩ := (ih e' b1 b').1 ⟨_, h3⟩
        obtain ⟨x, hx⟩ := (eval_append_ok defaultEnv p q b b').2 ⟨v, b1, u, h2, h5⟩
        exact ⟨p ++ q, x, res_cat_ok.2 ⟨p, q, h1, h4, rfl⟩, hx⟩
      · rintro ⟨l, x, h1, h2⟩
        obtain ⟨p, q, h3, h4, rfl⟩ := res_cat_ok.1 h1
        obtain ⟨u, b1, v, h5, h6⟩ := (eval_append_ok defaultEnv p q b b').1 ⟨x, h2⟩
        obtain ⟨vs, h7⟩ := (ih e' b1 b').2 ⟨q, v, h4, h6⟩
        exact ⟨u :: vs, .cons (by rw [parseScript, if_neg hf]; exact h3) h5 h7⟩
  rw [C28_success]
  constructor
  · rintro ⟨vs, b', h, rfl⟩
    obtain ⟨p, v, h1, h2⟩ := (key es e _ b').1 ⟨vs, h⟩
    exact ⟨p, v, b', h1, h2, rfl⟩
  · rintro ⟨p, v, b', h1, h2, rfl⟩
    obtain ⟨vs, h⟩ := (key es e _ b').2 ⟨p, v, h1, h2⟩
    exact ⟨vs, b', h, rfl⟩

/-! ### One line each -/

theorem parseScript_lists {format s : Bytes} {p : List Value} (h : parseScript format s = .ok p) : ∀ v ∈ p, isList v := by
  unfold parseScript at h
  split at h
  · unfold Res.ofExcept at h
    split at h
    · rename_i p' hp
      cases h
      unfold parseJsonString at hp
      split at hp
      · rename_i l _
        obtain ⟨h1, h2⟩ := (C43_commands 0 l p).1 hp
        intro v hv
        have : Except.ok v ∈ l.map convertValue := by rw [h2]; exact List.mem_map_of_mem hv
        obtain ⟨j, hj, hc⟩ := List.mem_map.1 this
        obtain ⟨w, rfl⟩ := jsonCommand_list (C37_forth j v ((C43_commandTree j).2 (h1 j hj)) hc).1
        trivial
      · cases hp; simp
      · cases hp
    · cases h
  · exact C42_instructions_are_lists s p h

theorem eval_plain (p : List Value) (hp : ∀ v ∈ p, isList v) (b b' : Buffer) (r : Value) (h : eval defaultEnv p b = (.ok r, b')) : PlainResult r := by
  rcases List.eq_nil_or_concat p with rfl | ⟨q, e, rfl⟩
  · rw [C25_empty] at h; cases h; exact Or.inl ⟨_, rfl⟩
  · rw [List.concat_eq_append] at h hp
    obtain ⟨u, b1, _, h2⟩ := (C25_success defaultEnv q e b b' r).1 h
    exact evalExpr_plain e (hp e (by simp)) b1 b' r ((C26_big_step defaultEnv e b1 (.ok r) b').2 h2)

theorem evaluated_plain {format : Bytes} {es : List Bytes} {b b' : Buffer} {vs : List Value} (h : Evaluated format es b vs b') :
    ∀ v ∈ vs, PlainResult v := by
  induction h with
  | nil => simp
  | cons h1 h2 _ ih =>
    intro v hv
    rcases List.mem_cons.1 hv with rfl | hv
    · exact eval_plain _ (parseScript_lists h1) _ _ _ h2
    · exact ih v hv

omit [Ext] in
theorem TokAll.no_nl {s : Bytes} (h : TokAll s) : nl ∉ s := fun hn => absurd (h _ hn).1 (by decide)

theorem quote_no_nl (s : Bytes) : nl ∉ quote s := by
  intro h
  obtain ⟨cs, h1, _, h2⟩ := quote_text s
  rw [h1] at h
  obtain ⟨c, hc, he⟩ := mem_encodeAll h (by decide)
  have : c = '\n' := char_eq_of_toNat he
  subst this
  simp only [List.mem_cons, List.mem_append, List.not_mem_nil, or_false] at hc
  rcases hc with hc | hc | hc
  · exact absurd hc (by decide)
  · exact (h2 _ hc).1 rfl
  · exact absurd hc (by decide)

theorem resultText_plain (outputFormat : Bytes) (hf : outputFormat = b! "shell" ∨ outputFormat = b! "sexp") (v : Value) (h : PlainResult v) :
    ∃ t, resultText outputFormat v = .ok t ∧ nl ∉ t := by
  have hs : shellString (.list [v]) = match shellToken v with | .ok t => .ok t | .error e => .error e := by
    simp only [shellString, shellTokens]; cases shellToken v <;> rfl
  rcases hf with rfl | rfl
  · rw [resultText, if_pos rfl, hs]
    rcases h with ⟨s, rfl⟩ | ⟨n, rfl⟩ | rfl | rfl
    · exact ⟨_, rfl, quote_no_nl s⟩
    · exact ⟨_, rfl, (numString_tok _).no_nl⟩
    · exact ⟨_, rfl, by decide⟩
    · exact ⟨_, rfl, by decide⟩
  · rw [resultText, if_neg (by decide), if_pos rfl]
    rcases h with ⟨s, rfl⟩ | ⟨n, rfl⟩ | rfl | rfl
    · exact ⟨_, rfl, quote_no_nl s⟩
    · exact ⟨_, rfl, (numString_tok _).no_nl⟩
    · exact ⟨_, rfl, by simp only [Value.toStr]; decide⟩
    · exact ⟨_, rfl, by simp only [Value.toStr]; decide⟩

/-- C58. With shell or S-expression output every result can be shown and is exactly one line: the output for `n` successful
expressions is `n` texts without newlines, each followed by one. -/
theorem C58_one_line_each (format outputFormat : Bytes) (hf : outputFormat = b! "shell" ∨ outputFormat = b! "sexp") (es : List Bytes)
    (b b' : Buffer) (vs : List Value) (h : Evaluated format es b vs b') :
    ∃ ts : List Bytes, ts.length = es.length ∧ (∀ t ∈ ts, nl ∉ t) ∧ Printed outputFormat vs (ts.flatMap (· ++ [nl])) := by
  have hp := evaluated_plain h
  have hl : vs.length = es.length := by
    clear hp
    induction h with
    | nil => rfl
    | cons _ _ _ ih => simp [ih]
  rw [← hl]
  clear hl h
  induction vs with
  | nil => exact ⟨[], rfl, by simp, [], rfl, rfl⟩
  | cons v vs ih =>
    obtain ⟨ts, h1, h2, ts', h3, h4⟩ := ih fun v hv => hp v (List.mem_cons_of_mem _ hv)
    obtain ⟨t, h5, h6⟩ := resultText_plain outputFormat hf v (hp v List.mem_cons_self)
    refine ⟨t :: ts, by simp [h1], ?_, t :: ts', by simp [h5, h3], by simp [h4]⟩
    intro x hx
    rcases List.mem_cons.1 hx with rfl | hx
    · exact h6
    · exact h2 x hx

/-- C58, a surprise: with JSON output the text of a result already ends in a newline, so every result is followed by an empty line. -/
theorem C58_json_blank_line (vs : List Value) (text : Bytes) (h : Printed (b! "json") vs text) :
    ∃ ls : List Bytes, vs.map (fun v => jsonPrint (valueToJson v)) = ls.map some ∧ text = ls.flatMap fun l => l ++ [nl] ++ [nl] := by
  obtain ⟨ts, h1, rfl⟩ := h
  induction vs generalizing ts with
  | nil =>
    have : ts = [] := by simpa using h1.symm
    subst this
    exact ⟨[], rfl, rfl⟩
  | cons v vs ih =>
    cases ts with
    | nil => simp at h1
    | cons t ts =>
      simp only [List.map_cons, List.cons.injEq] at h1
      obtain ⟨ls, h2, h3⟩ := ih ts h1.2
      have h4 := h1.1
      rw [resultText, if_neg (by decide), if_neg (by decide), if_pos rfl] at h4
      unfold writeJsonValue at h4
      cases hj : jsonPrint (valueToJson v) with
      | none => rw [hj] at h4; cases h4
      | some l =>
        rw [hj] at h4
        simp only [Option.map_some, Except.ok.injEq] at h4
        subst h4
        exact ⟨l :: ls, by simp [hj, h2], by simp [h3]⟩

/-! ### Quiet -/

/-- The program prints nothing. -/
def Silent {α : Type} : Proc α → Prop
  | .ret _ => True
  | .panic => True
  | .act a k => (∀ t, a ≠ .print t) ∧ ∀ r, Silent (k r)

omit [Ext] in
theorem Silent.say {α : Type} {t : Bytes} {p : Proc α} (h : Silent p) : Silent (Texted.say false t p) := h

omit [Ext] in
theorem Silent.bind {α β : Type} {p : Proc α} {f : α → Proc β} (h : Silent p) (hf : ∀ a, Silent (f a)) : Silent (p.bind f) := by
  induction p with
  | ret a => exact hf a
  | panic => trivial
  | act a k ih => exact ⟨h.1, fun r => ih r (h.2 r)⟩

omit [Ext] in
theorem ActEnds.out {a : Act} {w w' : World} {r : Except Bytes Bytes} (h : ActEnds a w r w') (ha : ∀ t, a ≠ .print t) : w'.out = w.out := by
  cases a with
  | read p => obtain ⟨rfl, _⟩ := h; rfl
  | write p d => rcases h with ⟨_, rfl⟩ | ⟨_, _, rfl | ⟨_, _, rfl⟩⟩ <;> rfl
  | print d => exact absurd rfl (ha d)
  | stdin => obtain ⟨rfl, _⟩ := h; rfl

omit [Ext] in
theorem Silent.sees {α : Type} {p : Proc α} (h : Silent p) {w w' : World} (hs : Sees p w w') : w'.out = w.out := by
  induction p generalizing w with
  | ret a => rw [sees_ret.1 hs]
  | panic => rw [sees_panic.1 hs]
  | act a k ih =>
    rcases sees_act.1 hs with (rfl | hs) | ⟨r, w1, h1, h2⟩
    · rfl
    · cases a with
      | write p d => obtain ⟨n, _, rfl⟩ := hs; rfl
      | read => exact hs.elim
      | print => exact hs.elim
      | stdin => exact hs.elim
    · rw [ih r (h.2 r) h2, h1.out h.1]

theorem silent_evalExpressions (a : EditArgs) (hq : a.quiet = true) (src : Bytes) (es : List Bytes) :
    ∀ (i : Nat) (b : Buffer), Silent (evalExpressions a src i es b) := by
  have hl : a.loud = false := by simp [EditArgs.loud, hq]
  induction es with
  | nil => intro i b; trivial
  | cons e es ih =>
    intro i b
    unfold evalExpressions
    rw [hl, hq]
    refine Silent.say ?_
    split
    · trivial
    · exact Silent.say trivial
    · split
      · trivial
      · exact Silent.say trivial
      · rw [if_pos rfl]; exact ih _ _

theorem silent_expressionsOnFiles (a : EditArgs) (hq : a.quiet = true) (many : Bool) (fs : List Bytes) : Silent (expressionsOnFiles a many fs) := by
  induction fs with
  | nil => trivial
  | cons f fs ih =>
    refine ⟨fun _ h => (nomatch h), fun r => ?_⟩
    cases r with
    | error e => simp only [hq]; exact Silent.say trivial
    | ok c =>
      simp only [hq, Bool.not_true, Bool.and_false]
      refine Silent.say (Silent.bind (silent_evalExpressions a hq f a.expressions 0 _) fun e => ?_)
      cases e with
      | none => exact ih
      | some e => trivial

/-- C58. With --quiet, nothing is printed in expression mode at any moment: no result, no header and no error line. -/
theorem C58_quiet_prints_nothing (a : EditArgs) (he : a.expressions ≠ []) (hq : a.quiet = true) (w w' : World) (hs : Sees (runEdit a) w w') :
    w'.out = w.out := by
  refine Silent.sees ?_ hs
  by_cases hc : Contradictory a
  · obtain ⟨e, h⟩ := refused_of_contradictory a hc
    rw [h]; trivial
  · rw [runEdit_expressions a hc he]
    unfold runExpressions
    split
    · refine ⟨fun _ h => (nomatch h), fun r => ?_⟩
      cases r with
      | error e => trivial
      | ok c => exact silent_evalExpressions a hq _ _ _ _
    · exact silent_expressionsOnFiles a hq _ _

theorem exprs_quiet (m : Bytes → Bytes) (a : EditArgs) (hq : a.quiet = true) (src : Bytes) (es : List Bytes) :
    ∀ (i : Nat) (b : Buffer) (w w' : World), runOk m (evalExpressions a src i es b) w = (some none, w') ↔
      (∃ vs b', Evaluated a.format es b vs b') ∧ w' = w := by
  have hl : a.loud = false := by simp [EditArgs.loud, hq]
  induction es with
  | nil =>
    intro i b w w'
    simp only [evalExpressions, runOk, Prod.mk.injEq, true_and]
    constructor
    · rintro rfl; exact ⟨⟨[], b, .nil b⟩, rfl⟩
    · rintro ⟨_, rfl⟩; rfl
  | cons e es ih =>
    intro i b w w'
    unfold evalExpressions
    rw [hl, hq]
    simp only [say, Bool.false_eq_true, if_false, Bool.not_true, if_true]
    cases hp : parseScript a.format e with
    | panic =>
      simp only [runOk, Prod.mk.injEq, reduceCtorEq, false_and, false_iff]
      rintro ⟨⟨vs, b', h1⟩, _⟩
      obtain ⟨_, _, _, _, h2, _⟩ := evaluated_cons h1; rw [hp] at h2; cases h2
    | err x =>
      simp only [runOk, Prod.mk.injEq, Option.some.injEq, reduceCtorEq, false_and, false_iff]
      rintro ⟨⟨vs, b', h1⟩, _⟩
      obtain ⟨_, _, _, _, h2, _⟩ := evaluated_cons h1; rw [hp] at h2; cases h2
    | ok p =>
      rcases he : eval defaultEnv p b with ⟨r, b1⟩
      cases r with
      | panic =>
        simp only [he, runOk, Prod.mk.injEq, reduceCtorEq, false_and, false_iff]
        rintro ⟨⟨vs, b', h1⟩, _⟩
        obtain ⟨_, _, _, _, h2, h3, h1, rfl⟩ := evaluated_cons h1; rw [hp] at h2; cases h2; rw [he] at h3; cases h3
      | err x =>
        simp only [he, runOk, Prod.mk.injEq, Option.some.injEq, reduceCtorEq, false_and, false_iff]
        rintro ⟨⟨vs, b', h1⟩, _⟩
        obtain ⟨_, _, _, _, h2, h3, h1, rfl⟩ := evaluated_cons h1; rw [hp] at h2; cases h2; rw [he] at h3; cases h3
      | ok v =>
        simp only [he]
        rw [ih (i + 1) b1 w w']
        refine and_congr_left fun _ => ?_
        constructor
        · rintro ⟨vs, b', h⟩; exact ⟨v :: vs, b', .cons hp he h⟩
        · rintro ⟨vs, b', h1⟩
          obtain ⟨_, _, _, _, h2, h3, h1, rfl⟩ := evaluated_cons h1; rw [hp] at h2; cases h2; rw [he] at h3; cases h3
          exact ⟨_, b', h1⟩

/-- C58. With --quiet the command still reports, by ending without an error, whether all expressions parse and run. -/
theorem C58_quiet_success (m : Bytes → Bytes) (a : EditArgs) (h : ¬ Contradictory a) (he : a.expressions ≠ []) (hf : a.files.length ≤ 1)
    (hq : a.quiet = true) (w : World) (c : Bytes) (hin : InputOf a w c) :
    (runOk m (runEdit a) w).1 = some none ↔ ∃ vs b', Evaluated a.format a.expressions (newBuffer c) vs b' := by
  rw [runEdit_expressions a h he]
  obtain ⟨src, hr⟩ := runExpressions_one m a hf w c hin
  rw [hr]
  have := fun w' => exprs_quiet m a hq src a.expressions 0 (newBuffer c) (afterInput a w) w'
  constructor
  · intro h1
    refine ((this (runOk m (evalExpressions a src 0 a.expressions (newBuffer c)) (afterInput a w)).2).1 ?_).1
    rw [← h1]
  · intro h1
    rw [(this _).2 ⟨h1, rfl⟩]

end

/-! ### The hypotheses are met -/

/-- `texted edit -e 'insert "x"' -e 'point' f` on a file `f` with contents `ab`. -/
def exprArgs : EditArgs := { expressions := [b! "insert \"x\"", b! "point"], files := [b! "f"] }
/-- The files. -/
def exprWorld : World := { files := fun p => if p = b! "f" then some (b! "ab") else none, input := [], out := [] }

example : ¬ Contradictory exprArgs := by
  intro h
  rcases h with h | h | h | h
  · exact h (Or.inl rfl)
  · exact absurd h.1 (by decide)
  · exact absurd h.1 (by decide)
  · exact absurd h.1 (by decide)
example : InputOf exprArgs exprWorld (b! "ab") := rfl
example : letI := litExt; (runOk (fun _ => []) (runEdit exprArgs) exprWorld).1 = some none ∧
    (runOk (fun _ => []) (runEdit exprArgs) exprWorld).2.out = b! "\"\"\n2\n" := by decide +kernel
example : letI := litExt; (runOk (fun _ => []) (runEdit { exprArgs with outputFormat := b! "json" }) exprWorld).2.out = b! "\"\"\n\n2\n\n" := by
  decide +kernel
example : letI := litExt; (runOk (fun _ => []) (runEdit { exprArgs with expressions := [b! "point", b! "search-forward \"z\"", b! "point"] }) exprWorld).2.out =
    b! "1\nError in expression 2: search failed (at instruction 0: (search-forward \"z\"), point=1, mark=1)\n" := by
  decide +kernel

end Texted
