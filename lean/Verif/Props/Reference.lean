import Verif.Spec.Reference
import Verif.Props.Errors
/-
C85: the function reference docs/functions.md, compared with what the program does.
-/
namespace Texted
open Spec

/-- The functions of the reference that do not exist: all of its chapters on lists (except `length`), numbers and control flow. -/
def notImplemented : List Bytes :=
  [b! "list", b! "nth", b! "first", b! "rest", b! "append", b! "+", b! "-", b! "*", b! "/", b! "=", b! "<", b! ">", b! "<=", b! ">=",
   b! "progn", b! "if", b! "when", b! "unless", b! "and", b! "or", b! "not"]

/-- The entries whose parameters are not those of the function. -/
def otherParameters : List RefEntry :=
  [⟨b! "mark-word", [⟨b! "count", b! "number", true⟩]⟩, ⟨b! "line-number-at-pos", [⟨b! "position", b! "number", true⟩]⟩,
   ⟨b! "concat", [⟨b! "string1", b! "string", false⟩, ⟨b! "string2", b! "string", false⟩]⟩, ⟨b! "length", [⟨b! "list", b! "list", false⟩]⟩]

/-- **C85**: every function there is is in the reference, and of the reference exactly these 21 do not exist. -/
theorem C85_functions [Ext] (name : Bytes) :
    (defaultEnv name : Option Builtin).isSome ↔ (∃ r ∈ functionReference, r.name = name) ∧ name ∉ notImplemented := by
  rw [C55_documented_iff_defined]
  have ha : ∀ n ∈ docTable.map (·.name), n ∈ functionReference.map (·.name) ∧ n ∉ notImplemented := by decide +kernel
  have hb : ∀ n ∈ functionReference.map (·.name), n ∉ notImplemented → n ∈ docTable.map (·.name) := by decide +kernel
  constructor
  · rintro ⟨d, hd, rfl⟩
    obtain ⟨h1, h2⟩ := ha _ (List.mem_map.2 ⟨d, hd, rfl⟩)
    exact ⟨List.mem_map.1 h1, h2⟩
  · rintro ⟨⟨r, hr, rfl⟩, h⟩
    exact List.mem_map.1 (hb _ (List.mem_map.2 ⟨r, hr, rfl⟩) h)

section
variable [Ext]

theorem notImplemented_undefined {f : Bytes} (h : f ∈ notImplemented) : (defaultEnv f : Option Builtin) = none := by
  cases he : (defaultEnv f : Option Builtin) with
  | none => rfl
  | some x => exact absurd h ((C85_functions f).1 (by rw [he]; rfl)).2

/-- **C85**: a call of one of those fails, whatever its arguments: they are not even evaluated, and nothing changes. In particular there
is no control flow: neither branch of an `if` is done. -/
theorem C85_not_implemented (f : Bytes) (h : f ∈ notImplemented) (args : List Value) (b : Buffer) :
    evalExpr defaultEnv (.list (.sym f :: args)) b = (.err (b! "undefined-function " ++ quote f), b) := by
  rw [evalExpr, notImplemented_undefined h]

mutual
theorem ok_defined : ∀ (e : Value) (b b' : Buffer) (v : Value), evalExpr defaultEnv e b = (.ok v, b') → ∀ f ∈ postorder e, (defaultEnv f : Option Builtin).isSome
  | .str _, _, _, _, _, f, hf => by simp [postorder] at hf
  | .num _, _, _, _, _, f, hf => by simp [postorder] at hf
  | .sym _, _, _, _, _, f, hf => by simp [postorder] at hf
  | .list [], _, _, _, _, f, hf => by simp [postorder] at hf
  | .list (.sym g :: args), b, b', v, h, f, hf => by
    rw [evalExpr] at h
    cases hg : (defaultEnv g : Option Builtin) with
    | none => rw [hg] at h; cases h
    | some fn =>
      rw [hg] at h
      simp only [postorder, List.mem_append, List.mem_singleton] at hf
      rcases hf with hf | rfl
      · cases ha : evalArgs defaultEnv args b with
        | mk r b1 =>
          rw [ha] at h
          cases r with
          | ok vs => exact oks_defined args b b1 vs ha f hf
          | err e => cases h
          | panic => cases h
      · rw [hg]; rfl
  | .list (.str _ :: _), _, _, _, h, f, hf => by simp [evalExpr] at h
  | .list (.num _ :: _), _, _, _, h, f, hf => by simp [evalExpr] at h
  | .list (.list _ :: _), _, _, _, h, f, hf => by simp [evalExpr] at h
theorem oks_defined : ∀ (as : List Value) (b b' : Buffer) (vs : List Value), evalArgs defaultEnv as b = (.ok vs, b') → ∀ f ∈ postorders as, (defaultEnv f : Option Builtin).isSome
  | [], _, _, _, _, f, hf => by simp [postorders] at hf
  | a :: as, b, b', vs, h, f, hf => by
    rw [evalArgs] at h
    simp only [postorders, List.mem_append] at hf
    cases ha : evalExpr defaultEnv a b with
    | mk r b1 =>
      rw [ha] at h
      cases r with
      | ok v =>
        rcases hf with hf | hf
        · exact ok_defined a b b1 v ha f hf
        · cases hs : evalArgs defaultEnv as b1 with
          | mk r b2 =>
            simp only [hs] at h
            cases r with
            | ok us => exact oks_defined as b1 b2 us hs f hf
            | err e => cases h
            | panic => cases h
      | err e => cases h
      | panic => cases h
end

/-- **C85**: a script succeeds only if every function in it, nested however deep, exists. So a script in which one of those 21 occurs
as a function never succeeds, on any text. -/
theorem C85_only_existing (c script t : Bytes) (program : List Value) (hp : parseString script = .ok program) (h : executeScript c script = .ok t)
    (e : Value) (he : e ∈ program) (f : Bytes) (hf : f ∈ postorder e) : (∃ r ∈ functionReference, r.name = f) ∧ f ∉ notImplemented := by
  rw [← C85_functions]
  have key : ∀ (whole es : List Value) (i : Nat) (v : Value) (b : Buffer) (r : Value), (evalLoopNoTrace defaultEnv whole i v es b).1 = .ok r → 
      ∀ e ∈ es, ∃ b1 b2 u, evalExpr defaultEnv e b1 = (.ok u, b2) := by
    intro whole es
    induction es with
    | nil => intro i v b r _ e he; simp at he
    | cons x xs ih =>
      intro i v b r hr e he
      rw [evalLoopNoTrace] at hr
      cases hx : evalExpr defaultEnv x b with
      | mk q b1 =>
        rw [hx] at hr
        cases q with
        | ok u =>
          rcases List.mem_cons.1 he with rfl | he
          · exact ⟨b, b1, u, hx⟩
          · exact ih _ _ _ _ hr e he
        | err m => cases hr
        | panic => cases hr
  obtain ⟨p', v, b, hp', hv, _⟩ := (C28_success c script t).1 h
  rw [hp] at hp'
  cases hp'
  rw [eval] at hv
  have hv1 := congrArg Prod.fst hv
  simp only at hv1
  obtain ⟨b1, b2, u, hu⟩ := key _ _ _ _ _ _ hv1 e he
  exact ok_defined e b1 b2 u hu f hf

/-- **C85**: every other entry gives the parameters: used otherwise, the function refuses with a message that says what it expects, and
changes nothing; used as described, it can fail only for one of the four reasons. -/
theorem C85_parameters (r : RefEntry) (hr : r ∈ functionReference) (hn : r.name ∉ notImplemented) (ho : r ∉ otherParameters) (args : List Value) (b : Buffer) :
    (¬ Fits r.parameters args → ∃ what, call r.name args b = (.err (r.name ++ b! " expects " ++ what), b)) ∧
    (Fits r.parameters args → ∀ e, (call r.name args b).1 = .err e → Reason e) := by
  have hk : ∀ r ∈ functionReference, r.name ∉ notImplemented → r ∉ otherParameters →
      ∃ d ∈ docTable, d.name = r.name ∧ d.name ≠ b! "concat" ∧ d.parameters.map (fun p => (p.type, p.optional)) = r.parameters.map (fun p => (p.type, p.optional)) := by
    decide +kernel
  obtain ⟨d, hd, h1, h2, h3⟩ := hk r hr hn ho
  have hf : Fits r.parameters args ↔ Fits d.parameters args := by
    have gen : ∀ (ps qs : List ParamSig) (args : List Value), ps.map (fun p => (p.type, p.optional)) = qs.map (fun p => (p.type, p.optional)) →
        Fits ps args → Fits qs args := by
      intro ps qs args hm h
      induction h generalizing qs with
      | none ps hps =>
        refine .none _ fun q hq => ?_
        have : (q.type, q.optional) ∈ ps.map (fun p => (p.type, p.optional)) := by rw [hm]; exact List.mem_map.2 ⟨q, hq, rfl⟩
        obtain ⟨p, hp, he⟩ := List.mem_map.1 this
        injection he with _ he
        rw [← he]; exact hps p hp
      | cons p ps v vs hv _ ih =>
        cases qs with
        | nil => simp at hm
        | cons q qs =>
          simp only [List.map_cons, List.cons.injEq, Prod.mk.injEq] at hm
          exact .cons q qs v vs (hm.1.1 ▸ hv) (ih qs hm.2)
    exact ⟨gen _ _ _ h3.symm, gen _ _ _ h3⟩
  rw [← h1, hf]
  exact ⟨C63_misuse_refused d hd h2 args b, fun h => C63_documented_use d hd args b h⟩

/-- **C85**, refuted: "`mark-word` takes a count, `line-number-at-pos` a position". Neither takes any argument. -/
theorem C85_false_count (v : Value) (b : Buffer) :
    call (b! "mark-word") [v] b = (.err (b! "mark-word expects 0 arguments, got 1"), b) ∧
    call (b! "line-number-at-pos") [v] b = (.err (b! "line-number-at-pos expects 0 arguments, got 1"), b) := ⟨rfl, rfl⟩

/-- **C85**, refuted: "`length` returns the number of elements of a list". It takes no list. (`concat` takes any number of strings: C63_concat.) -/
theorem C85_false_length (l : List Value) (b : Buffer) :
    call (b! "length") [.list l] b = (.err (b! "length expects a string argument"), b) := rfl

/-- **C85**, refuted: "`mark-word` sets mark at point". Inside a word, mark goes to its beginning. -/
theorem C85_false_mark_word : call (b! "mark-word") [] { newBuffer (b! "ab cd") with point := 2 } =
    (okEmpty, { newBuffer (b! "ab cd") with mark := 1, point := 3 }) := rfl

/-! ### The hypotheses are met -/

/-- An entry, and arguments for it. -/
example : ⟨b! "goto-char", [⟨b! "position", b! "number", false⟩]⟩ ∈ functionReference ∧ b! "goto-char" ∉ notImplemented ∧
    ⟨b! "goto-char", [⟨b! "position", b! "number", false⟩]⟩ ∉ otherParameters ∧ ¬ Fits [⟨b! "position", b! "number", false⟩] [.str b! "x"] :=
  ⟨by decide +kernel, by decide +kernel, by decide +kernel, by rw [fits_num]; simp⟩

end

/-- A script with nested calls that succeeds. -/
example : letI := litExt; ∃ p e, parseString (b! "insert (concat \"a\" (upcase \"b\"))") = .ok p ∧ e ∈ p ∧ postorder e = [b! "upcase", b! "concat", b! "insert"] ∧
    executeScript (b! "x") (b! "insert (concat \"a\" (upcase \"b\"))") = .ok (b! "aBx") := by
  letI := litExt
  exact ⟨[.list [.sym (b! "insert"), .list [.sym (b! "concat"), .str (b! "a"), .list [.sym (b! "upcase"), .str (b! "b")]]]], _, by decide +kernel, List.mem_singleton.2 rfl,
    by decide, by decide +kernel⟩

/-- An `if` in a script. -/
example : @executeScript litExt (b! "x") (b! "if (looking-at \"x\") (insert \"a\") (insert \"b\")") =
    .err (b! "script execution failed: undefined-function \"if\" (at instruction 0: (if (looking-at \"x\") (insert \"a\") (insert \"b\")), point=1, mark=1)") := by
  decide +kernel

/-- The value of the last instruction of a script, if it succeeds. -/
def valueOn [Ext] (c script : Bytes) : Option Value :=
  match parseString script with
  | .ok p => match eval defaultEnv p (newBuffer c) with
    | (.ok v, _) => some v
    | _ => none
  | _ => none

/-- **C85**, refuted: examples that the program's own documentation gives. `beginning-of-line; current-column` is said to return 0 and `goto-char 6;
current-column` 5; `set-mark 5; mark` is said to return 5; `end-of-buffer search-backward "test"` to find something. -/
theorem C85_false_examples : letI := litExt;
    valueOn (b! "Hello world") (b! "beginning-of-line; current-column") = some (numV 1) ∧
    valueOn (b! "Hello world") (b! "goto-char 6; current-column") = some (numV 6) ∧
    (∀ c, valueOn c (b! "set-mark 5; mark") = none) ∧ (∀ c, valueOn c (b! "end-of-buffer search-backward \"test\"") = none) := by
  letI := litExt
  have h1 : parseString (b! "set-mark 5; mark") = .ok [.list [.sym (b! "set-mark"), numV 5], .list [.sym (b! "mark")]] := by decide +kernel
  have h2 : parseString (b! "end-of-buffer search-backward \"test\"") =
    .ok [.list [.sym (b! "end-of-buffer"), .sym (b! "search-backward"), .str (b! "test")]] := by decide +kernel
  refine ⟨by decide +kernel, by decide +kernel, fun c => ?_, fun c => ?_⟩
  · simp only [valueOn, h1]; rfl
  · simp only [valueOn, h2]; rfl

end Texted
