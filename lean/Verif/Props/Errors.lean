import Verif.Spec.Errors
import Verif.Props.Docs
import Verif.Props.Evaluator
import Verif.Props.Files
/- C80: what the errors of running scripts say. -/
namespace Texted
open Spec

/-- `call` was refused with a message that is true of the arguments, and nothing has changed. -/
def Misused (name : Bytes) (ps : List ParamSig) (args : List Value) (r : Res Bytes Value × Buffer) (b : Buffer) : Prop :=
  ∃ m, Misuse name ps args m ∧ r = (.err m, b)

theorem count_misused {name : Bytes} {ps : List ParamSig} {args : List Value} (b : Buffer) (text : Bytes) (ht : text = countText ps)
    (h : args.length < needed ps ∨ ps.length < args.length) : Misused name ps args (fail (arity name text args.length) b) b := by
  subst ht; exact ⟨_, .count h, rfl⟩

theorem type_misused {name : Bytes} {ps : List ParamSig} {args : List Value} (b : Buffer) (m : Bytes) (what : Bytes) (i : Nat) (p : ParamSig) (v : Value)
    (hm : m = name ++ b! " expects " ++ what)
    (h1 : needed ps ≤ args.length) (h2 : args.length ≤ ps.length) (h3 : ps[i]? = some p) (h4 : args[i]? = some v) (h5 : ¬ HasType p.type v)
    (h6 : Wanted p.type i what) : Misused name ps args (fail m b) b := by
  subst hm; exact ⟨_, .type h1 h2 h3 h4 h5 h6, rfl⟩

theorem noArgs_misused {name : Bytes} {args : List Value} {b : Buffer} {k} (h : args ≠ []) : Misused name [] args (noArgs name args b k) b := by
  cases args with
  | nil => exact absurd rfl h
  | cons v vs => exact count_misused b _ rfl (.inr (by simp))

theorem many {α : Type} {n : Nat} {v w : α} {vs : List α} (h : n ≤ 1) : n < (v :: w :: vs).length := by simp; omega

theorem oneStr_misused {name n : Bytes} {args : List Value} {b : Buffer} {k} (h : ¬ ∃ s, args = [.str s]) :
    Misused name [⟨n, b! "string", false⟩] args (oneStr name args b k) b := by
  rcases args with _ | ⟨v, _ | ⟨w, vs⟩⟩
  · exact count_misused b _ rfl (.inl (by simp [needed]))
  · cases v with
    | str s => exact absurd ⟨s, rfl⟩ h
    | sym _ | num _ | list _ => exact type_misused b _ _ 0 _ _ (by rw [List.append_assoc]; rfl) (by simp [needed]) (by simp) rfl rfl (by simp [HasType]) .only
  · cases v <;> exact count_misused b _ rfl (.inr (many (Nat.le_refl 1)))

variable [Ext]

theorem oneNum_misused {name n : Bytes} {args : List Value} {b : Buffer} {k} (h : ¬ ∃ s, args = [.num s]) :
    Misused name [⟨n, b! "number", false⟩] args (oneNum name args b k) b := by
  rcases args with _ | ⟨v, _ | ⟨w, vs⟩⟩
  · exact count_misused b _ rfl (.inl (by simp [needed]))
  · cases v with
    | num s => exact absurd ⟨s, rfl⟩ h
    | sym _ | str _ | list _ => exact type_misused b _ _ 0 _ _ (by rw [List.append_assoc]; rfl) (by simp [needed]) (by simp) rfl rfl (by simp [HasType]) .only
  · cases v <;> exact count_misused b _ rfl (.inr (many (Nat.le_refl 1)))

theorem withCount_misused {name n : Bytes} {args : List Value} {b : Buffer} {k} (h : ¬ (args = [] ∨ ∃ x, args = [.num x])) :
    Misused name [⟨n, b! "number", true⟩] args (withCount name args b k) b := by
  rcases args with _ | ⟨v, _ | ⟨w, vs⟩⟩
  · exact absurd (.inl rfl) h
  · cases v with
    | num s => exact absurd (.inr ⟨s, rfl⟩) h
    | sym _ | str _ | list _ => exact type_misused b _ _ 0 _ _ (by rw [List.append_assoc]; rfl) (by simp [needed]) (by simp) rfl rfl (by simp [HasType]) .only
  · cases v <;> exact count_misused b _ rfl (.inr (many (Nat.le_refl 1)))

theorem setMarkCommand_misused {n : Bytes} {args : List Value} {b : Buffer} (h : ¬ (args = [] ∨ ∃ x, args = [.num x])) :
    Misused b! "set-mark-command" [⟨n, b! "number", true⟩] args (builtinSetMarkCommand args b) b := by
  rcases args with _ | ⟨v, _ | ⟨w, vs⟩⟩
  · exact absurd (.inl rfl) h
  · cases v with
    | num s => exact absurd (.inr ⟨s, rfl⟩) h
    | sym _ | str _ | list _ => exact type_misused b _ _ 0 _ _ rfl (by simp [needed]) (by simp) rfl rfl (by simp [HasType]) .only
  · cases v <;> exact count_misused b _ rfl (.inr (many (Nat.le_refl 1)))

/-- One of the arguments is of the wrong type. -/
macro "wrong_type" : tactic => `(tactic| first
  | (refine type_misused _ _ _ 0 _ _ rfl ?_ ?_ rfl rfl ?_ (.all _) <;> simp [needed, HasType]; done)
  | (refine type_misused _ _ _ 1 _ _ rfl ?_ ?_ rfl rfl ?_ (.all _) <;> simp [needed, HasType]; done)
  | (refine type_misused _ _ _ 2 _ _ rfl ?_ ?_ rfl rfl ?_ (.all _) <;> simp [needed, HasType]; done)
  | (refine type_misused _ _ _ 0 _ _ rfl ?_ ?_ rfl rfl ?_ .first <;> simp [needed, HasType]; done)
  | (refine type_misused _ _ _ 1 _ _ rfl ?_ ?_ rfl rfl ?_ .second <;> simp [needed, HasType]; done)
  | (refine type_misused _ _ _ 2 _ _ rfl ?_ ?_ rfl rfl ?_ .third <;> simp [needed, HasType]; done))

/-- The number of arguments is wrong. -/
macro "wrong_count" : tactic => `(tactic| first
  | (refine count_misused _ _ rfl (.inl ?_); simp [needed]; done)
  | (refine count_misused _ _ rfl (.inr ?_); simp; done))

theorem bufferSubstring_misused {n m : Bytes} {args : List Value} {b : Buffer} (h : ¬ ∃ x y, args = [.num x, .num y]) :
    Misused b! "buffer-substring" [⟨n, b! "number", false⟩, ⟨m, b! "number", false⟩] args (builtinBufferSubstring args b) b := by
  rcases args with _ | ⟨v, _ | ⟨w, _ | ⟨u, vs⟩⟩⟩
  · wrong_count
  · cases v <;> wrong_count
  · cases v <;> cases w <;> first
      | exact absurd ⟨_, _, rfl⟩ h
      | wrong_type
  · cases v <;> cases w <;> wrong_count

theorem stringMatch_misused {n m : Bytes} {args : List Value} {b : Buffer} (h : ¬ ∃ x y, args = [.str x, .str y]) :
    Misused b! "string-match" [⟨n, b! "string", false⟩, ⟨m, b! "string", false⟩] args (builtinStringMatch args b) b := by
  rcases args with _ | ⟨v, _ | ⟨w, _ | ⟨u, vs⟩⟩⟩
  · wrong_count
  · cases v <;> wrong_count
  · cases v <;> cases w <;> first
      | exact absurd ⟨_, _, rfl⟩ h
      | wrong_type
  · cases v <;> cases w <;> wrong_count

theorem replaceRegexp_misused {n m k : Bytes} {args : List Value} {b : Buffer} (h : ¬ ∃ x y z, args = [.str x, .str y, .str z]) :
    Misused b! "replace-regexp-in-string" [⟨n, b! "string", false⟩, ⟨m, b! "string", false⟩, ⟨k, b! "string", false⟩] args
      (builtinReplaceRegexpInString args b) b := by
  rcases args with _ | ⟨v, _ | ⟨w, _ | ⟨u, _ | ⟨t, vs⟩⟩⟩⟩
  · wrong_count
  · cases v <;> wrong_count
  · cases v <;> cases w <;> wrong_count
  · cases v <;> cases w <;> cases u <;> first
      | exact absurd ⟨_, _, _, rfl⟩ h
      | wrong_type
  · cases v <;> cases w <;> cases u <;> wrong_count

theorem substring_misused {n m k : Bytes} {args : List Value} {b : Buffer}
    (h : ¬ ∃ s x, args = [.str s, .num x] ∨ ∃ y, args = [.str s, .num x, .num y]) :
    Misused b! "substring" [⟨n, b! "string", false⟩, ⟨m, b! "number", false⟩, ⟨k, b! "number", true⟩] args (builtinSubstring args b) b := by
  rcases args with _ | ⟨v, _ | ⟨w, _ | ⟨u, _ | ⟨t, vs⟩⟩⟩⟩
  · wrong_count
  · cases v <;> wrong_count
  · cases v <;> cases w <;> first
      | exact absurd ⟨_, _, .inl rfl⟩ h
      | wrong_type
  · cases v <;> cases w <;> cases u <;> first
      | exact absurd ⟨_, _, .inr ⟨_, rfl⟩⟩ h
      | wrong_type
  · cases v <;> cases w <;> cases u <;> wrong_count

set_option maxHeartbeats 2000000 in
/-- **C80**: called with arguments that are not as documented, every function but concat refuses with a message that is true: if the number of
arguments is wrong, it says how many the function takes and how many there were; otherwise it names the type of a parameter whose argument has
another type. Nothing changes. -/
theorem C80_misuse (d : DocEntry) (hd : d ∈ docTable) (hc : d.name ≠ b! "concat") (args : List Value) (b : Buffer)
    (h : ¬ Fits d.parameters args) : ∃ m, Misuse d.name d.parameters args m ∧ call d.name args b = (.err m, b) := by
  each_doc hd <;> first
    | exact absurd rfl hc
    | exact noArgs_misused fun hx => h ((fits_nil _).mpr hx)
    | exact oneStr_misused fun hx => h ((fits_str _ _).mpr hx)
    | (show Misused b! "goto-char" _ args (builtinGotoChar args b) b; exact oneNum_misused fun hx => h ((fits_num _ _).mpr hx))
    | (show Misused b! "goto-line" _ args (builtinGotoLine args b) b; exact oneNum_misused fun hx => h ((fits_num _ _).mpr hx))
    | exact withCount_misused fun hx => h ((fits_opt _ _).mpr hx)
    | exact setMarkCommand_misused fun hx => h ((fits_opt _ _).mpr hx)
    | exact bufferSubstring_misused fun hx => h ((fits_two_nums _ _ _).mpr hx)
    | exact stringMatch_misused fun hx => h ((fits_two_strs _ _ _).mpr hx)
    | exact replaceRegexp_misused fun hx => h ((fits_three_strs _ _ _ _).mpr hx)
    | exact substring_misused fun hx => h ((fits_substring _ _ _ _).mpr hx)

/-- Look at every branch of a built-in; every error must be one of the reasons of that function. -/
macro "fails_with" : tactic => `(tactic| (branches <;> (intro h; subst h; first
  | exact .notFound (by decide)
  | exact .pattern (by decide) (by assumption)
  | exact .noSearch
  | exact .positions
  | (rename_i hx; exact nomatch hx))))

set_option maxHeartbeats 4000000 in
/-- **C80**: used with the documented arguments, only searches, replace-match and the functions that compile a regular expression can fail. -/
theorem C80_documented_use (d : DocEntry) (hd : d ∈ docTable) (args : List Value) (b : Buffer) (h : Fits d.parameters args)
    (e : Bytes) (he : (call d.name args b).1 = .err e) : FailsWith d.name e := by
  revert he
  each_doc hd <;> first
    | (have h := (fits_nil _).mp h; subst h; fails_with)
    | (obtain ⟨s, hs⟩ := (fits_num _ _).mp h; subst hs; fails_with)
    | (obtain hs | ⟨s, hs⟩ := (fits_opt _ _).mp h <;> subst hs <;> fails_with)
    | (obtain ⟨x, y, hs⟩ := (fits_two_nums _ _ _).mp h; subst hs; fails_with)
    | (obtain ⟨x, y, hs⟩ := (fits_two_strs _ _ _).mp h; subst hs; fails_with)
    | (obtain ⟨x, y, z, hs⟩ := (fits_three_strs _ _ _ _).mp h; subst hs; fails_with)
    | (obtain ⟨x, y, hs | ⟨z, hs⟩⟩ := (fits_substring _ _ _ _).mp h <;> subst hs <;> fails_with)
    | (obtain ⟨x, hs⟩ := (fits_str _ _).mp h
       obtain ⟨t, ht⟩ := concat_ok args (by subst hs; simp [HasType]) b
       intro he
       rw [show (call _ args b).1 = _ from congrArg Prod.fst ht] at he
       exact nomatch he)
    | (obtain ⟨s, hs⟩ := (fits_str _ _).mp h; subst hs; fails_with)

omit [Ext] in
theorem concatLoop_first (i : Nat) (pre : List Value) (v : Value) (post : List Value) (h1 : ∀ u ∈ pre, HasType b! "string" u)
    (h2 : ¬ HasType b! "string" v) :
    concatLoop i (pre ++ v :: post) = .error (b! "concat expects string arguments, got non-string at position " ++ natDec (i + pre.length + 1)) := by
  induction pre generalizing i with
  | nil => cases v with
    | str s => exact absurd rfl h2
    | num _ | sym _ | list _ => rfl
  | cons u pre ih =>
    obtain ⟨s, rfl⟩ := (hasType_str u).1 (h1 u (by simp))
    rw [List.cons_append, concatLoop, ih (i + 1) fun w hw => h1 w (by simp [hw])]
    simp only [List.length_cons]
    rw [show i + 1 + pre.length + 1 = i + (pre.length + 1) + 1 by omega]

/-- **C80**: concat tells the position of the first argument that is not a string. -/
theorem C80_concat (pre : List Value) (v : Value) (post : List Value) (h1 : ∀ u ∈ pre, HasType b! "string" u) (h2 : ¬ HasType b! "string" v) (b : Buffer) :
    call b! "concat" (pre ++ v :: post) b =
      (.err (b! "concat expects string arguments, got non-string at position " ++ natDec (pre.length + 1)), b) := by
  rw [call_concat, builtinConcat, concatLoop_first 0 pre v post h1 h2, Nat.zero_add]
  rfl

omit [Ext] in
/-- If not all values are strings there is a first one that is not. -/
theorem first_other : ∀ (vs : List Value), (∃ v ∈ vs, ¬ HasType b! "string" v) →
    ∃ pre v post, vs = pre ++ v :: post ∧ (∀ u ∈ pre, HasType b! "string" u) ∧ ¬ HasType b! "string" v
  | [], h => by simp at h
  | u :: us, h => by
    by_cases hu : HasType b! "string" u
    · obtain ⟨pre, v, post, rfl, h1, h2⟩ := first_other us (by
        obtain ⟨v, hv, hn⟩ := h
        rcases List.mem_cons.1 hv with rfl | hv
        · exact absurd hu hn
        · exact ⟨v, hv, hn⟩)
      refine ⟨u :: pre, v, post, rfl, fun w hw => ?_, h2⟩
      rcases List.mem_cons.1 hw with rfl | hw
      · exact hu
      · exact h1 w hw
    · exact ⟨[], u, us, rfl, by simp, hu⟩

omit [Ext] in
theorem postorders_mem {a : Value} {f : Bytes} : ∀ {as : List Value}, a ∈ as → f ∈ postorder a → f ∈ postorders as
  | x :: as, h, hf => by
    rw [postorders, List.mem_append]
    rcases List.mem_cons.1 h with rfl | h
    · exact .inl hf
    · exact .inr (postorders_mem h hf)

theorem call_error (e : Value) (f : Bytes) (hf : f ∈ postorder e) (fn : Builtin) (h : defaultEnv f = some fn) (args : List Value) (b : Buffer) (m : Bytes)
    (hm : (fn args b).1 = .err m) : RunError e m := by
  obtain ⟨d, hd, rfl⟩ := (C55_documented_iff_defined f).1 (by rw [h]; rfl)
  have hc : call d.name args b = fn args b := by rw [call, h]
  by_cases hn : d.name = b! "concat"
  · rw [hn] at hc hf
    by_cases ha : ∃ v ∈ args, ¬ HasType b! "string" v
    · obtain ⟨pre, v, post, rfl, h1, h2⟩ := first_other args ha
      rw [C80_concat pre v post h1 h2 b] at hc
      rw [← hc] at hm
      cases hm
      exact .concat hf
    · obtain ⟨s, hs⟩ := (C63_concat args b).1 fun v hv => Classical.byContradiction fun hn => ha ⟨v, hv, hn⟩
      rw [hs] at hc
      rw [← hc] at hm
      cases hm
  · by_cases hfit : Fits d.parameters args
    · exact .reason hf (C80_documented_use d hd args b hfit m (by rw [hc]; exact hm))
    · obtain ⟨m', h1, h2⟩ := C80_misuse d hd hn args b hfit
      rw [← hc, h2] at hm
      cases hm
      exact .misuse hd hf hn hfit h1

/-- An error of a part is an error of the whole. -/
theorem Spec.RunError.within {e e' : Value} (h : ∀ f ∈ postorder e, f ∈ postorder e') {m : Bytes} : RunError e m → RunError e' m
  | .symbol => .symbol
  | .empty => .empty
  | .head => .head
  | .unknown h1 h2 => .unknown (h _ h1) h2
  | .misuse h1 h2 h3 h4 h5 => .misuse h1 (h _ h2) h3 h4 h5
  | .concat h1 => .concat (h _ h1)
  | .reason h1 h2 => .reason (h _ h1) h2

mutual
theorem evalExpr_error : ∀ (e : Value) (b : Buffer) (m : Bytes), (evalExpr defaultEnv e b).1 = .err m → RunError e m
  | .str _, _, _, h => by simp [evalExpr] at h
  | .num _, _, _, h => by simp [evalExpr] at h
  | .sym _, _, _, h => by simp only [evalExpr, Res.err.injEq] at h; subst h; exact .symbol
  | .list [], _, _, h => by simp only [evalExpr, Res.err.injEq] at h; subst h; exact .empty
  | .list (.str _ :: _), _, _, h => by simp only [evalExpr, Res.err.injEq] at h; subst h; exact .head
  | .list (.num _ :: _), _, _, h => by simp only [evalExpr, Res.err.injEq] at h; subst h; exact .head
  | .list (.list _ :: _), _, _, h => by simp only [evalExpr, Res.err.injEq] at h; subst h; exact .head
  | .list (.sym f :: args), b, m, h => by
    rw [evalExpr] at h
    cases hf : (defaultEnv f : Option Builtin) with
    | none =>
      simp only [hf, Res.err.injEq] at h
      subst h
      refine .unknown (by simp [postorder]) fun d hd hn => ?_
      have := (C55_documented_iff_defined f).2 ⟨d, hd, hn⟩
      rw [hf] at this
      cases this
    | some fn =>
      simp only [hf] at h
      rcases ha : evalArgs defaultEnv args b with ⟨r, b'⟩
      simp only [ha] at h
      cases r with
      | ok vs => exact call_error _ f (by simp [postorder]) fn hf vs b' m h
      | err e =>
        simp only [Res.err.injEq] at h
        subst h
        obtain ⟨a, ha', hr⟩ := evalArgs_error args b e (by rw [ha])
        exact hr.within fun g hg => by
          simp only [postorder, List.mem_append]
          exact .inl (postorders_mem ha' hg)
      | panic => simp at h
theorem evalArgs_error : ∀ (as : List Value) (b : Buffer) (m : Bytes), (evalArgs defaultEnv as b).1 = .err m → ∃ a ∈ as, RunError a m
  | [], _, _, h => by simp [evalArgs] at h
  | a :: as, b, m, h => by
    rw [evalArgs] at h
    rcases ha : evalExpr defaultEnv a b with ⟨r, b'⟩
    simp only [ha] at h
    cases r with
    | ok v =>
      simp only at h
      rcases hs : evalArgs defaultEnv as b' with ⟨r, b''⟩
      simp only [hs] at h
      cases r with
      | ok vs => simp at h
      | err e =>
        simp only [Res.err.injEq] at h
        subst h
        obtain ⟨x, hx, hr⟩ := evalArgs_error as b' e (by rw [hs])
        exact ⟨x, by simp [hx], hr⟩
      | panic => simp at h
    | err e =>
      simp only [Res.err.injEq] at h
      subst h
      exact ⟨a, by simp, evalExpr_error a b e (by rw [ha])⟩
    | panic => simp at h
end

/-- **C80**: every error of running an instruction is one of those listed. -/
theorem C80_every_error (e : Value) (b b' : Buffer) (m : Bytes) (h : Evals defaultEnv e b (.err m) b') : RunError e m :=
  evalExpr_error e b m (by rw [(C26_big_step _ _ _ _ _).2 h])

theorem script_error (input text : Bytes) (parsed : Res Bytes (List Value)) (h : executeParsed input parsed = .err text) :
    (∃ m, parsed = .err m ∧ text = b! "parsing script: " ++ m) ∨
    ∃ program i instr v b b' m, parsed = .ok program ∧ program[i]? = some instr ∧
      eval defaultEnv (program.take i) (newBuffer input) = (.ok v, b) ∧ Evals defaultEnv instr b (.err m) b' ∧ RunError instr m ∧
      text = b! "script execution failed: " ++ m ++ b! " (at instruction " ++ natDec i ++ b! ": " ++ instr.toStr ++ b! ", point=" ++ intDec b'.point ++
        b! ", mark=" ++ intDec b'.mark ++ b! ")" := by
  cases parsed with
  | err e => simp only [executeParsed, Res.err.injEq] at h; exact .inl ⟨e, rfl, h.symm⟩
  | panic => simp [executeParsed] at h
  | ok program =>
    rcases h2 : eval defaultEnv program (newBuffer input) with ⟨r, b'⟩
    simp only [executeParsed, evalOn, h2] at h
    cases r with
    | ok v => simp at h
    | panic => simp at h
    | err x =>
      simp only [Res.err.injEq] at h
      obtain ⟨i, instr, v, b, m, h4, h5, h6, rfl⟩ := (C25_first_error _ _ _ _ _).1 h2
      refine .inr ⟨program, i, instr, v, b, b', m, rfl, h4, h5, h6, C80_every_error _ _ _ _ h6, ?_⟩
      rw [← h, C25_error_text]
      simp only [List.append_assoc]

/-- **C80**: the error of a script is either that it cannot be read, or names the first instruction that fails, counted from 0, as it is written, what
was wrong with it, and where point and mark were when it failed. -/
theorem C80_script_error (input script text : Bytes) (h : executeScript input script = .err text) :
    (∃ m, parseString script = .err m ∧ text = b! "parsing script: " ++ m) ∨
    ∃ program i instr v b b' m, parseString script = .ok program ∧ program[i]? = some instr ∧
      eval defaultEnv (program.take i) (newBuffer input) = (.ok v, b) ∧ Evals defaultEnv instr b (.err m) b' ∧ RunError instr m ∧
      text = b! "script execution failed: " ++ m ++ b! " (at instruction " ++ natDec i ++ b! ": " ++ instr.toStr ++ b! ", point=" ++ intDec b'.point ++
        b! ", mark=" ++ intDec b'.mark ++ b! ")" :=
  script_error input text _ h

/-- **C80**: the same for JSON scripts; the instruction is shown as an S-expression. -/
theorem C80_json_script_error (input script text : Bytes) (h : executeScriptWithFormat input script (b! "json") = .err text) :
    (∃ m, parseJsonString script = .error m ∧ text = b! "parsing script: " ++ m) ∨
    ∃ program i instr v b b' m, parseJsonString script = .ok program ∧ program[i]? = some instr ∧
      eval defaultEnv (program.take i) (newBuffer input) = (.ok v, b) ∧ Evals defaultEnv instr b (.err m) b' ∧ RunError instr m ∧
      text = b! "script execution failed: " ++ m ++ b! " (at instruction " ++ natDec i ++ b! ": " ++ instr.toStr ++ b! ", point=" ++ intDec b'.point ++
        b! ", mark=" ++ intDec b'.mark ++ b! ")" := by
  have h : executeParsed input (Res.ofExcept (parseJsonString script)) = .err text := h
  rcases script_error input text _ h with ⟨m, h1, h2⟩ | ⟨program, i, instr, v, b, b', m, h1, h2⟩
  · cases hp : parseJsonString script with
    | ok p => rw [hp] at h1; cases h1
    | error e => rw [hp] at h1; cases h1; exact .inl ⟨_, rfl, h2⟩
  · cases hp : parseJsonString script with
    | error e => rw [hp] at h1; cases h1
    | ok p => rw [hp] at h1; cases h1; exact .inr ⟨_, i, instr, v, b, b', m, rfl, h2⟩

/-- Errors of all kinds. -/
example : @executeScript litExt (b! "hello") (b! "insert \"X\"\nsearch-forward \"z\"") =
      .err (b! "script execution failed: search failed (at instruction 1: (search-forward \"z\"), point=2, mark=1)") ∧
    @executeScript litExt (b! "hello") (b! "insert (upcase 3)") =
      .err (b! "script execution failed: upcase expects a string argument (at instruction 0: (insert (upcase 3)), point=1, mark=1)") ∧
    @executeScript litExt (b! "hello") (b! "substring \"a\"") =
      .err (b! "script execution failed: substring expects 2 or 3 arguments, got 1 (at instruction 0: (substring \"a\"), point=1, mark=1)") ∧
    @executeScript litExt (b! "hello") (b! "concat \"a\" 3") =
      .err (b! "script execution failed: concat expects string arguments, got non-string at position 2 (at instruction 0: (concat \"a\" 3), point=1, mark=1)") ∧
    @executeScript litExt (b! "hello") (b! "insrt \"a\"") =
      .err (b! "script execution failed: undefined-function \"insrt\" (at instruction 0: (insrt \"a\"), point=1, mark=1)") :=
  ⟨by decide +kernel, by decide +kernel, by decide +kernel, by decide +kernel, by decide +kernel⟩

/-- An entry of the documentation, arguments that do not fit it, and the reason. -/
example : ∃ d ∈ docTable, d.name = b! "substring" ∧ d.name ≠ b! "concat" ∧ ¬ Fits d.parameters [.str b! "a", .str b! "b"] ∧
    Misuse d.name d.parameters [.str b! "a", .str b! "b"] (b! "substring expects a number as second argument") := by
  refine ⟨docTable.find? (·.name == b! "substring") |>.get (by decide +kernel), by decide +kernel, by decide +kernel, by decide +kernel, ?_, ?_⟩
  · rw [show ((docTable.find? (·.name == b! "substring")).get (by decide +kernel)).parameters =
        [⟨b! "string", b! "string", false⟩, ⟨b! "start", b! "number", false⟩, ⟨b! "end", b! "number", true⟩] by decide +kernel, fits_substring]
    simp
  · exact .type (i := 1) (p := ⟨b! "start", b! "number", false⟩) (v := .str b! "b") (by decide +kernel) (by decide +kernel) (by decide +kernel) rfl
      (by simp [HasType]) .second

end Texted
