import Verif.Lemmas.PgSize
import Verif.Lemmas.PgMono
import Verif.Props.GoScript
import Verif.Props.Evaluator
import Verif.Props.Equal
import Verif.Props.JsonText
/-
C94: the parsers, the evaluator, `Equal`, the `String` methods and the writers, as they are written in Go, do what the model's
definitions say.
-/
set_option linter.unusedSectionVars false
namespace Texted
open Spec

section
variable [Ext] {w w' : PgW} {f : PgFn} {args : List PgV} {o o' : PgOut}

theorem ends_of {n d : Nat} (h : pgRun n d f args w = o) (ho : o ≠ .spin) : GoEnds f args w o := ⟨ho, n, d, h⟩

/-- **C94** A call can end in one way only, and with more rounds and calls than it needs it ends in the same way. -/
theorem C94_one_end : (GoEnds f args w o → GoEnds f args w o' → o = o') ∧
    (∀ n d, pgRun n d f args w = o → o ≠ .spin → ∀ n' d', n ≤ n' → d ≤ d' → pgRun n' d' f args w = o) := by
  constructor
  · rintro ⟨ho, n, d, h⟩ ⟨ho', n', d', h'⟩
    have e₁ := follows_pgRun (Nat.le_max_left n n') (Nat.le_max_left d d') f args w (by rw [h]; exact ho)
    have e₂ := follows_pgRun (Nat.le_max_right n n') (Nat.le_max_right d d') f args w (by rw [h']; exact ho')
    rw [← h, ← h', ← e₁, ← e₂]
  · intro n d h ho n' d' hn hd
    rw [follows_pgRun hn hd f args w (by rw [h]; exact ho), h]

theorem answers_of {n d : Nat} {r : Res Bytes Value} (h : pgRun n d f args w = pgOne w r) : Answers f args w r := by
  cases r <;> exact ends_of h (fun h => nomatch h)

theorem answersAll_of {n d : Nat} {r : Res Bytes (List Value)} (h : pgRun n d f args w = pgSome w r) : AnswersAll f args w r := by
  cases r <;> exact ends_of h (fun h => nomatch h)

/-- **C94** The functions that parse scripts, as they are written in Go, return the values and the errors that the model's definitions say,
for every text below 2^60 bytes, and change nothing. -/
theorem C94_parse (s : Bytes) (h : Held s.length) :
    AnswersAll .ParseReader [.str s] w (parseString s) ∧ AnswersAll .ParseString [.str s] w (parseString s) ∧
    AnswersAll .ParseSexp [.str s] w (parseSexp s) :=
  ⟨answersAll_of (pg_ParseReader (n := 8 * s.length + 21) (d := 8 * s.length + 21) s (by omega) (by omega) (by omega)),
   answersAll_of (pg_ParseString (n := 8 * s.length + 21) (d := 8 * s.length + 21) s (by omega) (by omega) (by omega)),
   answersAll_of (pg_ParseSexp (n := 8 * s.length + 21) (d := 8 * s.length + 21) s (by omega) (by omega) (by omega))⟩

/-- **C94** So `ParseString`, as it is written in Go, returns the program that the grammar of scripts gives the text, and returns an error
exactly if the grammar gives it none. -/
theorem C94_grammar (s : Bytes) (h : Held s.length) :
    (∀ p, GoReturns .ParseString [.str s] w (.vals p) w ↔ ScriptReads s p) ∧
    ((∃ e, GoFails .ParseString [.str s] w (.err e) w) ↔ ∀ p, ¬ ScriptReads s p) := by
  have hp := (C94_parse (w := w) s h).2.1
  have ht := C42_total s
  constructor
  · intro p
    rw [← C42_parser_is_grammar]
    rcases ht with ⟨q, e⟩ | ⟨m, e⟩ <;> rw [e] at hp ⊢
    · constructor
      · intro hr
        have := C94_one_end.1 hp hr
        injection this with h₁ _
        injection h₁ with h₁ _
        injection h₁ with h₁
        rw [h₁]
      · intro hq
        rw [← Res.ok.inj hq]; exact hp
    · constructor
      · intro hr
        have := C94_one_end.1 hp hr
        injection this with h₁ _
        injection h₁ with h₁ _
        exact nomatch h₁
      · intro hq; exact nomatch hq
  · rcases ht with ⟨q, e⟩ | ⟨m, e⟩ <;> rw [e] at hp
    · constructor
      · rintro ⟨m, hm⟩
        have := C94_one_end.1 hp hm
        injection this with h₁ _
        injection h₁ with h₁ _
        exact nomatch h₁
      · intro hn; exact absurd ((C42_parser_is_grammar s q).1 e) (hn q)
    · constructor
      · intro _ p hq
        rw [(C42_parser_is_grammar s p).2 hq] at e
        exact nomatch e
      · intro _; exact ⟨m, hp⟩

/-- **C94** The functions inside the script parser: tokens, semicolons, single words, single commands. -/
theorem C94_lexer (s : Bytes) (h : Held s.length) :
    (∀ ts, tokenize s = .ok ts → GoReturns .tokenize [.str s] w (.strs ts) w) ∧ (∀ e, tokenize s = .error e → GoFails .tokenize [.str s] w (.err e) w) ∧
    GoIs .splitOnSemicolons [.str s] w (.strs (splitOnSemicolons s)) ∧
    (∀ v, parseToken s = .ok v → GoReturns .parseToken [.str s] w (.val v) w) ∧ (∀ e, parseToken s = .error e → GoFails .parseToken [.str s] w (.err e) w) ∧
    Answers .parseSExpression [.str s] w (parseSExpression s) ∧ Answers .parseShellLike [.str s] w (parseShellLike s) ∧
    Answers .parseLine [.str s] w (parseLine s) := by
  have h₁ := pg_tokenize (n := 0) (d := 0) (w := w) s
  have h₂ := pg_parseToken (n := 0) (d := 0) (w := w) s
  refine ⟨fun ts e => ?_, fun m e => ?_, ends_of (pg_splitOnSemicolons (n := 0) (d := 0) s) (fun h => nomatch h), fun v e => ?_, fun m e => ?_,
    answers_of (pg_parseSExpression (n := 2 * s.length + 11) (d := 2 * s.length + 11) s (by omega) (by omega) (by omega)),
    answers_of (pg_parseShellLike (n := 2 * s.length + 11) (d := 2 * s.length + 11) s (by omega) (by omega) (by omega)),
    answers_of (pg_parseLine (n := 2 * s.length + 11) (d := 2 * s.length + 11) s (by omega) (by omega) (by omega))⟩
  · rw [e] at h₁; exact ends_of h₁ (fun h => nomatch h)
  · rw [e] at h₁; exact ends_of h₁ (fun h => nomatch h)
  · rw [e] at h₂; exact ends_of h₂ (fun h => nomatch h)
  · rw [e] at h₂; exact ends_of h₂ (fun h => nomatch h)

theorem isArray_iff (s : Bytes) : IsArray s ↔ (jsonArray s).isSome := by
  unfold IsArray jsonArray
  simp only [← jsonText_iff]
  cases h : jsonText s with
  | none => simp
  | some j => cases j <;> simp

/-- **C94** `ParseJSONString`, as it is written in Go, on any text below 2^60 bytes: what the model says, except that for a text that is no
JSON array the error goes on with what package encoding/json says about it. -/
theorem C94_json (s : Bytes) (h : Held s.length) :
    (IsArray s → AnswersAll .ParseJSONString [.str s] w (Res.ofExcept (parseJsonString s))) ∧
    (¬ IsArray s → GoFails .ParseJSONString [.str s] w (.err (b! "JSON unmarshal error: " ++ w.jsonError s)) w ∧
      parseJsonString s = .error (b! "JSON unmarshal error")) := by
  have hr := pg_ParseJSONString (n := 0) (d := 2 * s.length + 3) (w := w) s (by omega) (by omega)
  unfold jsonResult at hr
  constructor
  · intro ha
    rw [if_pos ((isArray_iff s).1 ha)] at hr
    cases hm : parseJsonString s <;> rw [hm] at hr <;> exact ends_of hr (fun h => nomatch h)
  · intro ha
    rw [if_neg (fun h => ha ((isArray_iff s).2 h))] at hr
    refine ⟨ends_of hr (fun h => nomatch h), parseJsonString_none ?_⟩
    cases hj : jsonArray s with
    | none => rfl
    | some l => exact absurd ((isArray_iff s).2 (by rw [hj]; rfl)) ha

/-- **C94** The functions inside the JSON parser, on any decoded value. -/
theorem C94_json_values (j : Json) (h : Held j.parts) :
    (∀ v, convertValue j = .ok v → GoReturns .convertJSONValue [.json j] w (.val v) w) ∧
    (∀ e, convertValue j = .error e → GoFails .convertJSONValue [.json j] w (.err e) w) ∧
    (∀ v, convertItem j = .ok v → GoReturns .convertJSONItem [.json j] w (.val v) w) ∧
    (∀ e, convertItem j = .error e → GoFails .convertJSONItem [.json j] w (.err e) w) ∧
    (validateFormat j = none → GoIs .ValidateJSONFormat [.json j] w .nil) ∧
    (∀ e, validateFormat j = some e → GoIs .ValidateJSONFormat [.json j] w (.err e)) := by
  have h₁ := pg_convertJSONValue (n := 0) (d := 2 * j.parts + 2) (w := w) j (by omega) (by omega)
  have h₂ := item_pg j 0 (2 * j.parts + 2) w (by omega) (by omega)
  have h₃ := pg_ValidateJSONFormat (n := 0) (d := 2 * j.parts + 2) (w := w) j (by omega) (by omega)
  refine ⟨fun v e => ?_, fun m e => ?_, fun v e => ?_, fun m e => ?_, fun e => ?_, fun m e => ?_⟩
  · rw [e] at h₁; exact ends_of h₁ (fun h => nomatch h)
  · rw [e] at h₁; exact ends_of h₁ (fun h => nomatch h)
  · rw [e] at h₂; exact ends_of h₂ (fun h => nomatch h)
  · rw [e] at h₂; exact ends_of h₂ (fun h => nomatch h)
  · rw [e] at h₃; exact ends_of h₃ (fun h => nomatch h)
  · rw [e] at h₃; exact ends_of h₃ (fun h => nomatch h)

/-- **C94** `ParseFormat`, as it is written in Go: the formats sexp (also for the empty name and unknown ones), shell and json. -/
theorem C94_format (format s : Bytes) (h : Held s.length) :
    (format = b! "shell" → AnswersAll .ParseFormat [.str format, .str s] w (parseString s)) ∧
    (format = b! "json" → IsArray s → AnswersAll .ParseFormat [.str format, .str s] w (Res.ofExcept (parseJsonString s))) ∧
    (format = b! "json" → ¬ IsArray s → GoFails .ParseFormat [.str format, .str s] w (.err (b! "JSON unmarshal error: " ++ w.jsonError s)) w) ∧
    (format ≠ b! "shell" → format ≠ b! "json" → AnswersAll .ParseFormat [.str format, .str s] w (parseSexp s)) := by
  have hr := pg_ParseFormat (n := 8 * s.length + 22) (d := 8 * s.length + 22) (w := w) format s (by omega) (by omega) (by omega)
  unfold formatResult jsonResult at hr
  refine ⟨fun e => ?_, fun e ha => ?_, fun e ha => ?_, fun e₁ e₂ => ?_⟩
  · rw [if_pos e] at hr; exact answersAll_of hr
  · rw [if_neg (by rw [e]; decide), if_pos e, if_pos ((isArray_iff s).1 ha)] at hr
    cases hm : parseJsonString s <;> rw [hm] at hr <;> exact ends_of hr (fun h => nomatch h)
  · rw [if_neg (by rw [e]; decide), if_pos e, if_neg (fun h => ha ((isArray_iff s).2 h))] at hr
    exact ends_of hr (fun h => nomatch h)
  · rw [if_neg e₁, if_neg e₂] at hr; exact answersAll_of hr

/-- **C94** `evalExpression`, as it is written in Go, evaluates an expression as the rules of evaluation say (C26): arguments first, from
left to right, each seeing the buffer as the one before left it. -/
theorem C94_expression (env : Env) (v : Value) (h : Held v.parts) :
    (∀ r w', GoReturns .evalExpression [.val v, .env env, .buffer] w (.val r) w' ↔ ∃ b, Evals env v w.buf (.ok r) b ∧ w' = { w with buf := b }) ∧
    (∀ e w', GoFails .evalExpression [.val v, .env env, .buffer] w (.err e) w' ↔ ∃ b, Evals env v w.buf (.err e) b ∧ w' = { w with buf := b }) ∧
    (GoCrashes .evalExpression [.val v, .env env, .buffer] w ↔ ∃ b, Evals env v w.buf .panic b) := by
  have hr := expr_pg env v v.parts (v.parts + 1) w (by omega) (by omega) (by omega)
  simp only [← C26_big_step]
  rcases hx : evalExpr env v w.buf with ⟨r, b⟩
  rw [hx] at hr
  cases r with
  | ok r =>
    have he := ends_of hr (fun h => nomatch h)
    refine ⟨fun r' w' => ⟨fun h => ?_, fun ⟨b', h, e⟩ => ?_⟩, fun m w' => ⟨fun h => ?_, fun ⟨b', h, _⟩ => ?_⟩, fun h => ?_, fun ⟨b', h⟩ => ?_⟩
    · have := C94_one_end.1 he h
      injection this with h₁ h₂
      injection h₁ with h₁ _
      injection h₁ with h₁
      exact ⟨b, by rw [h₁], h₂.symm⟩
    · obtain ⟨h₁, h₂⟩ := Prod.mk.inj h
      rw [e, ← h₂, ← Res.ok.inj h₁]; exact he
    · have := C94_one_end.1 he h
      injection this with h₁ h₂
      injection h₁ with h₁ _
      exact nomatch h₁
    · exact nomatch (Prod.mk.inj h).1
    · exact nomatch C94_one_end.1 he h
    · exact nomatch (Prod.mk.inj h).1
  | err m =>
    have he := ends_of hr (fun h => nomatch h)
    refine ⟨fun r' w' => ⟨fun h => ?_, fun ⟨b', h, e⟩ => ?_⟩, fun m w' => ⟨fun h => ?_, fun ⟨b', h, e⟩ => ?_⟩, fun h => ?_, fun ⟨b', h⟩ => ?_⟩
    · have := C94_one_end.1 he h
      injection this with h₁ h₂
      injection h₁ with h₁ _
      exact nomatch h₁
    · exact nomatch (Prod.mk.inj h).1
    · have := C94_one_end.1 he h
      injection this with h₁ h₂
      injection h₁ with _ h₁
      injection h₁ with h₁ _
      injection h₁ with h₁
      exact ⟨b, by rw [h₁], h₂.symm⟩
    · obtain ⟨h₁, h₂⟩ := Prod.mk.inj h
      rw [e, ← h₂, ← Res.err.inj h₁]; exact he
    · exact nomatch C94_one_end.1 he h
    · exact nomatch (Prod.mk.inj h).1
  | panic =>
    have he := ends_of hr (fun h => nomatch h)
    refine ⟨fun r' w' => ⟨fun h => ?_, fun ⟨b', h, e⟩ => ?_⟩, fun m w' => ⟨fun h => ?_, fun ⟨b', h, e⟩ => ?_⟩, fun h => ?_, fun ⟨b', h⟩ => ?_⟩
    · exact nomatch C94_one_end.1 he h
    · exact nomatch (Prod.mk.inj h).1
    · exact nomatch C94_one_end.1 he h
    · exact nomatch (Prod.mk.inj h).1
    · exact ⟨b, rfl⟩
    · exact he

theorem finishes_of {n d : Nat} {r : Res ExecutionError Value} (h : pgRun n d f args w = pgDone w' r) : Finishes f args w r w' := by
  cases r <;> exact ends_of h (fun h => nomatch h)

/-- **C94** `Eval` and `EvalWithTrace`, as they are written in Go: the value or the error, the buffer, and the calls of the callback are
those of the model's definitions, for every program and every environment. -/
theorem C94_eval (env : Env) (program : List Value) (h : Held (Value.partsAll program)) :
    Finishes .Eval [.vals program, .env env, .buffer] w (eval env program w.buf).1 { w with buf := (eval env program w.buf).2 } ∧
    Finishes .EvalWithTrace [.vals program, .env env, .buffer, .nil] w (eval env program w.buf).1 { w with buf := (eval env program w.buf).2 } ∧
    Finishes .EvalWithTrace [.vals program, .env env, .buffer, .hook] w (evalWithTrace env program w.buf).1
      { w with buf := (evalWithTrace env program w.buf).2.1, events := w.events ++ (evalWithTrace env program w.buf).2.2 } := by
  have h₁ := pg_Eval (n := Value.partsAll program) (d := Value.partsAll program + 4) (w := w) env program (by omega) (by omega) (by omega)
  have h₂ := fun hook => pg_EvalWithTrace (n := Value.partsAll program) (d := Value.partsAll program + 4) (w := w) env program hook (by omega) (by omega) (by omega)
  refine ⟨finishes_of h₁, ?_, finishes_of (h₂ true)⟩
  have h₃ := h₂ false
  simp only [Bool.false_eq_true, if_false, List.append_nil] at h₃
  unfold eval
  rw [noTrace_eq]
  exact finishes_of h₃

/-- **C94** The error that stops a script, as it is built and printed in Go. -/
theorem C94_errors (msg : Bytes) (program : List Value) (i : Nat) (v : Value) (env : Env) (e : ExecutionError) :
    GoIs .NewExecutionError [.err msg, .vals program, .int i, .val v, .buffer, .env env] w (.xerr (newExecutionError msg program i v w.buf)) ∧
    GoIs .errorMessage [.xerr e] w (.str e.message) :=
  ⟨ends_of (pg_newExecutionError (n := 0) (d := 0) msg program i v env) (fun h => nomatch h),
   ends_of (pg_errorMessage (n := 0) (d := 2 * e.currentInstruction.parts + 2) e (by omega)) (fun h => nomatch h)⟩

/-- **C94** `Equal`, as it is written in Go, says of any two values whether they are the same (C44). -/
theorem C94_equal (a b : Value) (h : Held a.parts) :
    ∃ t, GoIs .Equal [.val a, .val b] w (.bool t) ∧ (t = true ↔ SameValue a b) :=
  ⟨goEqual a b, ends_of (equal_pg a b a.parts (a.parts + 1) w (by omega) (by omega) (by omega)) (fun h => nomatch h), C44_equal_iff a b⟩

/-- **C94** The `String` methods, as they are written in Go, print what the model says; so does `%v`. -/
theorem C94_string (v : Value) : GoIs .verb [.val v] w (.str v.toStr) ∧
    (∀ s, v = .sym s → GoIs .symbolString [.val v] w (.str s)) ∧ (∀ s, v = .str s → GoIs .stringString [.val v] w (.str (quote s))) ∧
    (∀ x, v = .num x → GoIs .numberString [.val v] w (.str (numString x))) ∧ (∀ l, v = .list l → GoIs .listString [.val v] w (.str v.toStr)) := by
  refine ⟨ends_of (verb_pg v 0 (2 * v.parts + 1) w (by omega)) (fun h => nomatch h), ?_, ?_, ?_, ?_⟩
  · rintro s rfl; exact ends_of (pg_symbolString (n := 0) (d := 0) s) (fun h => nomatch h)
  · rintro s rfl; exact ends_of (pg_stringString (n := 0) (d := 0) s) (fun h => nomatch h)
  · rintro x rfl; exact ends_of (pg_numberString (n := 0) (d := 0) x) (fun h => nomatch h)
  · rintro l rfl; exact ends_of (pg_listString (n := 0) (d := 2 * Value.partsAll l + 2) l (by omega)) (fun h => nomatch h)

/-- **C94** The conversions of the writers, as they are written in Go: the JSON value for any value, the shell line for a command. -/
theorem C94_writers (v : Value) : GoReturns .valueToJSON [.writer, .val v] w (.json (valueToJson v)) w ∧
    (∀ t, shellString v = .ok t → GoReturns .valueToShellString [.writer, .val v] w (.str t) w) ∧
    (∀ e, shellString v = .error e → GoFails .valueToShellString [.writer, .val v] w (.err e) w (.str [])) ∧
    (∀ t, shellToken v = .ok t → GoReturns .valueToToken [.writer, .val v] w (.str t) w) ∧
    (∀ e, shellToken v = .error e → GoFails .valueToToken [.writer, .val v] w (.err e) w (.str [])) := by
  have h₁ := pg_valueToShellString (n := 0) (d := 5) (w := w) v (by omega)
  have h₂ := pg_valueToToken (n := 0) (d := 5) (w := w) v (by omega)
  refine ⟨ends_of (toJson_pg v 0 (v.parts + 1) w (by omega)) (fun h => nomatch h), fun t e => ?_, fun m e => ?_, fun t e => ?_, fun m e => ?_⟩
  · rw [e] at h₁; exact ends_of h₁ (fun h => nomatch h)
  · rw [e] at h₁; exact ends_of h₁ (fun h => nomatch h)
  · rw [e] at h₂; exact ends_of h₂ (fun h => nomatch h)
  · rw [e] at h₂; exact ends_of h₂ (fun h => nomatch h)

/-- **C94** The methods `Len`, `IsEmpty` and `Get` of lists, as they are written in Go, do what the operations of the same names do that
the other functions use; `Get` gives nil for an index that is negative or too large. -/
theorem C94_methods (l : List Value) (i : Int) : GoIs .listLen [.val (.list l)] w (.int l.length) ∧
    PgP.listLen.apply w.jsonError [.val (.list l)] = .ok (.int l.length) ∧
    GoIs .listIsEmpty [.val (.list l)] w (.bool (decide (l = []))) ∧
    GoIs .listGet [.val (.list l), .int i] w (pgGot (if i < 0 then none else l[i.toNat]?)) ∧
    PgP.listGet.apply w.jsonError [.val (.list l), .int i] = .ok (pgGot (if i < 0 then none else l[i.toNat]?)) := by
  refine ⟨ends_of (pg_listLen (n := 0) (d := 0) l) (fun h => nomatch h), rfl, ends_of (pg_listIsEmpty (n := 0) (d := 0) l) (fun h => nomatch h),
    ends_of (pg_listGet (n := 0) (d := 0) l i) (fun h => nomatch h), ?_⟩
  show GoR.ok (pgGot (goAt l i)) = _
  unfold goAt
  rfl

end

/-- **C94** A script from its text on, everything as it is written in Go: if `ParseString` returns a program, `Eval` with an environment
that calls the built-in functions as they are written in Go gives what the model's definitions give. -/
theorem C94_script [Ext] [LawfulExt] {w : PgW} {env : Env} (he : RunsGo env) (script text : Bytes) (h : script.length < 576460752303423488) (p : List Value)
    (hp : GoReturns .ParseString [.str script] w (.vals p) w)
    (hs : ∀ c ∈ scriptCalls defaultEnv p (newBuffer text), Small c.args c.buf) (hw : w.buf = newBuffer text) :
    parseString script = .ok p ∧
    Finishes .Eval [.vals p, .env env, .buffer] w (eval defaultEnv p (newBuffer text)).1 { w with buf := (eval defaultEnv p (newBuffer text)).2 } := by
  have hr := (C94_grammar script (by unfold Held; omega)).1 p |>.1 hp
  refine ⟨(C42_parser_is_grammar script p).2 hr, ?_⟩
  have hn := script_parts hr
  have := (C94_eval (w := w) env p ?_).1
  · rw [hw, (C93_script he p text hs).1] at this; exact this
  · unfold Held; omega

/-- **C94** What Go prints for a list, Go reads back as that list. -/
theorem C94_roundtrip [Ext] {w : PgW} (l : List Value) (hw : Writable (.list l)) (hl : (Value.toStr (.list l)).length < 65536) :
    ∃ t, GoIs .listString [.val (.list l)] w (.str t) ∧ GoReturns .ParseString [.str t] w (.vals [.list l]) w := by
  refine ⟨_, (C94_string (.list l)).2.2.2.2 l rfl, ?_⟩
  have h := (C94_parse (w := w) (Value.toStr (.list l)) (by unfold Held; omega)).2.1
  rw [parseString_single (textOf_value _ hw) hl, parseLine_list l hw] at h
  exact h

/-! ### Concrete cases -/

/-- A world with this text in the buffer. -/
def worldOf (text : Bytes) : PgW := { buf := newBuffer text, events := [], jsonError := fun _ => b! "no" }

/-- The program that a run returned. -/
def shownProgram : PgOut → Option (List Value)
  | .ret [.vals vs, .nil] _ => some vs
  | _ => none

/-- The message of the error that a run returned. -/
def shownError : PgOut → Option Bytes
  | .ret [.nil, .err e] _ => some e
  | _ => none

/-- The value that a run returned, the buffer and the calls of the callback. -/
def shownRun : PgOut → Option (Value × Buffer × List TraceEvent)
  | .ret [.val v, .nil] w => some (v, w.buf, w.events)
  | _ => none

/-- The truth value that a run returned. -/
def shownTruth : PgOut → Option Bool
  | .ret [.bool t] _ => some t
  | _ => none

/-- Two commands on one line and one on the next, with a semicolon between quotes. -/
example : shownProgram (@pgRun litExt 300 300 .ParseString [.str (b! "goto-line \"a;b\"; point\n(insert (point))")] (worldOf [])) =
    some [.list [.sym (b! "goto-line"), .str (b! "a;b")], .list [.sym (b! "point")], .list [.sym (b! "insert"), .list [.sym (b! "point")]]] := by
  decide +kernel

/-- An unterminated list. -/
example : shownError (@pgRun litExt 300 300 .ParseString [.str (b! "(insert")] (worldOf [])) = some (b! "unterminated list") := by
  decide +kernel

/-- A program of two instructions, the second of which has a call as argument, with a callback. -/
example : shownRun (@pgRun litExt 300 300 .EvalWithTrace [.vals [.list [.sym (b! "end-of-buffer")], .list [.sym (b! "insert"), .list [.sym (b! "upcase"), .str (b! "x")]]],
      .env (@defaultEnv litExt), .buffer, .hook] (worldOf (b! "ab"))) =
    some (.str [], { newBuffer (b! "abX") with point := 4 }, [(.list [.sym (b! "end-of-buffer")], { newBuffer (b! "ab") with point := 3 }),
      (.list [.sym (b! "insert"), .list [.sym (b! "upcase"), .str (b! "x")]], { newBuffer (b! "abX") with point := 4 })]) := by
  decide +kernel

/-- `Equal` looks into lists. -/
example : shownTruth (@pgRun litExt 30 30 .Equal [.val (.list [.sym (b! "f"), .list [.str (b! "x")]]), .val (.list [.sym (b! "f"), .list [.str (b! "y")]])] (worldOf [])) = some false ∧
    shownTruth (@pgRun litExt 30 30 .Equal [.val (.list [.sym (b! "f"), .list [.str (b! "x")]]), .val (.list [.sym (b! "f"), .list [.str (b! "x")]])] (worldOf [])) = some true := by
  decide +kernel

end Texted
