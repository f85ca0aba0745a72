import Verif.Spec.TestRunner
import Verif.Props.Evaluator
import Verif.Props.Grammar
import Verif.Lemmas.Index
import Verif.Lemmas.LitExt
/- C56: the verdicts of the test runner. C64: the command `texted test`. -/
namespace Texted
open Spec

/-! ### Containing and trimming -/

theorem containsSub_iff (s p : Bytes) : containsSub s p = true ↔ Contains s p := by
  constructor
  · intro h
    rcases hi : indexOf p s with _ | i
    · simp [containsSub, hi] at h
    · obtain ⟨ho, _⟩ := indexOf_some hi
      obtain ⟨pre, post, h1, _⟩ := ho
      exact ⟨pre, post, h1⟩
  · rintro ⟨pre, post, h⟩
    rcases hi : indexOf p s with _ | i
    · exact absurd ⟨pre, post, h, rfl⟩ (indexOf_none hi pre.length)
    · simp [containsSub, hi]

theorem dropParens_all {p : UInt8 → Bool} {a : Bytes} (h : ∀ c ∈ a, p c = true) (r : Bytes) : (a ++ r).dropWhile p = r.dropWhile p := by
  induction a with
  | nil => rfl
  | cons x xs ih => rw [List.cons_append, List.dropWhile_cons_of_pos (h x (by simp))]; exact ih fun c hc => h c (by simp [hc])

theorem dropParens_head {p : UInt8 → Bool} {a : Bytes} (h : ∀ c, a.head? = some c → p c = false) : a.dropWhile p = a := by
  cases a with
  | nil => rfl
  | cons x xs => rw [List.dropWhile_cons_of_neg (by rw [h x rfl]; simp)]

theorem takeWhile_mem {p : UInt8 → Bool} {a : Bytes} {c : UInt8} (h : c ∈ a.takeWhile p) : p c = true := by
  induction a with
  | nil => exact nomatch h
  | cons x xs ih =>
    by_cases hx : p x = true
    · rw [List.takeWhile_cons_of_pos hx] at h
      rcases List.mem_cons.mp h with rfl | h
      · exact hx
      · exact ih h
    · rw [List.takeWhile_cons_of_neg hx] at h; exact nomatch h

theorem inParens_iff (s core : Bytes) : InParens s core ↔ core = trimParens s := by
  constructor
  · rintro ⟨pre, post, rfl, h1, h2, h3, h4⟩
    have e1 : ∀ {c : UInt8}, c = 40 ∨ c = 41 → (decide (c = 40) || decide (c = 41)) = true := by intro c h; simpa using h
    have e2 : ∀ {c : UInt8}, c ≠ 40 ∧ c ≠ 41 → (decide (c = 40) || decide (c = 41)) = false := by intro c h; simp [h.1, h.2]
    simp only [trimParens]
    rw [List.append_assoc, dropParens_all fun c hc => e1 (h1 c hc)]
    cases core with
    | nil =>
      have := dropParens_all (fun c hc => e1 (h2 c hc)) []
      rw [List.append_nil] at this
      rw [List.nil_append, this]; rfl
    | cons x xs =>
      rw [dropParens_head (a := (x :: xs) ++ post) (fun c hc => e2 (h3 c (by simpa using hc)))]
      rw [List.reverse_append, dropParens_all (fun c hc => e1 (h2 c (List.mem_reverse.mp hc))),
        dropParens_head (fun c hc => e2 (h4 c (by rw [← List.head?_reverse]; exact hc))), List.reverse_reverse]
  · rintro rfl
    have e1 : ∀ {c : UInt8}, (decide (c = 40) || decide (c = 41)) = true → c = 40 ∨ c = 41 := by intro c h; simpa using h
    have e2 : ∀ {c : UInt8}, (decide (c = 40) || decide (c = 41)) = false → c ≠ 40 ∧ c ≠ 41 := by intro c h; simpa using h
    refine ⟨s.takeWhile fun c => decide (c = 40) || decide (c = 41),
      ((s.dropWhile fun c => decide (c = 40) || decide (c = 41)).reverse.takeWhile fun c => decide (c = 40) || decide (c = 41)).reverse, ?_, ?_, ?_, ?_, ?_⟩
    · simp only [trimParens]
      rw [List.append_assoc, ← List.reverse_append, List.takeWhile_append_dropWhile, List.reverse_reverse, List.takeWhile_append_dropWhile]
    · exact fun c hc => e1 (takeWhile_mem hc)
    · exact fun c hc => e1 (takeWhile_mem (List.mem_reverse.mp hc))
    · intro c hc
      have hd : s.dropWhile (fun c => decide (c = 40) || decide (c = 41)) = trimParens s ++
          ((s.dropWhile fun c => decide (c = 40) || decide (c = 41)).reverse.takeWhile fun c => decide (c = 40) || decide (c = 41)).reverse := by
        simp only [trimParens]
        rw [← List.reverse_append, List.takeWhile_append_dropWhile, List.reverse_reverse]
      have hh : (s.dropWhile fun c => decide (c = 40) || decide (c = 41)).head? = some c := by
        rw [hd, List.head?_append, hc]; rfl
      have := List.head?_dropWhile_not (fun c => decide (c = 40) || decide (c = 41)) s
      rw [hh] at this
      exact e2 this
    · intro c hc
      simp only [trimParens] at hc
      rw [List.getLast?_reverse] at hc
      have := List.head?_dropWhile_not (fun c => decide (c = 40) || decide (c = 41)) (s.dropWhile fun c => decide (c = 40) || decide (c = 41)).reverse
      rw [hc] at this
      exact e2 this

variable [Ext]

/-! ### C56 -/

omit [Ext] in
theorem testProgram_ok (t : TestCase) (p : List Value) : testProgram t = .ok p ↔ TestProgram t p := by
  unfold testProgram TestProgram
  by_cases h : trimSpace t.input = []
  · simp [h, eq_comm]
  · simp [h]

omit [Ext] in
theorem parseFormat_iff (f s : Bytes) (vs : List Value) : parseFormat f s = .ok vs ↔ ReadIn f s vs := by
  unfold parseFormat ReadIn
  have e1 : b! "shell" ≠ b! "json" := by decide
  by_cases h1 : f = b! "sexp" ∨ f = []
  · rw [if_pos h1]
    have n1 : f ≠ b! "shell" := by rcases h1 with rfl | rfl <;> decide
    have n2 : f ≠ b! "json" := by rcases h1 with rfl | rfl <;> decide
    simp [n1, n2]
  · rw [if_neg h1]
    by_cases h2 : f = b! "shell"
    · rw [if_pos h2]; subst h2; simp
    · rw [if_neg h2]
      by_cases h3 : f = b! "json"
      · rw [if_pos h3]; subst h3
        cases hj : parseJsonString s <;> simp [Res.ofExcept]
      · rw [if_neg h3]; simp [h2, h3]

theorem checkResult_passed (t : TestCase) (v : Value) (r : TestResult) (h : checkResult t v = some r) :
    r.passed = true ↔ ∃ w, ReadIn (ResultLang t) (trimSpace t.result) [w] ∧ goEqual w v = true := by
  simp only [← parseFormat_iff]
  have hl : parseFormat (ResultLang t) (trimSpace t.result) = parseFormat (if t.resultLang = [] then b! "sexp" else t.resultLang) (trimSpace t.result) := rfl
  simp only [checkResult] at h
  rw [hl]
  split at h
  · exact nomatch h
  · rename_i e hp
    cases h; rw [hp]; simp [failed]
  · rename_i hp
    cases h; rw [hp]; simp
  · rename_i w hp
    rw [hp]
    by_cases hg : goEqual w v = true
    · rw [if_pos hg] at h; cases h; simp [hg]
    · rw [if_neg hg] at h; cases h; simp [hg]
  · rename_i ws h1 h2 hp
    cases h; rw [hp]
    refine ⟨fun h => (nomatch h), fun ⟨w, hw, _⟩ => ?_⟩
    cases hw
    exact absurd rfl (h2 w)

/-- A test passes exactly when it is met: for every test and every environment. -/
theorem C56_verdict (env : Env) (t : TestCase) (r : TestResult) (h : runTest env t = some r) : r.passed = true ↔ Met env t := by
  unfold runTest at h
  rcases hp : testProgram t with p | e | _
  · rw [hp] at h
    have hm : Met env t ↔ FailsAsExpected env t p ∨ SucceedsAsExpected env t p := by
      constructor
      · rintro ⟨p', hp', hm⟩
        rw [← testProgram_ok, hp] at hp'
        cases hp'; exact hm
      · exact fun hm => ⟨p, (testProgram_ok t p).mp hp, hm⟩
    rw [hm]
    rcases he : eval env p (newBuffer t.buffer) with ⟨v | e | _, b⟩
    · simp only [he, checkTest] at h
      have hf : ¬ FailsAsExpected env t p := by
        rintro ⟨_, e, b', _, he', _⟩; rw [he] at he'; exact nomatch he'
      simp only [hf, false_or, SucceedsAsExpected, he]
      by_cases hx : trimSpace t.error = []
      · simp only [hx, ne_eq, not_true_eq_false, if_false, true_and] at h ⊢
        by_cases ho : t.output = []
        · by_cases hr : trimSpace t.result = []
          · simp only [ho, hr, not_true_eq_false, not_false_eq_true, and_self, if_true, false_and, if_false] at h
            cases h; simp [failed, ho, hr]
          · simp only [ho, hr, not_true_eq_false, not_false_eq_true, and_false, if_true, false_and, if_false] at h
            rw [checkResult_passed t v r h]
            simp [ho, hr]
        · by_cases hc : t.output = b.content
          · have hc' : b.content ≠ [] := fun e => ho (hc.trans e)
            by_cases hr : trimSpace t.result = []
            · simp only [hc, hc', hr, not_true_eq_false, not_false_eq_true, and_true, if_false, and_false] at h
              cases h; simp [hc, hc', hr]
            · simp only [hc, hc', hr, not_true_eq_false, not_false_eq_true, and_false, if_true, if_false] at h
              rw [checkResult_passed t v r h]
              simp [hc, hc', hr]
          · simp only [ho, hc, not_false_eq_true, false_and, if_false, and_self, if_true] at h
            cases h
            simp only [Bool.false_eq_true, false_iff]
            rintro ⟨v', b', he', _, h2, _⟩
            cases he'
            exact hc (h2 ho).symm
      · simp only [hx, ne_eq, not_false_eq_true, if_true] at h
        cases h
        simp [failed, hx]
    · simp only [he, checkTest] at h
      have hs : ¬ SucceedsAsExpected env t p := by
        rintro ⟨_, e, b', he', _⟩; rw [he] at he'; exact nomatch he'
      simp only [hs, or_false, FailsAsExpected, he]
      by_cases hx : trimSpace t.error = []
      · simp only [hx, ne_eq, not_true_eq_false, if_false] at h
        cases h
        simp [failed, hx]
      · simp only [hx, ne_eq, not_false_eq_true, if_true] at h
        have hi : (∃ e' b' core, ((Res.err e, b) : Res ExecutionError Value × Buffer) = (.err e', b') ∧ InParens (trimSpace t.error) core ∧ Contains e'.message core) ↔
            containsSub e.message (trimParens (trimSpace t.error)) = true := by
          rw [containsSub_iff]
          constructor
          · rintro ⟨e', b', core, he, hi, hc⟩
            cases he
            rw [inParens_iff] at hi
            exact hi ▸ hc
          · exact fun hc => ⟨e, b, _, rfl, (inParens_iff _ _).mpr rfl, hc⟩
        simp only [hx, not_false_eq_true, true_and, ne_eq]
        rw [hi]
        by_cases hc : containsSub e.message (trimParens (trimSpace t.error)) = true
        · rw [if_pos hc] at h; cases h; simp [hc]
        · rw [if_neg hc] at h; cases h; simp [hc, failed]
    · simp only [he, checkTest] at h
      exact nomatch h
  · rw [hp] at h
    cases h
    simp only [failed, Bool.false_eq_true, false_iff]
    rintro ⟨p', hp', _⟩
    rw [← testProgram_ok, hp] at hp'
    exact nomatch hp'
  · rw [hp] at h; exact nomatch h

/-- A test that does not pass says why, and one that passes has nothing to say. -/
theorem C56_failure_explained (env : Env) (t : TestCase) (r : TestResult) (h : runTest env t = some r) : r.passed = true ↔ r.error = none := by
  have key : ∀ run, checkTest t run = some r → (r.passed = true ↔ r.error = none) := by
    intro run
    unfold checkTest checkResult
    dsimp only
    (repeat' split) <;> intro h <;> first | (cases h; simp [failed]; done) | exact nomatch h
  unfold runTest at h
  rcases hp : testProgram t with p | e | _
  · rw [hp] at h; exact key _ h
  · rw [hp] at h; cases h; simp [failed]
  · rw [hp] at h; exact nomatch h

/-- Tracing does not change the verdict (nor whether there is one). -/
theorem C56_tracing (env : Env) (t : TestCase) : (runTestWithTrace env t).1 = runTest env t := by
  unfold runTestWithTrace runTest
  rcases testProgram t with p | e | _
  · simp only
    rw [C27_trace_is_transparent]
  · rfl
  · rfl

omit [Ext] in
theorem parseFormat_total (f s : Bytes) : parseFormat f s ≠ .panic := by
  have h1 : parseSexp s ≠ .panic := by rcases C42_sexp_total s with ⟨p, h, _⟩ | ⟨e, h⟩ <;> rw [h] <;> simp
  have h2 : parseString s ≠ .panic := by rcases C42_total s with ⟨p, h⟩ | ⟨e, h⟩ <;> rw [h] <;> simp
  have h3 : Res.ofExcept (parseJsonString s) ≠ .panic := by cases parseJsonString s <;> simp [Res.ofExcept]
  unfold parseFormat
  (repeat' split) <;> assumption

omit [Ext] in
theorem testProgram_total (t : TestCase) : testProgram t ≠ .panic := by
  unfold testProgram
  split
  · simp
  · rcases C42_total (trimSpace t.input) with ⟨p, h⟩ | ⟨e, h⟩ <;> rw [h] <;> simp

/-- The runner reaches a verdict unless the program itself crashes. -/
theorem C56_reaches_a_verdict (env : Env) (t : TestCase) (he : ∀ p, TestProgram t p → (eval env p (newBuffer t.buffer)).1 ≠ .panic) :
    ∃ r, runTest env t = some r := by
  have hp := testProgram_total t
  have hr := parseFormat_total (ResultLang t) (trimSpace t.result)
  unfold runTest
  rcases hq : testProgram t with p | e | _
  · have := he p ((testProgram_ok t p).mp hq)
    rcases hv : eval env p (newBuffer t.buffer) with ⟨v | e | _, b⟩
    · simp only [hv, checkTest]
      have hc : ∃ r, checkResult t v = some r := by
        simp only [checkResult]
        split
        · rename_i hx; exact absurd hx hr
        all_goals first | exact ⟨_, rfl⟩ | (split <;> exact ⟨_, rfl⟩)
      (repeat' split) <;> first | exact ⟨_, rfl⟩ | exact hc
    · simp only [hv, checkTest]
      (repeat' split) <;> exact ⟨_, rfl⟩
    · rw [hv] at this; exact absurd rfl this
  · exact ⟨_, rfl⟩
  · exact absurd hq hp

/-- Finding: an expected error made of parentheses only is satisfied by every error. -/
theorem C56_any_error_will_do (env : Env) (t : TestCase) (hne : trimSpace t.error ≠ []) (hpar : ∀ c ∈ trimSpace t.error, c = 40 ∨ c = 41)
    (p : List Value) (hp : TestProgram t p) (e : ExecutionError) (b : Buffer) (he : eval env p (newBuffer t.buffer) = (.err e, b)) :
    ∃ r, runTest env t = some r ∧ r.passed = true := by
  have hm : Met env t := ⟨p, hp, .inl ⟨hne, e, b, [], he, ⟨trimSpace t.error, [], by simp, hpar, by simp, by simp, by simp⟩, ⟨[], e.message, by simp⟩⟩⟩
  have hr : ∃ r, runTest env t = some r := by
    unfold runTest
    rw [(testProgram_ok t p).mpr hp]
    simp only [he, checkTest]
    (repeat' split) <;> exact ⟨_, rfl⟩
  obtain ⟨r, hr⟩ := hr
  exact ⟨r, hr, (C56_verdict env t r hr).mpr hm⟩

/-- Finding: a script that does not parse fails the test, even if the test expects just that error. -/
theorem C56_parse_errors_cannot_be_expected (env : Env) (t : TestCase) (e : Bytes) (h1 : trimSpace t.input ≠ [])
    (h2 : parseString (trimSpace t.input) = .err e) :
    ∃ r, runTest env t = some r ∧ r.passed = false ∧ r.error = some (b! "parsing input: " ++ e) := by
  refine ⟨failed (b! "parsing input: " ++ e), ?_, rfl, rfl⟩
  unfold runTest testProgram
  rw [if_neg h1, h2]

/-- Finding: an empty expected output is not checked: whatever text the program leaves, only the value counts. -/
theorem C56_empty_output_is_not_checked (env : Env) (t : TestCase) (ho : t.output = []) (hx : trimSpace t.error = [])
    (p : List Value) (hp : TestProgram t p) (v : Value) (b : Buffer) (he : eval env p (newBuffer t.buffer) = (.ok v, b))
    (w : Value) (hw : ReadIn (ResultLang t) (trimSpace t.result) [w]) (hr : trimSpace t.result ≠ []) (hv : goEqual w v = true) :
    ∃ r, runTest env t = some r ∧ r.passed = true := by
  have hm : Met env t := ⟨p, hp, .inr ⟨hx, v, b, he, .inr hr, fun h => absurd ho h, fun _ => ⟨w, hw, hv⟩⟩⟩
  have hr' : ∃ r, runTest env t = some r := by
    unfold runTest
    rw [(testProgram_ok t p).mpr hp]
    simp only [he, checkTest, hx, ne_eq, not_true_eq_false, if_false, ho, hr, not_false_eq_true, and_false, false_and, if_true, checkResult]
    rw [show parseFormat (if t.resultLang = [] then b! "sexp" else t.resultLang) (trimSpace t.result) = .ok [w] from (parseFormat_iff _ _ _).2 hw]
    simp only [hv, if_true]
    exact ⟨_, rfl⟩
  obtain ⟨r, hr'⟩ := hr'
  exact ⟨r, hr', (C56_verdict env t r hr').mpr hm⟩

/-- Tests that pass and tests that fail. -/
example : letI := litExt
    runTest defaultEnv { buffer := b! "ab", input := b! "insert \"x\"; point", output := b! "xab", result := b! "2" } = some { passed := true } ∧
    (runTest defaultEnv { buffer := b! "ab", input := b! "insert \"x\"", output := b! "ab" }).map (·.passed) = some false ∧
    runTest defaultEnv { buffer := b! "ab", input := b! "search-forward \"x\"", error := b! " (search failed) " } = some { passed := true } ∧
    runTest defaultEnv { buffer := b! "ab", input := b! "search-forward \"x\"", error := b! "()" } = some { passed := true } := by
  decide +kernel

/-! ### C64: the command -/

/-- The verdict on a file does not depend on tracing. -/
theorem runTestFile_trace (load : Bytes → Except Bytes TestCase) (tr : Bool) (f : Bytes) :
    (runTestFile defaultEnv load tr f).1 = (runTestFile defaultEnv load false f).1 := by
  unfold runTestFile
  cases load f with
  | error e => rfl
  | ok t => cases tr <;> simp [C56_tracing]

/-- ... and is what C56 says. -/
theorem runTestFile_passed (load : Bytes → Except Bytes TestCase) (tr : Bool) (f : Bytes) (r : TestResult)
    (h : (runTestFile defaultEnv load tr f).1 = some r) : (r.passed = true ↔ FilePasses load f) ∧ (r.passed = true ↔ r.error = none) ∧ r.name = pathBase f ∧
      (r.passed = true → r.expected = [] ∧ r.actual = []) := by
  rw [runTestFile_trace] at h
  unfold runTestFile at h
  cases hl : load f with
  | error e =>
    rw [hl] at h; cases h
    exact ⟨by simp [FilePasses, hl], by simp, rfl, by simp⟩
  | ok t =>
    simp only [hl, Bool.false_eq_true, if_false, Option.map_eq_some_iff] at h
    obtain ⟨r', hr, rfl⟩ := h
    refine ⟨?_, C56_failure_explained defaultEnv t r' hr, rfl, ?_⟩
    · show r'.passed = true ↔ _
      rw [C56_verdict _ _ _ hr]
      simp [FilePasses, hl]
    · have key : ∀ run, checkTest t run = some r' → (r'.passed = true → r'.expected = [] ∧ r'.actual = []) := by
        intro run
        unfold checkTest checkResult
        dsimp only
        (repeat' split) <;> intro h <;> first | (cases h; simp [failed]; done) | exact nomatch h
      unfold runTest at hr
      rcases hp : testProgram t with p | e | _
      · rw [hp] at hr; exact key _ hr
      · rw [hp] at hr; cases hr; simp [failed]
      · rw [hp] at hr; exact nomatch hr

theorem matchesAny_valid (base : Bytes) (ps : List Bytes) (h : ∀ p ∈ ps, ∃ re, Ext.compile p = .ok re) :
    matchesAny base ps = .ok (ps.any fun p => Matches p base) := by
  induction ps with
  | nil => rfl
  | cons p ps ih =>
    obtain ⟨re, hre⟩ := h p (by simp)
    simp only [matchesAny, hre, List.any_cons, Matches]
    split
    · rename_i hm; rw [hm]; rfl
    · rename_i hm
      rw [ih fun p hp => h p (by simp [hp])]
      simp only [Bool.not_eq_true] at hm
      rw [hm]; rfl

theorem filterFiles_valid (ps fs : List Bytes) (h : ∀ p ∈ ps, ∃ re, Ext.compile p = .ok re) :
    filterFiles ps fs = .ok (fs.filter fun f => ps.any fun p => Matches p (pathBase f)) := by
  induction fs with
  | nil => rfl
  | cons f fs ih =>
    simp only [filterFiles, matchesAny_valid _ _ h, ih, List.filter_cons]

/-- One verdict for each file, and what the traces print. -/
theorem runFiles_spec (load : Bytes → Except Bytes TestCase) (tr : Bool) (fs : List Bytes) (rs : List TestResult) (out : Bytes)
    (h : runFiles load tr fs = some (rs, out)) :
    fs.map (fun f => (runTestFile defaultEnv load false f).1) = rs.map some ∧ (tr = false → out = []) := by
  induction fs generalizing rs out with
  | nil => cases h; exact ⟨rfl, fun _ => rfl⟩
  | cons f fs ih =>
    simp only [runFiles] at h
    rcases hf : runTestFile defaultEnv load tr f with ⟨_ | r, evs⟩
    · rw [hf] at h; exact nomatch h
    · rw [hf] at h
      simp only at h
      rcases hr : runFiles load tr fs with _ | ⟨rs', out'⟩
      · rw [hr] at h; exact nomatch h
      · rw [hr] at h
        cases h
        obtain ⟨h1, h2⟩ := ih _ _ hr
        refine ⟨?_, fun ht => ?_⟩
        · simp only [List.map_cons, h1]
          rw [← runTestFile_trace load tr f, hf]
        · subst ht
          have : evs = [] := by
            have := congrArg Prod.snd hf
            unfold runTestFile at this
            rcases hl : load f with _ | _ <;> rw [hl] at this <;> exact this.symm
          rw [this, h2 rfl]; rfl

theorem runFiles_trace (load : Bytes → Except Bytes TestCase) (tr : Bool) (fs : List Bytes) :
    (runFiles load tr fs).map (·.1) = (runFiles load false fs).map (·.1) := by
  induction fs with
  | nil => rfl
  | cons f fs ih =>
    simp only [runFiles]
    have hf := runTestFile_trace load tr f
    rcases h1 : runTestFile defaultEnv load tr f with ⟨r1, e1⟩
    rcases h2 : runTestFile defaultEnv load false f with ⟨r2, e2⟩
    rw [h1, h2] at hf
    simp only at hf
    subst hf
    cases r1 with
    | none => rfl
    | some r =>
      simp only
      rcases h3 : runFiles load tr fs with _ | ⟨rs, o⟩ <;> rcases h4 : runFiles load false fs with _ | ⟨rs', o'⟩ <;> rw [h3, h4] at ih <;> simp at ih ⊢
      exact ih

/-- The command with valid patterns, without the selection. -/
theorem runTests_valid (load : Bytes → Except Bytes TestCase) (glob : List Bytes) (a : TestArgs) (hv : ∀ p ∈ a.includePatterns, ∃ re, Ext.compile p = .ok re) :
    runTests load glob a = match Selected glob a with
      | [] => some (b! "No test files found\n", 0)
      | f :: fs => match runFiles load a.trace (f :: fs) with
        | none => none
        | some (results, traces) =>
          let shown := if a.quiet then [] else results.flatMap fun r => if a.failOnly && r.passed then [] else printTestResult r a.verbose
          some (traces ++ shown ++ testSummary results, if (results.filter (·.passed)).length < results.length then 1 else 0) := by
  have hs : (if a.includePatterns = [] then Except.ok (if a.testFiles = [] then glob else a.testFiles)
      else filterFiles a.includePatterns (if a.testFiles = [] then glob else a.testFiles)) = (.ok (Selected glob a) : Except Bytes (List Bytes)) := by
    unfold Selected
    split
    · rfl
    · exact filterFiles_valid _ _ hv
  unfold runTests
  dsimp only
  rw [hs]
  rcases Selected glob a with _ | ⟨f, fs⟩ <;> rfl

theorem verdicts_of {load : Bytes → Except Bytes TestCase} {fs : List Bytes} {rs : List TestResult}
    (h : fs.map (fun f => (runTestFile defaultEnv load false f).1) = rs.map some) : Verdicts load fs (rs.map (·.passed)) := by
  have hl : rs.length = fs.length := by simpa using (congrArg List.length h).symm
  refine ⟨by simpa using hl, fun i f hf => ?_⟩
  have hi := congrArg (·[i]?) h
  simp only [List.getElem?_map, hf, Option.map_some] at hi
  rcases hr : rs[i]? with _ | r
  · rw [hr] at hi; exact nomatch hi
  · rw [hr] at hi
    simp only [Option.map_some, Option.some.injEq] at hi
    rw [List.getElem?_map, hr, Option.map_some, Option.some.injEq]
    exact (runTestFile_passed load false f r hi).1

omit [Ext] in
theorem filter_passed (rs : List TestResult) : (rs.filter (·.passed)).length = (rs.map (·.passed)).count true := by
  induction rs with
  | nil => rfl
  | cons r rs ih =>
    rw [List.filter_cons, List.map_cons, List.count_cons]
    cases r.passed <;> simp [ih]

omit [Ext] in
theorem count_bools (vs : List Bool) : vs.count true + vs.count false = vs.length := by
  induction vs with
  | nil => rfl
  | cons v vs ih => cases v <;> simp <;> omega

/-- The end of the output counts the selected tests correctly, and the exit status is 1 exactly if one of them fails; whatever the flags. -/
theorem C64_summary_and_exit (load : Bytes → Except Bytes TestCase) (glob : List Bytes) (a : TestArgs)
    (hv : ∀ p ∈ a.includePatterns, ∃ re, Ext.compile p = .ok re) (hne : Selected glob a ≠ []) (out : Bytes) (code : Nat)
    (h : runTests load glob a = some (out, code)) :
    ∃ verdicts lead, Verdicts load (Selected glob a) verdicts ∧
      out = lead ++ (b! "\nTests: " ++ natDec (verdicts.count true) ++ b! " passed, " ++ natDec (verdicts.count false) ++ b! " failed, " ++
        natDec (Selected glob a).length ++ b! " total\n") ∧
      code = (if false ∈ verdicts then 1 else 0) := by
  rw [runTests_valid load glob a hv] at h
  rcases hs : Selected glob a with _ | ⟨f, fs⟩
  · exact absurd hs hne
  · rw [hs] at h
    simp only at h
    rcases hr : runFiles load a.trace (f :: fs) with _ | ⟨rs, tr⟩
    · rw [hr] at h; exact nomatch h
    · rw [hr] at h
      simp only [Option.some.injEq, Prod.mk.injEq] at h
      obtain ⟨ho, hc⟩ := h
      have hx := verdicts_of (runFiles_spec load a.trace _ _ _ hr).1
      have hn : (f :: fs).length = rs.length := by rw [← hx.1]; simp
      have hcnt := count_bools (rs.map (·.passed))
      rw [List.length_map] at hcnt
      have hsum : testSummary rs = b! "\nTests: " ++ natDec ((rs.map (·.passed)).count true) ++ b! " passed, " ++ natDec ((rs.map (·.passed)).count false) ++
          b! " failed, " ++ natDec (f :: fs).length ++ b! " total\n" := by
        simp only [testSummary]
        rw [filter_passed, hn, show rs.length - (rs.map (·.passed)).count true = (rs.map (·.passed)).count false by omega]
      rw [← hc, ← ho]
      generalize tr ++ (if a.quiet = true then [] else rs.flatMap fun r => if (a.failOnly && r.passed) = true then [] else printTestResult r a.verbose) = lead
      refine ⟨rs.map (·.passed), lead, hx, by rw [hsum], ?_⟩
      · rw [filter_passed]
        have hz : false ∈ rs.map (·.passed) ↔ 0 < (rs.map (·.passed)).count false := List.count_pos_iff.symm
        by_cases hf : false ∈ rs.map (·.passed)
        · rw [if_pos (by have := hz.mp hf; omega), if_pos hf]
        · rw [if_neg (by intro hlt; exact hf (hz.mpr (by omega))), if_neg hf]

/-- Exit status 0 means that every selected test passes (also if there is none), 1 that some test fails. -/
theorem C64_exit_status (load : Bytes → Except Bytes TestCase) (glob : List Bytes) (a : TestArgs)
    (hv : ∀ p ∈ a.includePatterns, ∃ re, Ext.compile p = .ok re) (out : Bytes) (code : Nat) (h : runTests load glob a = some (out, code)) :
    (code = 0 ∧ ∀ f ∈ Selected glob a, FilePasses load f) ∨ (code = 1 ∧ ∃ f ∈ Selected glob a, ¬ FilePasses load f) := by
  by_cases hne : Selected glob a = []
  · rw [runTests_valid load glob a hv, hne] at h
    cases h
    rw [hne]
    exact .inl ⟨rfl, fun f hf => (nomatch hf)⟩
  · obtain ⟨vs, _, ⟨hl, hvs⟩, _, hcode⟩ := C64_summary_and_exit load glob a hv hne out code h
    have : false ∈ vs ↔ ¬ ∀ f ∈ Selected glob a, FilePasses load f := by
      constructor
      · intro hf hall
        obtain ⟨i, hi⟩ := List.getElem?_of_mem hf
        have hlt : i < (Selected glob a).length := by rw [← hl]; exact (List.getElem?_eq_some_iff.mp hi).1
        have := (hvs i _ (List.getElem?_eq_getElem hlt)).mpr (hall _ (List.getElem_mem hlt))
        rw [hi] at this; exact nomatch this
      · intro hn
        refine Classical.byContradiction fun hf => hn fun f hfm => ?_
        obtain ⟨i, hi⟩ := List.getElem?_of_mem hfm
        refine (hvs i f hi).mp ?_
        have hlt : i < vs.length := by rw [hl]; exact (List.getElem?_eq_some_iff.mp hi).1
        rw [List.getElem?_eq_getElem hlt]
        cases hb : vs[i] with
        | true => rfl
        | false => exact absurd (hb ▸ List.getElem_mem hlt) hf
    by_cases hf : false ∈ vs
    · rw [if_pos hf] at hcode
      refine .inr ⟨hcode, Classical.byContradiction fun hn => this.mp hf fun f hfm => Classical.byContradiction fun hnf => hn ⟨f, hfm, hnf⟩⟩
    · rw [if_neg hf] at hcode
      exact .inl ⟨hcode, Classical.byContradiction fun hn => hf (this.mpr hn)⟩

/-- `--quiet`, `--verbose`, `--fail-only` and `--trace` change neither the exit status nor whether the command comes to an end. -/
theorem C64_flags_only_affect_output (load : Bytes → Except Bytes TestCase) (glob : List Bytes) (a : TestArgs) (verbose quiet failOnly trace : Bool) :
    (runTests load glob { a with verbose, quiet, failOnly, trace }).map (·.2) = (runTests load glob a).map (·.2) := by
  unfold runTests
  simp only
  split
  · rfl
  · rfl
  · rename_i fs _ _
    have ht := (runFiles_trace load trace fs).trans (runFiles_trace load a.trace fs).symm
    rcases h1 : runFiles load trace fs with _ | ⟨rs, o⟩ <;> rcases h2 : runFiles load a.trace fs with _ | ⟨rs', o'⟩ <;> rw [h1, h2] at ht <;> simp at ht ⊢
    rw [ht]

/-- Finding: `--verbose` changes nothing at all: the expected and the actual text that it would show are never there to be shown. -/
theorem C64_verbose_has_no_effect (load : Bytes → Except Bytes TestCase) (glob : List Bytes) (a : TestArgs) (verbose : Bool) :
    runTests load glob { a with verbose } = runTests load glob a := by
  unfold runTests
  simp only
  split
  · rfl
  · rfl
  · rename_i fs _ _
    rcases hr : runFiles load a.trace fs with _ | ⟨rs, o⟩
    · rfl
    · simp only
      have hx := (runFiles_spec load a.trace fs rs o hr).1
      have key : ∀ r ∈ rs, printTestResult r verbose = printTestResult r a.verbose := by
        intro r hr
        have : some r ∈ rs.map some := List.mem_map.mpr ⟨r, hr, rfl⟩
        rw [← hx] at this
        obtain ⟨f, _, hf⟩ := List.mem_map.mp this
        obtain ⟨_, h2, _, h4⟩ := runTestFile_passed load false f r hf
        simp only [printTestResult]
        cases he : r.error with
        | some e => rfl
        | none =>
          have hp := h2.mpr he
          simp [hp, h4 hp]
      have : (rs.flatMap fun r => if a.failOnly && r.passed then [] else printTestResult r verbose) =
          rs.flatMap fun r => if a.failOnly && r.passed then [] else printTestResult r a.verbose := by
        simp only [List.flatMap_def]
        congr 1
        refine List.map_congr_left fun r hr => ?_
        rw [key r hr]
      rw [this]

theorem report_core (load : Bytes → Except Bytes TestCase) (glob : List Bytes) (a : TestArgs) (ht : a.trace = false)
    (hv : ∀ p ∈ a.includePatterns, ∃ re, Ext.compile p = .ok re) (hne : Selected glob a ≠ []) (out : Bytes) (code : Nat)
    (h : runTests load glob a = some (out, code)) :
    ∃ (reasons : List (Option Bytes)) (summary : Bytes), reasons.length = (Selected glob a).length ∧
      (∀ (i : Nat) (f : Bytes), (Selected glob a)[i]? = some f → ∃ r, (runTestFile defaultEnv load false f).1 = some r ∧ reasons[i]? = some r.error) ∧
      out = (if a.quiet then [] else ((Selected glob a).zip reasons).flatMap fun p => if a.failOnly && p.2.isNone then [] else shownLine p.1 p.2) ++ summary ∧
      summary = b! "\nTests: " ++ natDec (reasons.filter (·.isNone)).length ++ b! " passed, " ++ natDec (reasons.filter (·.isSome)).length ++
        b! " failed, " ++ natDec reasons.length ++ b! " total\n" := by
  rw [runTests_valid load glob a hv] at h
  rcases hs : Selected glob a with _ | ⟨f, fs⟩
  · exact absurd hs hne
  · rw [hs] at h
    simp only at h
    rcases hr : runFiles load a.trace (f :: fs) with _ | ⟨rs, tr⟩
    · rw [hr] at h; exact nomatch h
    · rw [hr] at h
      simp only [Option.some.injEq, Prod.mk.injEq] at h
      obtain ⟨ho, hcode⟩ := h
      clear hcode
      obtain ⟨hx, htr⟩ := runFiles_spec load a.trace _ _ _ hr
      have htr := htr ht
      generalize f :: fs = files at *
      have hl : rs.length = files.length := by simpa using (congrArg List.length hx).symm
      have hp : ∀ r ∈ rs, (r.passed = true ↔ r.error = none) := by
        intro r hr
        have : some r ∈ rs.map some := List.mem_map.mpr ⟨r, hr, rfl⟩
        rw [← hx] at this
        obtain ⟨f, _, hf⟩ := List.mem_map.mp this
        exact (runTestFile_passed load false f r hf).2.1
      refine ⟨rs.map (·.error), testSummary rs, by simpa using hl, ?_, ?_, ?_⟩
      · intro i f hf
        have hi := congrArg (·[i]?) hx
        simp only [List.getElem?_map, hf, Option.map_some] at hi
        rcases hri : rs[i]? with _ | r
        · rw [hri] at hi; exact nomatch hi
        · rw [hri] at hi
          simp only [Option.map_some, Option.some.injEq] at hi
          exact ⟨r, hi, by rw [List.getElem?_map, hri, Option.map_some]⟩
      · rw [← ho, htr, List.nil_append]
        congr 1
        split
        · rfl
        · clear hr ho hs hne
          induction files generalizing rs with
          | nil =>
            cases rs with
            | nil => rfl
            | cons r rs => simp at hl
          | cons f fs ih =>
            cases rs with
            | nil => simp at hl
            | cons r rs =>
              simp only [List.map_cons, List.cons.injEq] at hx
              simp only [List.map_cons, List.zip_cons_cons, List.flatMap_cons]
              rw [ih rs hx.2 (by simpa using hl) fun r hr => hp r (by simp [hr])]
              congr 1
              obtain ⟨_, h2, h3, h4⟩ := runTestFile_passed load false f r hx.1
              cases he : r.error with
              | none =>
                have hpass := h2.mpr he
                simp [hpass, shownLine, printTestResult, he, h3, h4 hpass]
              | some e =>
                have hpass : r.passed = false := by
                  cases hpp : r.passed with
                  | false => rfl
                  | true => rw [h2.mp hpp] at he; exact nomatch he
                simp [hpass, shownLine, printTestResult, he, h3]
      · have hcnt : ∀ l : List TestResult, (∀ r ∈ l, (r.passed = true ↔ r.error = none)) →
            (l.filter (·.passed)).length = ((l.map (·.error)).filter (·.isNone)).length ∧
            l.length - (l.filter (·.passed)).length = ((l.map (·.error)).filter (·.isSome)).length := by
          intro l
          induction l with
          | nil => exact fun _ => ⟨rfl, rfl⟩
          | cons r l ih =>
            intro hp
            obtain ⟨i1, i2⟩ := ih fun r hr => hp r (by simp [hr])
            have h2 := hp r (by simp)
            have hle := List.length_filter_le (fun r : TestResult => r.passed) l
            cases he : r.error with
            | none => simp [h2.mpr he, he, i1, ← i2]
            | some e =>
              have hpass : r.passed = false := by
                cases hpp : r.passed with
                | false => rfl
                | true => rw [h2.mp hpp] at he; exact nomatch he
              simp [hpass, he, i1, ← i2]; omega
        obtain ⟨h1, h2⟩ := hcnt rs hp
        simp only [testSummary, List.length_map]
        rw [h2, h1]

/-- The report: without tracing and `--quiet`, one entry for each selected file in order, of the failing ones only if `--fail-only` is given,
then the summary; with `--quiet` just the summary. `reasons` says for each file why it fails. -/
theorem C64_report (load : Bytes → Except Bytes TestCase) (glob : List Bytes) (a : TestArgs) (ht : a.trace = false)
    (hv : ∀ p ∈ a.includePatterns, ∃ re, Ext.compile p = .ok re) (hne : Selected glob a ≠ []) (out : Bytes) (code : Nat)
    (h : runTests load glob a = some (out, code)) :
    ∃ (reasons : List (Option Bytes)) (summary : Bytes), reasons.length = (Selected glob a).length ∧
      (∀ (i : Nat) (f : Bytes), (Selected glob a)[i]? = some f → (reasons[i]? = some none ↔ FilePasses load f)) ∧
      out = (if a.quiet then [] else ((Selected glob a).zip reasons).flatMap fun p => if a.failOnly && p.2.isNone then [] else shownLine p.1 p.2) ++ summary ∧
      summary = b! "\nTests: " ++ natDec (reasons.filter (·.isNone)).length ++ b! " passed, " ++ natDec (reasons.filter (·.isSome)).length ++
        b! " failed, " ++ natDec reasons.length ++ b! " total\n" := by
  obtain ⟨reasons, summary, h1, h2, h3⟩ := report_core load glob a ht hv hne out code h
  refine ⟨reasons, summary, h1, fun i f hf => ?_, h3⟩
  obtain ⟨r, hr, he⟩ := h2 i f hf
  obtain ⟨g1, g2, _⟩ := runTestFile_passed load false f r hr
  rw [he, Option.some.injEq, ← g2, g1]

/-- No test file: the command says so and succeeds. -/
theorem C64_no_files (load : Bytes → Except Bytes TestCase) (glob : List Bytes) (a : TestArgs)
    (hv : ∀ p ∈ a.includePatterns, ∃ re, Ext.compile p = .ok re) (h : Selected glob a = []) :
    runTests load glob a = some (b! "No test files found\n", 0) := by
  rw [runTests_valid load glob a hv, h]

/-- A first pattern that is not a regular expression stops the command before any test is run, with status 1. -/
theorem C64_bad_pattern (load : Bytes → Except Bytes TestCase) (glob : List Bytes) (a : TestArgs) (p : Bytes) (ps : List Bytes) (e : Bytes)
    (hp : a.includePatterns = p :: ps) (he : Ext.compile p = .error e) (hf : a.testFiles ≠ [] ∨ glob ≠ []) :
    runTests load glob a = some (b! "Error: invalid pattern " ++ p ++ b! ": " ++ e ++ b! "\n", 1) := by
  unfold runTests
  have hfs : ∃ f fs, (if a.testFiles = [] then glob else a.testFiles) = f :: fs := by
    split
    · rename_i h
      rcases glob with _ | ⟨f, fs⟩
      · simp [h] at hf
      · exact ⟨f, fs, rfl⟩
    · rename_i h
      rcases ht : a.testFiles with _ | ⟨f, fs⟩
      · exact absurd ht h
      · exact ⟨f, fs, rfl⟩
  obtain ⟨f, fs, hfs⟩ := hfs
  simp only [hfs, hp, reduceCtorEq, if_false, filterFiles, matchesAny, he]

/-- Two tests of which one passes, a file that cannot be read, and a selection by pattern. -/
def demoLoad (f : Bytes) : Except Bytes TestCase :=
  if f = b! "tests/a.xml" then .ok { buffer := b! "ab", input := b! "insert \"x\"", output := b! "xab" }
  else if f = b! "tests/b.xml" then .ok { buffer := b! "ab", input := b! "insert \"x\"", output := b! "ab" }
  else .error b! "failed to read test file"

example : letI := litExt
    (∀ p ∈ ({ includePatterns := [b! "b"] } : TestArgs).includePatterns, ∃ re, Ext.compile p = .ok re) ∧
    Selected [b! "tests/a.xml", b! "tests/b.xml"] { includePatterns := [b! "b"] } = [b! "tests/b.xml"] ∧
    runTests demoLoad [b! "tests/a.xml"] {} = some (b! "[PASS] a.xml\n\nTests: 1 passed, 0 failed, 1 total\n", 0) ∧
    runTests demoLoad [b! "tests/a.xml", b! "c"] { verbose := true } =
      some (b! "[PASS] a.xml\n[FAIL] c\n  Error: failed to read test file\n\nTests: 1 passed, 1 failed, 2 total\n", 1) ∧
    runTests demoLoad [b! "tests/a.xml", b! "tests/b.xml"] { includePatterns := [b! "b"], quiet := true } =
      some (b! "\nTests: 0 passed, 1 failed, 1 total\n", 1) := by
  refine ⟨fun p _ => ⟨_, rfl⟩, ?_⟩
  decide +kernel

/-! ### Base names -/

omit [Ext] in
theorem pathBase_base (p : Bytes) : BaseName p (pathBase p) := by
  unfold pathBase
  by_cases hp : p = []
  · rw [if_pos hp]; exact .inl ⟨hp, rfl⟩
  · rw [if_neg hp]
    let f : UInt8 → Bool := fun c => decide (c = 47)
    let g : UInt8 → Bool := fun c => decide (c ≠ 47)
    let m := p.reverse.dropWhile f
    let q := m.takeWhile g
    have e1 : p.reverse = p.reverse.takeWhile f ++ m := List.takeWhile_append_dropWhile.symm
    have e2 : m = q ++ m.dropWhile g := List.takeWhile_append_dropWhile.symm
    show BaseName p (if q = [] then b! "/" else q.reverse)
    have hs : ∀ c ∈ p.reverse.takeWhile f, c = 47 := fun c hc => of_decide_eq_true (p := c = 47) (takeWhile_mem hc)
    by_cases hq : q = []
    · rw [if_pos hq]
      refine .inr (.inl ⟨hp, ?_, rfl⟩)
      have hm : m = [] := by
        rcases hm : m with _ | ⟨x, r⟩
        · rfl
        · exfalso
          have hx : f x = false := by
            have := List.head?_dropWhile_not f p.reverse
            rw [show List.dropWhile f p.reverse = x :: r from hm] at this
            exact this
          have hg : g x = true := by
            simp only [f, decide_eq_false_iff_not] at hx
            simpa [g] using hx
          have : q = x :: r.takeWhile g := by
            show m.takeWhile g = _
            rw [hm, List.takeWhile_cons_of_pos hg]
          rw [hq] at this
          exact nomatch this
      intro c hc
      have : c ∈ p.reverse := List.mem_reverse.mpr hc
      rw [e1, hm, List.append_nil] at this
      exact hs c this
    · rw [if_neg hq]
      refine .inr (.inr ⟨(m.dropWhile g).reverse, (p.reverse.takeWhile f).reverse, ?_, ?_, by simpa using hq, ?_, ?_⟩)
      · have := congrArg List.reverse e1
        rw [List.reverse_reverse, List.reverse_append] at this
        refine this.trans ?_
        have e3 : m.reverse = (m.dropWhile g).reverse ++ q.reverse := by rw [← List.reverse_append, ← e2]
        rw [e3]
      · rcases hd : m.dropWhile g with _ | ⟨x, r⟩
        · exact .inl rfl
        · have := List.head?_dropWhile_not g m
          rw [hd] at this
          have hx : x = 47 := by simpa [g] using this
          exact .inr (by simp [hx])
      · intro h
        have := takeWhile_mem (List.mem_reverse.mp h)
        simp [g] at this
      · exact fun c hc => hs c (List.mem_reverse.mp hc)

omit [Ext] in
theorem baseName_unique {p n n' : Bytes} (h : BaseName p n) (h' : BaseName p n') : n = n' := by
  have all : ∀ dir n slashes : Bytes, n ≠ [] → 47 ∉ n → (∀ c ∈ dir ++ n ++ slashes, c = 47) → False := by
    intro dir n slashes hn h47 h
    rcases n with _ | ⟨x, r⟩
    · exact hn rfl
    · exact h47 (by rw [show x = 47 from h x (by simp)]; simp)
  rcases h with ⟨h1, h2⟩ | ⟨h1, h2, h3⟩ | ⟨dir, sl, e, hd, hn, h47, hsl⟩ <;>
    rcases h' with ⟨h1', h2'⟩ | ⟨h1', h2', h3'⟩ | ⟨dir', sl', e', hd', hn', h47', hsl'⟩
  · rw [h2, h2']
  · exact absurd h1 h1'
  · rw [h1] at e'; exact absurd e'.symm (by simp [hn'])
  · exact absurd h1' h1
  · rw [h3, h3']
  · exact (all dir' n' sl' hn' h47' (e' ▸ h2)).elim
  · rw [h1'] at e; exact absurd e.symm (by simp [hn])
  · exact (all dir n sl hn h47 (e ▸ h2')).elim
  · -- from the end: drop the slashes, then take what has none
    have key : ∀ dir n slashes : Bytes, (dir = [] ∨ dir.getLast? = some 47) → n ≠ [] → 47 ∉ n → (∀ c ∈ slashes, c = 47) →
        (((dir ++ n ++ slashes).reverse.dropWhile fun c => decide (c = 47)).takeWhile fun c => decide (c ≠ 47)) = n.reverse := by
      intro dir n sl hd hn h47 hsl
      rw [List.reverse_append, List.reverse_append, dropParens_all (fun c hc => by simpa using hsl c (List.mem_reverse.mp hc)),
        dropParens_head]
      · rw [List.takeWhile_append_of_pos]
        · rcases hd with rfl | hd
          · simp
          · have : dir.reverse.head? = some 47 := by rw [List.head?_reverse, hd]
            rcases hr : dir.reverse with _ | ⟨x, r⟩
            · simp
            · rw [hr] at this
              simp at this
              rw [List.takeWhile_cons_of_neg (by simp [this])]; simp
        · intro c hc
          have : c ≠ 47 := fun h => h47 (h ▸ List.mem_reverse.mp hc)
          simpa using this
      · intro c hc
        have : c ∈ n := by
          rcases hr : n.reverse with _ | ⟨x, r⟩
          · exact absurd (List.reverse_eq_nil_iff.mp hr) hn
          · rw [hr] at hc
            simp at hc
            exact List.mem_reverse.mp (by rw [hr]; simp [hc])
        simpa using fun h : c = 47 => h47 (h ▸ this)
    have h1 := key dir n sl hd hn h47 hsl
    have h2 := key dir' n' sl' hd' hn' h47' hsl'
    rw [← e] at h1
    rw [← e', h1] at h2
    exact List.reverse_injective h2

omit [Ext] in
/-- The name under which a test is shown, and which `--include` patterns are matched against, is the last element of its path. -/
theorem C64_base_name (p n : Bytes) : pathBase p = n ↔ BaseName p n :=
  ⟨fun h => h ▸ pathBase_base p, fun h => baseName_unique (pathBase_base p) h⟩

example : pathBase b! "tests//insert.xml" = b! "insert.xml" ∧ pathBase b! "tests/a/" = b! "a" ∧ pathBase b! "//" = b! "/" ∧ pathBase [] = b! "." := by decide

end Texted
