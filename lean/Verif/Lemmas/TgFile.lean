import Verif.Lemmas.TgRunTest
/-
Reading, running and reporting test files as it is written in Go.
-/
set_option linter.unusedSectionVars false
set_option linter.constructorNameAsVariable false
namespace Texted
variable [Ext]

/-- A test file as `ParseTestFile` reads it, with the files and the XML package of `x` (/repo/edlisp/testing/testing.go:51-94). -/
def TgX.load (x : TgX) : Bytes → Except Bytes TestCase :=
  loadTest x.xml x.read fun content => x.xmlError (b! "<testcase>" ++ content ++ b! "</testcase>")

/-- A test case, or nil, and an error. -/
def loaded : Except Bytes TestCase → List TgV
  | .ok t => [.test t, .nil]
  | .error e => [.nil, .err e]

theorem tgexec_readAll (x : TgX) (n : Nat) (call : TgFn → List TgV → TgW → TgOut) (ys : List TgVar) (y : TgVar) (st : TgSt) (r : Except Bytes Bytes)
    (h : st.vars y = .file r) : (TgS.readAll ys (.var y)).exec x n call st = st.bindAll ys (tgReadAll r) := by
  simp only [TgS.exec, TgE.eval, h, GoR.runTg]

theorem tgexec_openFile (x : TgX) (n : Nat) (call : TgFn → List TgV → TgW → TgOut) (ys : List TgVar) (y : TgVar) (st : TgSt) (f : Bytes)
    (h : st.vars y = .str f) : (TgS.openFile ys (.var y)).exec x n call st = st.bindAll ys (tgOpen (x.read f)) := by
  simp only [TgS.exec, TgE.eval, h, GoR.runTg]

theorem tgexec_unmarshal (x : TgX) (n : Nat) (call : TgFn → List TgV → TgW → TgOut) (c err y : TgVar) (st : TgSt) (s : Bytes)
    (h : st.vars y = .str s) : (TgS.unmarshal c err (.var y)).exec x n call st = st.bindAll [c, err] (tgUnmarshal x s) := by
  simp only [TgS.exec, TgE.eval, h, GoR.runTg]

theorem tgread_ok (s : Bytes) : tgReadAll (.ok s) = [.str s, .nil] := rfl
theorem tgread_err (e : Bytes) : tgReadAll (.error e) = [.str [], .err e] := rfl

theorem parseCase_err (x : TgX) (n d : Nat) (e : Bytes) (w : TgW) :
    tgRun x n (d + 1) .parseTestCase [.file (.error e)] w = .ret [.nil, .err (b! "reading test case: " ++ e)] w := by
  rw [tgRun_succ _ _ _ _ _ _ _ rfl]
  simp only [TgFn.body, tgParseTestCase]
  tg [tgexec_readAll (r := .error e), tgread_err, List.append_nil]

theorem parseCase_ok (x : TgX) (n d : Nat) (s : Bytes) (w : TgW) :
    tgRun x n (d + 1) .parseTestCase [.file (.ok s)] w = .ret (match parseTestCase x.xml s with
      | some t => [.test t, .nil]
      | none => [.nil, .err (b! "parsing test case: " ++ x.xmlError (b! "<testcase>" ++ s ++ b! "</testcase>"))]) w := by
  rw [tgRun_succ _ _ _ _ _ _ _ rfl]
  simp only [TgFn.body, tgParseTestCase, parseTestCase]
  cases h : unmarshalCase x.xml (b! "<testcase>" ++ s ++ b! "</testcase>") with
  | none =>
    have hu : tgUnmarshal x (b! "<testcase>" ++ s ++ b! "</testcase>") = [.test {}, .err (x.xmlError (b! "<testcase>" ++ s ++ b! "</testcase>"))] := by rw [tgUnmarshal, h]
    tg [tgexec_readAll (r := .ok s), tgread_ok, tgexec_unmarshal (s := b! "<testcase>" ++ s ++ b! "</testcase>"), hu, List.append_nil]
  | some t =>
    have hu : tgUnmarshal x (b! "<testcase>" ++ s ++ b! "</testcase>") = [.test t, .nil] := by rw [tgUnmarshal, h]
    tg [tgexec_readAll (r := .ok s), tgread_ok, tgexec_unmarshal (s := b! "<testcase>" ++ s ++ b! "</testcase>"), hu, List.append_nil]

/-- What `ParseTestCase` returns for a content. -/
def caseOr (m : Bytes) : Option TestCase → List TgV
  | some t => [.test t, .nil]
  | none => [.nil, .err m]

theorem parseCase_or (x : TgX) (n d : Nat) (s : Bytes) (w : TgW) : tgRun x n (d + 1) .parseTestCase [.file (.ok s)] w =
    .ret (caseOr (b! "parsing test case: " ++ x.xmlError (b! "<testcase>" ++ s ++ b! "</testcase>")) (parseTestCase x.xml s)) w := by
  rw [parseCase_ok]
  generalize b! "parsing test case: " ++ x.xmlError (b! "<testcase>" ++ s ++ b! "</testcase>") = m
  cases parseTestCase x.xml s <;> rfl

theorem parseFile_tg (x : TgX) (file : Bytes) (n d : Nat) (w : TgW) :
    tgRun x n (d + 2) .parseTestFile [.str file] w = .ret (loaded (x.load file)) w := by
  rw [tgRun_succ _ _ _ _ _ _ _ rfl]
  simp only [TgFn.body, tgParseTestFile, TgX.load, loadTest]
  have h₁ := fun e w => parseCase_err x n d e w
  have h₂ := fun s w => parseCase_ok x n d s w
  cases hr : x.read file with
  | cannotOpen e => tg [tgexec_openFile (f := file), hr, tgOpen, loaded, List.append_nil, List.append_assoc]
  | cannotRead e => tg [tgexec_openFile (f := file), hr, tgOpen, loaded, h₁]
  | content s =>
    cases hp : parseTestCase x.xml s with
    | none => tg [tgexec_openFile (f := file), hr, tgOpen, loaded, h₂, hp]
    | some t => tg [tgexec_openFile (f := file), hr, tgOpen, loaded, h₂, hp]

/-- The callback that is passed on. -/
def hookOf (trace : Bool) : TgV := if trace then .hook else .nil

theorem runTestFile_tg (x : TgX) (env : Env) (trace : Bool) (file : Bytes) :
    Eventually fun n d => ∀ w, tgRun x n d .runTestFileWithTrace [.str file, .env env, hookOf trace] w =
      testOut (w.say ((runTestFile env x.load trace file).2.flatMap tracePrint)) (runTestFile env x.load trace file).1 := by
  have hnil : ∀ w : TgW, w.say (List.flatMap tracePrint []) = w := fun w => by simp only [TgW.say, List.flatMap_nil, List.append_nil]
  have hload : Eventually fun n d => ∀ w, tgRun x n d .parseTestFile [.str file] w = .ret (loaded (x.load file)) w :=
    ((Eventually.of fun _ _ => trivial).down (P := fun _ _ => True) (Q := fun _ d => ∃ e, d = e + 1) (fun _ d _ => ⟨d, rfl⟩)).down
      fun n d h => by obtain ⟨d, rfl⟩ := h; exact parseFile_tg x file n d
  unfold runTestFile
  cases hl : x.load file with
  | error e =>
    refine hload.down fun n d h w => ?_
    rw [hl] at h
    rw [tgRun_succ _ _ _ _ _ _ _ rfl]
    simp only [TgFn.body, tgRunTestFileWithTrace]
    tg [h, loaded, testOut, hnil]
  | ok t =>
    cases trace with
    | false =>
      refine (hload.and (runTest_tg x env t)).down fun n d h w => ?_
      rw [hl] at h
      rw [tgRun_succ _ _ _ _ _ _ _ rfl]
      simp only [TgFn.body, tgRunTestFileWithTrace]
      cases hr : runTest env t with
      | none => rw [hr] at h; tg [h.1, h.2, hookOf, loaded, testOut, hnil, Bool.false_eq_true, Option.map_none]
      | some r => rw [hr] at h; tg [h.1, h.2, hookOf, loaded, testOut, hnil, Bool.false_eq_true, Option.map_some]
    | true =>
      refine (hload.and (runTest_trace_tg x env t)).down fun n d h w => ?_
      rw [hl] at h
      rw [tgRun_succ _ _ _ _ _ _ _ rfl]
      simp only [TgFn.body, tgRunTestFileWithTrace]
      cases hr : runTestWithTrace env t with
      | mk r evs => cases r with
        | none => rw [hr] at h; tg [h.1, h.2, hookOf, loaded, testOut, Option.map_none, hr]
        | some r => rw [hr] at h; tg [h.1, h.2, hookOf, loaded, testOut, Option.map_some, hr]

theorem runTestFile_plain_tg (x : TgX) (env : Env) (file : Bytes) :
    Eventually fun n d => ∀ w, tgRun x n d .runTestFile [.str file, .env env] w = testOut w (runTestFile env x.load false file).1 := by
  have hnil : ∀ w : TgW, w.say (List.flatMap tracePrint []) = w := fun w => by simp only [TgW.say, List.flatMap_nil, List.append_nil]
  have he : (runTestFile env x.load false file).2 = [] := by
    unfold runTestFile
    cases x.load file <;> rfl
  refine (runTestFile_tg x env false file).down fun n d h w => ?_
  have h := h w
  rw [he, hnil] at h
  rw [tgRun_succ _ _ _ _ _ _ _ rfl]
  simp only [TgFn.body, tgRunTestFile]
  have h' : tgRun x n d .runTestFileWithTrace [.str file, .env env, .nil] w = testOut w (runTestFile env x.load false file).1 := h
  cases hr : (runTestFile env x.load false file).1 with
  | none => rw [hr] at h'; tg [h', testOut]
  | some r => rw [hr] at h'; tg [h', testOut]

theorem printResult_tg (x : TgX) (r : TestResult) (verbose : Bool) (n d : Nat) (w : TgW) :
    tgRun x n (d + 1) .printTestResult [.result r, .bool verbose] w = .ret [] (w.say (printTestResult r verbose)) := by
  rw [tgRun_succ _ _ _ _ _ _ _ rfl]
  obtain ⟨name, passed, err, exp, act⟩ := r
  simp only [TgFn.body, tgPrintTestResult, printTestResult, TgW.say]
  cases err with
  | some e => cases passed <;> tg [List.append_assoc, List.append_nil, Bool.false_eq_true]
  | none =>
    by_cases h₁ : exp = [] <;> by_cases h₂ : act = [] <;> cases passed <;> cases verbose <;>
      tg [List.append_assoc, List.append_nil, Bool.false_eq_true, Bool.and_false, Bool.and_true, Bool.or_true, Bool.or_false, h₁, h₂, ne_eq, decide_not]

end Texted
