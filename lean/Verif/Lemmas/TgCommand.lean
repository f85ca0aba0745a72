import Verif.Lemmas.TgFile
/-
The command `texted test` as it is written in Go.
-/
set_option linter.unusedSectionVars false
set_option linter.constructorNameAsVariable false
set_option linter.unusedSimpArgs false
namespace Texted
variable [Ext]

/-- The first one of several statements. -/
def TgS.hd : TgS → TgS
  | .seq a _ => a
  | s => s
/-- The statements behind the first one. -/
def TgS.tl : TgS → TgS
  | .seq _ b => b
  | s => s
/-- The body of a loop. -/
def TgS.inner : TgS → TgS
  | .range _ _ _ b => b
  | .rangeMap _ _ _ b => b
  | s => s
/-- What is done if the condition holds. -/
def TgS.yes : TgS → TgS
  | .if_ _ a _ => a
  | s => s

/-- The body of the loop over the patterns (/repo/commands/test.go:84-92). -/
def patternBody : TgS := tgRunTests.tl.tl.hd.yes.tl.hd.inner.tl.inner
/-- The body of the loop over the files that may match (/repo/commands/test.go:82-93). -/
def filterBody : TgS := tgRunTests.tl.tl.hd.yes.tl.hd.inner
/-- The body of the loop over the tests (/repo/commands/test.go:110-123). -/
def runBody : TgS := tgRunTests.tl.tl.tl.tl.tl.tl.tl.tl.hd.inner
/-- The body of the loop that shows the results (/repo/commands/test.go:127-132). -/
def showBody : TgS := tgRunTests.tl.tl.tl.tl.tl.tl.tl.tl.tl.hd.yes.inner

theorem next_ex {o : TgOut} {P : TgSt → Prop} (st : TgSt) (h : o = .next st) (hp : P st) : ∃ st, o = .next st ∧ P st := ⟨st, h, hp⟩

/-- The variables that hold the options. -/
def Opts (a : TestArgs) (st : TgSt) : Prop :=
  st.vars .args_includePatterns = .strs a.includePatterns ∧ st.vars .args_verbose = .bool a.verbose ∧ st.vars .args_quiet = .bool a.quiet ∧
  st.vars .args_failOnly = .bool a.failOnly ∧ st.vars .args_trace = .bool a.trace

/-- What the loop over the patterns comes to. -/
def PatternsGive (a : TestArgs) (w : TgW) (f : Bytes) (acc : List Bytes) (o : TgOut) : Except Bytes Bool → Prop
  | .error e => o = .exit 1 (w.say e)
  | .ok m => ∃ st, o = .next st ∧ Opts a st ∧ st.vars .filtered = .strs (if m then acc ++ [f] else acc) ∧ st.w = w

theorem patterns_tg (x : TgX) (n : Nat) (call : TgFn → List TgV → TgW → TgOut) (a : TestArgs) (f base : Bytes) (acc : List Bytes) :
    ∀ (ps : List Bytes) (k : Nat) (st : TgSt), Opts a st → st.vars .basename = .str base → st.vars .file = .str f → st.vars .filtered = .strs acc →
      PatternsGive a st.w f acc (tgRange (fun st => patternBody.exec x n call st) .blank .pattern k (ps.map .str) st) (matchesAny base ps)
  | [], k, st, ho, _, _, h₃ => ⟨st, rfl, ho, by simpa using h₃, rfl⟩
  | p :: ps, k, st, ho, h₁, h₂, h₃ => by
    rw [List.map_cons, tgRange_cons]
    unfold matchesAny
    cases hc : Ext.compile p with
    | error e =>
      simp only [patternBody, tgRunTests, TgS.hd, TgS.tl, TgS.inner, TgS.yes, PatternsGive]
      tg [h₁, h₂, h₃, hc, tgMatch, TgW.say, List.append_nil, List.append_assoc]
    | ok re =>
      show PatternsGive _ _ _ _ _ (if (re.find base).isSome then .ok true else matchesAny base ps)
      cases hm : (re.find base).isSome with
      | true =>
        rw [if_pos rfl]
        apply next_ex
        · simp only [patternBody, tgRunTests, TgS.hd, TgS.tl, TgS.inner, TgS.yes]
          tg [h₁, h₂, h₃, hc, tgMatch, hm]
          rfl
        · obtain ⟨o₁, o₂, o₃, o₄, o₅⟩ := ho
          refine ⟨⟨?_, ?_, ?_, ?_, ?_⟩, ?_, rfl⟩ <;> tg [o₁, o₂, o₃, o₄, o₅]
      | false =>
        have hs : patternBody.exec x n call ((st.set .blank (.int k)).set .pattern (.str p)) =
            .next (((((st.set .blank (.int k)).set .pattern (.str p))).set .matched (.bool false)).set .err2 .nil) := by
          simp only [patternBody, tgRunTests, TgS.hd, TgS.tl, TgS.inner, TgS.yes]
          tg [h₁, h₂, h₃, hc, tgMatch, hm]
        rw [hs]
        rw [if_neg (by decide)]
        refine patterns_tg x n call a f base acc ps (k + 1) _ ?_ (by tg [h₁]) (by tg [h₂]) (by tg [h₃])
        obtain ⟨o₁, o₂, o₃, o₄, o₅⟩ := ho
        refine ⟨?_, ?_, ?_, ?_, ?_⟩ <;> tg [o₁, o₂, o₃, o₄, o₅]

/-- What the loop over the files comes to. -/
def FilterGives (a : TestArgs) (w : TgW) (acc : List Bytes) (o : TgOut) : Except Bytes (List Bytes) → Prop
  | .error e => o = .exit 1 (w.say e)
  | .ok fs => ∃ st, o = .next st ∧ Opts a st ∧ st.vars .filtered = .strs (acc ++ fs) ∧ st.w = w

theorem filter_tg (x : TgX) (n : Nat) (call : TgFn → List TgV → TgW → TgOut) (a : TestArgs) :
    ∀ (fs : List Bytes) (k : Nat) (acc : List Bytes) (st : TgSt), Opts a st → st.vars .filtered = .strs acc →
      FilterGives a st.w acc (tgRange (fun st => filterBody.exec x n call st) .blank .file k (fs.map .str) st) (filterFiles a.includePatterns fs)
  | [], k, acc, st, ho, h₃ => ⟨st, rfl, ho, by rw [h₃, List.append_nil], rfl⟩
  | f :: fs, k, acc, st, ho, h₃ => by
    rw [List.map_cons, tgRange_cons]
    have hb : filterBody.exec x n call ((st.set .blank (.int k)).set .file (.str f)) =
        tgRange (fun st => patternBody.exec x n call st) .blank .pattern 0 (a.includePatterns.map .str)
          ((((st.set .blank (.int k)).set .file (.str f))).set .basename (.str (pathBase f))) := by
      simp only [filterBody, patternBody, tgRunTests, TgS.hd, TgS.tl, TgS.inner, TgS.yes]
      tg [tgexec_range, ho.1]
    rw [hb]
    have hp := patterns_tg x n call a f (pathBase f) acc a.includePatterns 0 ((((st.set .blank (.int k)).set .file (.str f))).set .basename (.str (pathBase f)))
      (by obtain ⟨o₁, o₂, o₃, o₄, o₅⟩ := ho
          refine ⟨?_, ?_, ?_, ?_, ?_⟩ <;> tg [o₁, o₂, o₃, o₄, o₅]) (by tg []) (by tg []) (by tg [h₃])
    generalize tgRange (fun st => patternBody.exec x n call st) .blank .pattern 0 (a.includePatterns.map .str)
          ((((st.set .blank (.int k)).set .file (.str f))).set .basename (.str (pathBase f))) = o at hp
    unfold filterFiles
    cases hm : matchesAny (pathBase f) a.includePatterns with
    | error e =>
      rw [hm] at hp
      have hp' : o = .exit 1 (st.w.say e) := hp
      rw [hp']; rfl
    | ok m =>
      rw [hm] at hp
      obtain ⟨st', rfl, ho', hf', hw'⟩ := hp
      have hw' : st'.w = st.w := hw'
      have hr := filter_tg x n call a fs (k + 1) _ st' ho' hf'
      rw [hw'] at hr
      show FilterGives a st.w acc (tgRange _ _ _ (k + 1) _ st') _
      cases hfs : filterFiles a.includePatterns fs with
      | error e => rw [hfs] at hr; exact hr
      | ok rest =>
        rw [hfs] at hr
        obtain ⟨st'', h1, h2, h3, h4⟩ := hr
        refine ⟨st'', h1, h2, ?_, h4⟩
        rw [h3]
        cases m <;> simp

/-- What the loop over the tests comes to. -/
def RunsGive (a : TestArgs) (w : TgW) (acc : List TestResult) (total passed : Nat) (o : TgOut) : Option (List TestResult × Bytes) → Prop
  | none => o = .panic
  | some (rs, s) => ∃ st, o = .next st ∧ Opts a st ∧ st.vars .results = .results (acc ++ rs) ∧ st.vars .totalTests = .int (total + rs.length : Nat) ∧
      st.vars .passedTests = .int (passed + (rs.filter (·.passed)).length : Nat) ∧ st.w = w.say s

theorem say_say (w : TgW) (s t : Bytes) : (w.say s).say t = w.say (s ++ t) := by simp only [TgW.say, List.append_assoc]
theorem say_nil (w : TgW) : w.say [] = w := by simp only [TgW.say, List.append_nil]

/-- One round of the loop over the tests. -/
theorem run_round (x : TgX) (n d : Nat) (a : TestArgs) (f : Bytes) (acc : List TestResult) (total passed : Nat) (st : TgSt)
    (h : ∀ w, tgRun x n (d + 1) .runTestFileWithTrace [.str f, .env defaultEnv, .hook] w =
        testOut (w.say ((runTestFile defaultEnv x.load true f).2.flatMap tracePrint)) (runTestFile defaultEnv x.load true f).1)
    (h' : ∀ w, tgRun x n (d + 1) .runTestFile [.str f, .env defaultEnv] w = testOut w (runTestFile defaultEnv x.load false f).1)
    (ho : Opts a st) (h₁ : st.vars .results = .results acc) (h₂ : st.vars .totalTests = .int (total : Nat)) (h₃ : st.vars .passedTests = .int (passed : Nat))
    (h₄ : st.vars .env = .env defaultEnv) (h₅ : st.vars .testFile = .str f) :
    match runTestFile defaultEnv x.load a.trace f with
    | (none, _) => runBody.exec x n (tgRun x n (d + 1)) st = .panic
    | (some r, evs) => ∃ st', runBody.exec x n (tgRun x n (d + 1)) st = .next st' ∧ Opts a st' ∧ st'.vars .results = .results (acc ++ [r]) ∧
        st'.vars .totalTests = .int (total + 1 : Nat) ∧ st'.vars .passedTests = .int (passed + (if r.passed then 1 else 0) : Nat) ∧
        st'.vars .env = .env defaultEnv ∧ st'.w = st.w.say (evs.flatMap tracePrint) := by
  obtain ⟨o₁, o₂, o₃, o₄, o₅⟩ := ho
  have hcb : ∀ w, tgRun x n (d + 1) .createTraceCallback [] w = .ret [.hook] w := by
    intro w
    rw [tgRun_succ _ _ _ _ _ _ _ rfl]
    simp only [TgFn.body, tgCreateTraceCallback]
    tg []
  have hnil : (runTestFile defaultEnv x.load false f).2 = [] := by
    unfold runTestFile
    cases x.load f <;> rfl
  have e1 : (total : Int) + 1 = ((total + 1 : Nat) : Int) := by omega
  have e2 : (passed : Int) + 1 = ((passed + 1 : Nat) : Int) := by omega
  cases ht : a.trace with
  | true =>
    rw [ht] at o₅
    cases hr : runTestFile defaultEnv x.load true f with
    | mk r evs =>
      rw [hr] at h
      cases r with
      | none =>
        simp only [runBody, tgRunTests, TgS.hd, TgS.tl, TgS.inner, TgS.yes]
        tg [h, hcb, o₅, h₁, h₂, h₃, h₄, h₅, testOut]
      | some r =>
        cases hp : r.passed with
        | true =>
          apply next_ex
          · simp only [runBody, tgRunTests, TgS.hd, TgS.tl, TgS.inner, TgS.yes]
            tg [h, hcb, o₅, h₁, h₂, h₃, h₄, h₅, testOut, hp]
            rfl
          · refine ⟨⟨?_, ?_, ?_, ?_, ?_⟩, ?_, ?_, ?_, ?_, ?_⟩ <;> tg [o₁, o₂, o₃, o₄, o₅, ht, h₁, h₂, h₃, h₄, e1, e2, hp]
        | false =>
          apply next_ex
          · simp only [runBody, tgRunTests, TgS.hd, TgS.tl, TgS.inner, TgS.yes]
            tg [h, hcb, o₅, h₁, h₂, h₃, h₄, h₅, testOut, hp]
            rfl
          · refine ⟨⟨?_, ?_, ?_, ?_, ?_⟩, ?_, ?_, ?_, ?_, ?_⟩ <;> tg [o₁, o₂, o₃, o₄, o₅, ht, h₁, h₂, h₃, h₄, e1, e2, hp, Bool.false_eq_true, Nat.add_zero]
  | false =>
    rw [ht] at o₅
    cases hr : runTestFile defaultEnv x.load false f with
    | mk r evs =>
      rw [hr] at h' hnil
      have hnil : evs = [] := hnil
      subst hnil
      cases r with
      | none =>
        simp only [runBody, tgRunTests, TgS.hd, TgS.tl, TgS.inner, TgS.yes]
        tg [h', hcb, o₅, h₁, h₂, h₃, h₄, h₅, testOut]
      | some r =>
        cases hp : r.passed with
        | true =>
          apply next_ex
          · simp only [runBody, tgRunTests, TgS.hd, TgS.tl, TgS.inner, TgS.yes]
            tg [h', hcb, o₅, h₁, h₂, h₃, h₄, h₅, testOut, hp]
            rfl
          · refine ⟨⟨?_, ?_, ?_, ?_, ?_⟩, ?_, ?_, ?_, ?_, ?_⟩ <;> tg [o₁, o₂, o₃, o₄, o₅, ht, h₁, h₂, h₃, h₄, e1, e2, hp, List.flatMap_nil, say_nil]
        | false =>
          apply next_ex
          · simp only [runBody, tgRunTests, TgS.hd, TgS.tl, TgS.inner, TgS.yes]
            tg [h', hcb, o₅, h₁, h₂, h₃, h₄, h₅, testOut, hp]
            rfl
          · refine ⟨⟨?_, ?_, ?_, ?_, ?_⟩, ?_, ?_, ?_, ?_, ?_⟩ <;>
              tg [o₁, o₂, o₃, o₄, o₅, ht, h₁, h₂, h₃, h₄, e1, e2, hp, Bool.false_eq_true, Nat.add_zero, List.flatMap_nil, say_nil]

theorem runs_tg (x : TgX) (a : TestArgs) : ∀ fs : List Bytes, Eventually fun n d => ∀ (k : Nat) (acc : List TestResult) (total passed : Nat) (st : TgSt),
    Opts a st → st.vars .results = .results acc → st.vars .totalTests = .int (total : Nat) → st.vars .passedTests = .int (passed : Nat) →
    st.vars .env = .env defaultEnv →
      RunsGive a st.w acc total passed (tgRange (fun st => runBody.exec x n (tgRun x n d) st) .blank .testFile k (fs.map .str) st) (runFiles x.load a.trace fs)
  | [] => .of fun n d k acc total passed st ho h₁ h₂ h₃ h₄ => ⟨st, rfl, ho, by rw [h₁, List.append_nil], h₂, h₃, (say_nil _).symm⟩
  | f :: fs => by
    refine ((((runTestFile_tg x defaultEnv true f).and (runTestFile_plain_tg x defaultEnv f)).and (runs_tg x a fs)).and
      ((Eventually.of (fun _ _ => trivial) : Eventually fun _ _ => True).down (Q := fun _ d => ∃ e, d = e + 1) fun n d _ => ⟨d, rfl⟩)).imp ?_
    rintro n d ⟨⟨⟨h, h'⟩, ih⟩, ⟨d, rfl⟩⟩ k acc total passed st ho h₁ h₂ h₃ h₄
    rw [List.map_cons, tgRange_cons]
    have hr := run_round x n d a f acc total passed ((st.set .blank (.int k)).set .testFile (.str f)) h h'
      (by obtain ⟨o₁, o₂, o₃, o₄, o₅⟩ := ho
          refine ⟨?_, ?_, ?_, ?_, ?_⟩ <;> tg [o₁, o₂, o₃, o₄, o₅]) (by tg [h₁]) (by tg [h₂]) (by tg [h₃]) (by tg [h₄]) (by tg [])
    unfold runFiles
    cases hf : runTestFile defaultEnv x.load a.trace f with
    | mk r evs =>
      rw [hf] at hr
      cases r with
      | none =>
        have hr : runBody.exec x n (tgRun x n (d + 1)) ((st.set .blank (.int k)).set .testFile (.str f)) = .panic := hr
        rw [hr]; rfl
      | some r =>
        obtain ⟨st', e, ho', g₁, g₂, g₃, g₄, g₅⟩ := hr
        have g₅ : st'.w = st.w.say (evs.flatMap tracePrint) := g₅
        rw [e]
        have := ih (k + 1) (acc ++ [r]) (total + 1) _ st' ho' g₁ g₂ g₃ g₄
        rw [g₅] at this
        show RunsGive a st.w acc total passed (tgRange _ _ _ (k + 1) _ st') _
        cases hrs : runFiles x.load a.trace fs with
        | none => rw [hrs] at this; exact this
        | some q =>
          obtain ⟨rs, s⟩ := q
          rw [hrs] at this
          obtain ⟨st'', e', ho'', k₁, k₂, k₃, k₄⟩ := this
          refine ⟨st'', e', ho'', ?_, ?_, ?_, ?_⟩
          · rw [k₁, List.append_assoc]; rfl
          · rw [k₂, List.length_cons]; congr 1; omega
          · rw [k₃, List.filter_cons]
            cases hp : r.passed <;> simp [hp, Nat.add_assoc, Nat.add_comm]
          · rw [k₄, say_say]

/-- What the loop that shows the results prints. -/
def shownResults (a : TestArgs) (rs : List TestResult) : Bytes := rs.flatMap fun r => if a.failOnly && r.passed then [] else printTestResult r a.verbose

theorem shows_tg (x : TgX) (n d : Nat) (a : TestArgs) : ∀ (rs : List TestResult) (k : Nat) (st : TgSt), Opts a st →
    ∃ st', tgRange (fun st => showBody.exec x n (tgRun x n (d + 1)) st) .blank .result2 k (rs.map .result) st = .next st' ∧
      st'.vars .totalTests = st.vars .totalTests ∧ st'.vars .passedTests = st.vars .passedTests ∧ st'.w = st.w.say (shownResults a rs)
  | [], k, st, _ => ⟨st, rfl, rfl, rfl, (say_nil _).symm⟩
  | r :: rs, k, st, ho => by
    rw [List.map_cons, tgRange_cons]
    obtain ⟨o₁, o₂, o₃, o₄, o₅⟩ := ho
    by_cases hs : (a.failOnly && r.passed) = true
    · have hb : showBody.exec x n (tgRun x n (d + 1)) ((st.set .blank (.int k)).set .result2 (.result r)) =
          .cont ((st.set .blank (.int k)).set .result2 (.result r)) := by
        simp only [showBody, tgRunTests, TgS.hd, TgS.tl, TgS.inner, TgS.yes]
        tg [o₄, hs]
      rw [hb]
      obtain ⟨st', e, h₁, h₂, h₃⟩ := shows_tg x n d a rs (k + 1) ((st.set .blank (.int k)).set .result2 (.result r)) (by
        refine ⟨?_, ?_, ?_, ?_, ?_⟩ <;> tg [o₁, o₂, o₃, o₄, o₅])
      refine ⟨st', e, h₁, h₂, ?_⟩
      rw [h₃]; simp only [shownResults, List.flatMap_cons, if_pos hs, List.nil_append]; rfl
    · have hs' : (a.failOnly && r.passed) = false := by simpa using hs
      have hb : showBody.exec x n (tgRun x n (d + 1)) ((st.set .blank (.int k)).set .result2 (.result r)) =
          .next { ((st.set .blank (.int k)).set .result2 (.result r)) with w := st.w.say (printTestResult r a.verbose) } := by
        simp only [showBody, tgRunTests, TgS.hd, TgS.tl, TgS.inner, TgS.yes]
        tg [o₄, hs', o₂, printResult_tg]
      rw [hb]
      obtain ⟨st', e, h₁, h₂, h₃⟩ := shows_tg x n d a rs (k + 1) { ((st.set .blank (.int k)).set .result2 (.result r)) with w := st.w.say (printTestResult r a.verbose) } (by
        refine ⟨?_, ?_, ?_, ?_, ?_⟩ <;> tg [o₁, o₂, o₃, o₄, o₅])
      refine ⟨st', e, h₁, h₂, ?_⟩
      rw [h₃]; simp only [shownResults, List.flatMap_cons, if_neg hs, ← say_say]

/-- What is done when the tests have run (/repo/commands/test.go:125-141). -/
def reportTail : TgS := tgRunTests.tl.tl.tl.tl.tl.tl.tl.tl.tl

/-- Showing the results with the loop body `b`. -/
def reportWith (b : TgS) : TgS := match reportTail with
  | .seq (.if_ c (.range i y e _) s) r => .seq (.if_ c (.range i y e b) s) r
  | s => s

theorem reportWith_show : reportWith showBody = reportTail := rfl

/-- How the command ends. -/
def testsOut (w : TgW) : Option (Bytes × Nat) → TgOut
  | none => .panic
  | some (s, 0) => .ret [] (w.say s)
  | some (s, c + 1) => .exit (c + 1 : Nat) (w.say s)

theorem report_end (x : TgX) (n : Nat) (call : TgFn → List TgV → TgW → TgOut) (rs : List TestResult) (st : TgSt)
    (h₂ : st.vars .totalTests = .int (rs.length : Nat)) (h₃ : st.vars .passedTests = .int ((rs.filter (·.passed)).length : Nat)) :
    reportTail.tl.exec x n call st = testsOut st.w (some (testSummary rs, if (rs.filter (·.passed)).length < rs.length then 1 else 0)) := by
  have hle : (rs.filter (·.passed)).length ≤ rs.length := List.length_filter_le ..
  have e1 : (rs.length : Int) - ((rs.filter (·.passed)).length : Int) = ((rs.length - (rs.filter (·.passed)).length : Nat) : Int) := by omega
  by_cases hc : (rs.filter (·.passed)).length < rs.length
  · have hd : decide (((rs.filter (·.passed)).length : Int) < (rs.length : Int)) = true := decide_eq_true (by omega)
    simp only [reportTail, tgRunTests, TgS.tl]
    tg [h₂, h₃, e1, hd, if_pos hc, testsOut, testSummary, TgW.say, intDec_natCast, List.append_assoc, List.append_nil]
    rfl
  · have hd : decide (((rs.filter (·.passed)).length : Int) < (rs.length : Int)) = false := decide_eq_false (by omega)
    simp only [reportTail, tgRunTests, TgS.tl]
    tg [h₂, h₃, e1, hd, if_neg hc, testsOut, testSummary, TgW.say, intDec_natCast, List.append_assoc, List.append_nil]

theorem report_tg (x : TgX) (n d : Nat) (a : TestArgs) (rs : List TestResult) (st : TgSt) (ho : Opts a st) (h₁ : st.vars .results = .results rs)
    (h₂ : st.vars .totalTests = .int (rs.length : Nat)) (h₃ : st.vars .passedTests = .int ((rs.filter (·.passed)).length : Nat)) :
    reportTail.exec x n (tgRun x n (d + 1)) st = testsOut st.w (some ((if a.quiet then [] else shownResults a rs) ++ testSummary rs,
      if (rs.filter (·.passed)).length < rs.length then 1 else 0)) := by
  have hend := report_end x n (tgRun x n (d + 1)) rs
  obtain ⟨st', e, g₁, g₂, g₃⟩ := shows_tg x n d a rs 0 st ho
  have ht : ∀ (w : TgW) (s t : Bytes) (c : Nat), testsOut (w.say s) (some (t, c)) = testsOut w (some (s ++ t, c)) := by
    intro w s t c
    cases c <;> simp only [testsOut, say_say]
  rw [← reportWith_show]
  generalize showBody = b at e
  cases hq : a.quiet with
  | true =>
    have hs : (reportWith b).hd.exec x n (tgRun x n (d + 1)) st = .next st := by
      simp only [reportWith, reportTail, tgRunTests, TgS.hd, TgS.tl]
      tg [ho.2.2.1, hq]
    have : (reportWith b).exec x n (tgRun x n (d + 1)) st = ((reportWith b).hd.exec x n (tgRun x n (d + 1)) st).andThen fun st => reportTail.tl.exec x n (tgRun x n (d + 1)) st := rfl
    rw [this, hs]
    exact hend st h₂ h₃
  | false =>
    have hs : (reportWith b).hd.exec x n (tgRun x n (d + 1)) st = .next st' := by
      rw [← e]
      simp only [reportWith, reportTail, tgRunTests, TgS.hd, TgS.tl]
      tg [ho.2.2.1, hq, tgexec_range, h₁]
    have : (reportWith b).exec x n (tgRun x n (d + 1)) st = ((reportWith b).hd.exec x n (tgRun x n (d + 1)) st).andThen fun st => reportTail.tl.exec x n (tgRun x n (d + 1)) st := rfl
    rw [this, hs]
    refine (hend st' (g₁.trans h₂) (g₂.trans h₃)).trans ?_
    rw [g₃, ht]
    rfl

/-- What is done with the files that are left (/repo/commands/test.go:98-141). -/
def filesTail : TgS := tgRunTests.tl.tl.tl

/-- The same with the loop body `b` and the end `r`. -/
def filesWith (b r : TgS) : TgS := match filesTail with
  | .seq s1 (.seq s2 (.seq s3 (.seq s4 (.seq s5 (.seq (.range i y e _) _))))) => .seq s1 (.seq s2 (.seq s3 (.seq s4 (.seq s5 (.seq (.range i y e b) r)))))
  | s => s

theorem filesWith_run : filesWith runBody reportTail = filesTail := rfl

/-- The command, once it is known which files to test. -/
def testsOf (x : TgX) (a : TestArgs) : List Bytes → Option (Bytes × Nat)
  | [] => some (b! "No test files found\n", 0)
  | files => match runFiles x.load a.trace files with
    | none => none
    | some (results, traces) => some (traces ++ ((if a.quiet then [] else shownResults a results) ++ testSummary results),
        if (results.filter (·.passed)).length < results.length then 1 else 0)

theorem files_tg (x : TgX) (a : TestArgs) (fs : List Bytes) : Eventually fun n d => ∀ st : TgSt, Opts a st → st.vars .filesToTest = .strs fs →
    filesTail.exec x n (tgRun x n d) st = testsOut st.w (testsOf x a fs) := by
  refine ((runs_tg x a fs).and ((Eventually.of (fun _ _ => trivial) : Eventually fun _ _ => True).down (Q := fun _ d => ∃ e, d = e + 1) fun n d _ => ⟨d, rfl⟩)).imp ?_
  rintro n d ⟨hr, ⟨d, rfl⟩⟩ st ho h₁
  have hrep := report_tg x n d a
  rw [← filesWith_run]
  generalize runBody = b at hr
  generalize reportTail = r at hrep
  match fs, hr, h₁ with
  | [], hr, h₁ =>
    have e0 : decide (((([] : List Bytes).length : Nat) : Int) = 0) = true := rfl
    simp only [filesWith, filesTail, tgRunTests, TgS.tl]
    tg [h₁, e0, testsOf, testsOut, TgW.say]
  | f :: fs, hr, h₁ =>
    have e0 : decide ((((f :: fs).length : Nat) : Int) = 0) = false := decide_eq_false (by rw [List.length_cons]; omega)
    have hs : (filesWith b r).exec x n (tgRun x n (d + 1)) st =
        (tgRange (fun st => b.exec x n (tgRun x n (d + 1)) st) .blank .testFile 0 ((f :: fs).map .str)
          ((((st.set .env (.env defaultEnv)).set .results (.results [])).set .totalTests (.int 0)).set .passedTests (.int 0))).andThen
            fun st => r.exec x n (tgRun x n (d + 1)) st := by
      simp only [filesWith, filesTail, tgRunTests, TgS.tl]
      tg [h₁, e0, tgexec_range]
    rw [hs]
    have := hr 0 [] 0 0 ((((st.set .env (.env defaultEnv)).set .results (.results [])).set .totalTests (.int 0)).set .passedTests (.int 0))
      (by obtain ⟨o₁, o₂, o₃, o₄, o₅⟩ := ho
          refine ⟨?_, ?_, ?_, ?_, ?_⟩ <;> tg [o₁, o₂, o₃, o₄, o₅]) (by tg []) (by tg []; rfl) (by tg []; rfl) (by tg [])
    generalize tgRange (fun st => b.exec x n (tgRun x n (d + 1)) st) .blank .testFile 0 ((f :: fs).map .str)
          ((((st.set .env (.env defaultEnv)).set .results (.results [])).set .totalTests (.int 0)).set .passedTests (.int 0)) = o at this
    show _ = testsOut st.w (match runFiles x.load a.trace (f :: fs) with
      | none => none
      | some (results, traces) => some (traces ++ ((if a.quiet then [] else shownResults a results) ++ testSummary results),
          if (results.filter (·.passed)).length < results.length then 1 else 0))
    cases hf : runFiles x.load a.trace (f :: fs) with
    | none =>
      rw [hf] at this
      have this : o = .panic := this
      rw [this]; rfl
    | some q =>
      obtain ⟨rs, s⟩ := q
      rw [hf] at this
      obtain ⟨st', rfl, ho', k₁, k₂, k₃, k₄⟩ := this
      have k₄ : st'.w = st.w.say s := k₄
      rw [List.nil_append] at k₁
      rw [Nat.zero_add] at k₂ k₃
      refine (hrep rs st' ho' k₁ k₂ k₃).trans ?_
      rw [k₄]
      have ht : ∀ (w : TgW) (s t : Bytes) (c : Nat), testsOut (w.say s) (some (t, c)) = testsOut w (some (s ++ t, c)) := by
        intro w s t c
        cases c <;> simp only [testsOut, say_say]
      rw [ht]

/-- The command `texted test`. -/
theorem runTests_tg (x : TgX) (a : TestArgs) : Eventually fun n d => ∀ w,
    tgRun x n d .runTests [.strs a.testFiles, .strs a.includePatterns, .bool a.verbose, .bool a.quiet, .bool a.failOnly, .bool a.trace] w =
      testsOut w (runTests x.load (globTests x.names) a) := by
  have key : Eventually fun n d => ∀ fs, (if a.includePatterns = [] then .ok (if a.testFiles = [] then globTests x.names else a.testFiles)
      else filterFiles a.includePatterns (if a.testFiles = [] then globTests x.names else a.testFiles)) = Except.ok fs →
      ∀ st : TgSt, Opts a st → st.vars .filesToTest = .strs fs → filesTail.exec x n (tgRun x n d) st = testsOut st.w (testsOf x a fs) := by
    cases h : (if a.includePatterns = [] then Except.ok (if a.testFiles = [] then globTests x.names else a.testFiles)
      else filterFiles a.includePatterns (if a.testFiles = [] then globTests x.names else a.testFiles)) with
    | error e => exact .of fun _ _ _ h => nomatch h
    | ok fs => exact (files_tg x a fs).imp fun n d h fs' e => by injection e with e; subst e; exact h
  refine key.down fun n d hk w => ?_
  have hspec : runTests x.load (globTests x.names) a = match (if a.includePatterns = [] then Except.ok (if a.testFiles = [] then globTests x.names else a.testFiles)
      else filterFiles a.includePatterns (if a.testFiles = [] then globTests x.names else a.testFiles)) with
      | .error e => some (e, 1)
      | .ok fs => testsOf x a fs := by
    unfold runTests
    dsimp only
    generalize (if a.includePatterns = [] then Except.ok (if a.testFiles = [] then globTests x.names else a.testFiles)
      else filterFiles a.includePatterns (if a.testFiles = [] then globTests x.names else a.testFiles)) = r
    match r with
    | .error e => rfl
    | .ok [] => rfl
    | .ok (f :: fs) =>
      dsimp only [testsOf]
      cases runFiles x.load a.trace (f :: fs) with
      | none => rfl
      | some q => simp only [shownResults, List.append_assoc]
  rw [hspec]
  show tgRunTests.exec x n (tgRun x n d) _ = _
  -- the files that are given, or those in the directory
  have h1 : ∀ st : TgSt, Opts a st → st.vars .args_testFiles = .strs a.testFiles → ∃ st', (TgS.seq tgRunTests.hd tgRunTests.tl.hd).exec x n (tgRun x n d) st = .next st' ∧
      Opts a st' ∧ st'.vars .filesToTest = .strs (if a.testFiles = [] then globTests x.names else a.testFiles) ∧ st'.w = st.w := by
    rintro st ⟨o₁, o₂, o₃, o₄, o₅⟩ h
    by_cases hf : a.testFiles = []
    · have e0 : decide (((([] : List Bytes).length : Nat) : Int) = 0) = true := rfl
      rw [hf] at h
      apply next_ex
      · simp only [tgRunTests, TgS.hd, TgS.tl]
        tg [h, e0]
        rfl
      · refine ⟨⟨?_, ?_, ?_, ?_, ?_⟩, ?_, rfl⟩ <;> tg [o₁, o₂, o₃, o₄, o₅, hf]
    · have e0 : decide (((a.testFiles.length : Nat) : Int) = 0) = false := decide_eq_false (by
        have := List.length_pos_iff.mpr hf
        omega)
      apply next_ex
      · simp only [tgRunTests, TgS.hd, TgS.tl]
        tg [h, e0]
        rfl
      · refine ⟨⟨?_, ?_, ?_, ?_, ?_⟩, ?_, rfl⟩ <;> tg [o₁, o₂, o₃, o₄, o₅, hf, h]
  have hsplit : ∀ st, tgRunTests.exec x n (tgRun x n d) st = ((TgS.seq tgRunTests.hd tgRunTests.tl.hd).exec x n (tgRun x n d) st).andThen
      fun st => tgRunTests.tl.tl.exec x n (tgRun x n d) st := by
    intro st
    show (tgRunTests.hd.exec x n (tgRun x n d) st).andThen (fun st => (tgRunTests.tl.hd.exec x n (tgRun x n d) st).andThen fun st => tgRunTests.tl.tl.exec x n (tgRun x n d) st) =
      ((tgRunTests.hd.exec x n (tgRun x n d) st).andThen (fun st => tgRunTests.tl.hd.exec x n (tgRun x n d) st)).andThen _
    generalize tgRunTests.hd.exec x n (tgRun x n d) st = o
    cases o <;> rfl
  rw [hsplit]
  obtain ⟨st', e, ho, hf, hw⟩ := h1 (((((((⟨fun _ => .nil, w⟩ : TgSt).set .args_testFiles (.strs a.testFiles)).set .args_includePatterns (.strs a.includePatterns)).set
    .args_verbose (.bool a.verbose)).set .args_quiet (.bool a.quiet)).set .args_failOnly (.bool a.failOnly)).set .args_trace (.bool a.trace))
    (by refine ⟨?_, ?_, ?_, ?_, ?_⟩ <;> tg []) (by tg [])
  rw [e]
  have hw : st'.w = w := hw
  show tgRunTests.tl.tl.exec x n (tgRun x n d) st' = _
  rw [← hw]
  generalize (if a.testFiles = [] then globTests x.names else a.testFiles) = files at *
  have hseq : tgRunTests.tl.tl.exec x n (tgRun x n d) st' = (tgRunTests.tl.tl.hd.exec x n (tgRun x n d) st').andThen fun st => filesTail.exec x n (tgRun x n d) st := rfl
  rw [hseq]
  by_cases hi : a.includePatterns = []
  · rw [if_pos hi] at *
    have e0 : decide ((0 : Int) < ((([] : List Bytes).length : Nat) : Int)) = false := rfl
    have hs : tgRunTests.tl.tl.hd.exec x n (tgRun x n d) st' = .next st' := by
      have h := ho.1
      rw [hi] at h
      simp only [tgRunTests, TgS.hd, TgS.tl]
      tg [h, e0]
    rw [hs]
    exact hk files rfl st' ho hf
  · rw [if_neg hi] at *
    have e0 : decide ((0 : Int) < ((a.includePatterns.length : Nat) : Int)) = true := decide_eq_true (by
      have := List.length_pos_iff.mpr hi
      omega)
    have hs : tgRunTests.tl.tl.hd.exec x n (tgRun x n d) st' =
        (tgRange (fun st => filterBody.exec x n (tgRun x n d) st) .blank .file 0 (files.map .str) (st'.set .filtered (.strs []))).andThen
          fun st => .next (st.set .filesToTest (st.vars .filtered)) := by
      have hb : tgRunTests.tl.tl.hd = .if_ (.bin .gt (.call .len (.cons (.var .args_includePatterns) .nil)) (.int 0))
        (.seq (.set .filtered .noStrs) (.seq (.range .blank .file (.var .filesToTest) filterBody) (.set .filesToTest (.var .filtered)))) .skip := rfl
      rw [hb]
      generalize filterBody = b
      tg [ho.1, e0, tgexec_range, hf]
    rw [hs]
    have hg := filter_tg x n (tgRun x n d) a files 0 [] (st'.set .filtered (.strs []))
      (by obtain ⟨o₁, o₂, o₃, o₄, o₅⟩ := ho
          refine ⟨?_, ?_, ?_, ?_, ?_⟩ <;> tg [o₁, o₂, o₃, o₄, o₅]) (by tg [])
    generalize tgRange (fun st => filterBody.exec x n (tgRun x n d) st) .blank .file 0 (files.map .str) (st'.set .filtered (.strs [])) = o at hg
    cases hfl : filterFiles a.includePatterns files with
    | error m =>
      rw [hfl] at hg
      have hg : o = .exit 1 (st'.w.say m) := hg
      rw [hg]; rfl
    | ok fs =>
      rw [hfl] at hg
      obtain ⟨st'', rfl, ho'', g₁, g₂⟩ := hg
      have g₂ : st''.w = st'.w := g₂
      rw [List.nil_append] at g₁
      refine (hk fs hfl (st''.set .filesToTest (st''.vars .filtered)) ?_ ?_).trans ?_
      · obtain ⟨o₁, o₂, o₃, o₄, o₅⟩ := ho''
        refine ⟨?_, ?_, ?_, ?_, ?_⟩ <;> tg [o₁, o₂, o₃, o₄, o₅]
      · tg [g₁]
      · tg [g₂]

end Texted
