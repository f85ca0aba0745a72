import Verif.Props.TestRunner
import Verif.Props.Shortest
/- C56, C64: what is shown of values and of the trace. -/
namespace Texted
open Spec F64

mutual
/-- All numbers in the value are float64 numbers (the model's numbers are more than those), and none is 2^63: Go leaves open what the conversion
of 2^63 to an int gives, and with it how that number is shown. -/
def Floats : Value → Prop
  | .num x => x.Canon ∧ x ≠ .fin false 1 63
  | .list l => FloatsAll l
  | _ => True
@[inherit_doc Floats]
def FloatsAll : List Value → Prop
  | [] => True
  | v :: l => Floats v ∧ FloatsAll l
end

theorem ofInt_finite (z : Int) (h1 : minInt ≤ z) (h2 : z ≤ maxInt) : ∃ neg m e, ofInt z = .fin neg m e := by
  have hz : z.natAbs ≤ 9223372036854775808 := by omega
  obtain ⟨m, e, h, _⟩ := (roundRat_nearest (decide (z < 0)) z.natAbs 1 (by decide)).1 (by
    have := (Nat.cast_le (α := ℚ)).2 hz
    generalize (z.natAbs : ℚ) = q at *
    have h2 : (9223372036854775808 : ℚ) < overflow := by
      have : (2 : ℚ) ^ 63 ≤ 2 ^ 970 := pow_le_pow_right₀ (by norm_num) (by norm_num)
      have h63 : (2 : ℚ) ^ 63 = 9223372036854775808 := by norm_num
      rw [overflow]
      rw [h63] at this
      generalize (2 : ℚ) ^ 970 = r at *
      norm_num
      linarith only [this]
    norm_num at this ⊢
    exact lt_of_le_of_lt this h2)
  exact ⟨_, m, e, h⟩

theorem shown_num [Ext] {x : F64} (hc : x.Canon) (hx : x ≠ .fin false 1 63) : ValueShown (.num x) (formatValue (.num x)) := by
  rw [formatValue]
  by_cases hg : goEq x (ofInt x.toInt) = true
  · rw [if_pos hg]
    cases x with
    | nan => simp [goEq] at hg
    | inf a =>
      exfalso
      obtain ⟨b, m, e, h⟩ := ofInt_finite (toInt (.inf a)) (wrap64_range _).1 (wrap64_range _).2
      rw [h] at hg
      simp [goEq] at hg
    | fin neg m e =>
      by_cases hm : m = 0
      · subst hm
        have he : e = 0 := by rcases hc with ⟨_, h⟩ | ⟨h, _⟩ <;> omega
        subst he
        have : intDec (toInt (.fin neg 0 0)) = b! "0" := by
          have : toInt (.fin neg 0 0) = 0 := by cases neg <;> rfl
          rw [this]; rfl
        rw [this]; exact .zero
      · have he := numString_fin neg m e hg hc
        have hs : (Value.num (.fin neg m e)).toStr = (if neg then b! "-" else []) ++ natDec (m * 2 ^ e.toNat) := by
          show numString _ = _
          rw [numString, if_pos hg, fmtF0]
          simp only [if_pos he]
        have hlt : ¬ (2 : ℚ) ^ 63 < magnitude (.fin neg m e) := fun h => by
          rw [not_goEq hc (.inr h)] at hg; cases hg
        have hN : m * 2 ^ e.toNat ≤ 2 ^ 63 := by
          rw [magnitude_fin] at hlt
          obtain ⟨k, rfl⟩ := Int.eq_ofNat_of_zero_le he
          rw [not_lt] at hlt
          have : ((m * 2 ^ k : Nat) : ℚ) ≤ ((2 ^ 63 : Nat) : ℚ) := by push_cast; exact_mod_cast hlt
          exact_mod_cast this
        have hpos : 0 < m * 2 ^ e.toNat := Nat.mul_pos (by omega) (Nat.two_pow_pos _)
        have ht : toInt (.fin neg m e) = if neg then -((m * 2 ^ e.toNat : Nat) : Int) else ((m * 2 ^ e.toNat : Nat) : Int) := by
          have hta : truncAbs m e = m * 2 ^ e.toNat := by rw [truncAbs, if_pos he]
          generalize hn : m * 2 ^ e.toNat = n at *
          unfold F64.toInt
          dsimp only
          rw [hta]
          by_cases hr : minInt ≤ (if neg = true then -(n : Int) else n) ∧ (if neg = true then -(n : Int) else n) ≤ maxInt
          · rw [if_pos hr]
          · exfalso
            have hneg : neg = false ∧ n = 2 ^ 63 := by
              cases neg
              · refine ⟨rfl, ?_⟩
                simp only [Bool.false_eq_true, if_false] at hr
                norm_num at hN ⊢
                omega
              · exfalso
                simp only [if_true] at hr
                norm_num at hN
                omega
            obtain ⟨rfl, hn2⟩ := hneg
            have hodd : m % 2 = 1 := by rcases hc with ⟨h, _⟩ | ⟨h, _⟩; exact absurd h hm; exact h
            have hm1 : m = 1 := by
              have hd : m ∣ 2 ^ 63 := ⟨_, by rw [← hn2, ← hn]⟩
              have hcop : Nat.Coprime m (2 ^ 63) := Nat.Coprime.pow_right 63 (by rw [Nat.Coprime, Nat.gcd_comm, Nat.gcd_rec, hodd]; rfl)
              exact Nat.Coprime.eq_one_of_dvd hcop hd
            subst hm1
            have he63 : e.toNat = 63 := by
              rw [Nat.one_mul, hn2] at hn
              exact Nat.pow_right_injective (le_refl 2) hn
            exact hx (by rw [show e = 63 by omega])
        have heq : intDec (toInt (.fin neg m e)) = (Value.num (.fin neg m e)).toStr := by
          rw [hs, ht]
          generalize m * 2 ^ e.toNat = n at *
          cases neg
          · simp [intDec]
          · simp only [intDec, if_true]
            rw [if_pos (by omega), Int.natAbs_neg, Int.natAbs_natCast]
        rw [heq]
        exact .num (fun neg' h => by cases h; exact hm rfl)
  · rw [if_neg hg]
    have : fmtG x = (Value.num x).toStr := by
      show _ = numString x
      rw [numString, if_neg hg]
    rw [this]
    refine .num (fun neg h => hg ?_)
    subst h
    have : toInt (.fin neg 0 0) = 0 := by cases neg <;> rfl
    rw [this, ofInt_zero]; rfl

mutual
/-- How values are shown, in the trace and where a test fails. -/
theorem C56_shown [Ext] : (v : Value) → Floats v → ValueShown v (formatValue v)
  | .str s, _ => by rw [formatValue]; exact .str
  | .sym n, _ => by rw [formatValue]; exact .sym
  | .num x, h => shown_num h.1 h.2
  | .list l, h => by rw [formatValue]; exact .list (shown_items l h)
theorem shown_items [Ext] : (l : List Value) → FloatsAll l → ValuesShown l (joinWith b! " " (formatValues l))
  | [], _ => by rw [formatValues]; exact .nil
  | [v], h => by
    have := C56_shown v h.1
    rw [formatValues, formatValues]
    exact .one this
  | v :: w :: l, h => by
    have h1 := C56_shown v h.1
    have h2 := shown_items (w :: l) h.2
    rw [formatValues] at h2 ⊢
    rw [formatValues]
    exact .more h1 h2
end

/-- A test whose program runs to its end but gives another value than the expected one fails, and shows both values. -/
theorem C56_mismatch [Ext] (env : Env) (t : TestCase) (p : List Value) (hp : TestProgram t p) (v w : Value) (b : Buffer)
    (he : eval env p (newBuffer t.buffer) = (.ok v, b)) (hx : trimSpace t.error = []) (ho : t.output = [] ∨ t.output = b.content)
    (hr : trimSpace t.result ≠ []) (hw : ReadIn (ResultLang t) (trimSpace t.result) [w]) (hn : goEqual w v = false) (fv : Floats v) (fw : Floats w) :
    ∃ r sv sw, ValueShown v sv ∧ ValueShown w sw ∧ runTest env t = some r ∧ r.passed = false ∧
      r.error = some (b! "result mismatch:\nexpected: " ++ quote sw ++ b! "\nactual: " ++ quote sv) := by
  refine ⟨{ name := b! "unknown", passed := false, error := some (b! "result mismatch:\nexpected: " ++ quote (formatValue w) ++ b! "\nactual: " ++ quote (formatValue v)), expected := formatValue w, actual := formatValue v }, _, _, C56_shown v fv, C56_shown w fw, ?_, rfl, rfl⟩
  have h1 := (testProgram_ok t p).mpr hp
  have h2 := (parseFormat_iff _ _ _).mpr hw
  have c1 : ¬ (t.output = [] ∧ ¬ trimSpace t.result ≠ []) := fun h => h.2 hr
  have c2 : ¬ (t.output ≠ [] ∧ t.output ≠ b.content) := fun h => ho.elim h.1 h.2
  rw [runTest, h1]
  simp only
  rw [he]
  unfold checkTest
  simp only [hx, ne_eq, not_true_eq_false, if_false]
  rw [if_neg c1, if_neg c2, if_pos hr]
  unfold checkResult
  unfold ResultLang at h2
  simp only
  rw [h2]
  simp [hn]

/-- A test that gives another text than the expected one fails, and shows both texts. -/
theorem C56_output_mismatch [Ext] (env : Env) (t : TestCase) (p : List Value) (hp : TestProgram t p) (v : Value) (b : Buffer)
    (he : eval env p (newBuffer t.buffer) = (.ok v, b)) (hx : trimSpace t.error = []) (ho : t.output ≠ []) (hn : t.output ≠ b.content) :
    ∃ r, runTest env t = some r ∧ r.passed = false ∧
      r.error = some (b! "output mismatch:\nexpected: " ++ quote t.output ++ b! "\nactual: " ++ quote b.content) := by
  refine ⟨{ name := b! "unknown", passed := false, error := some (b! "output mismatch:\nexpected: " ++ quote t.output ++ b! "\nactual: " ++ quote b.content), expected := t.output, actual := b.content }, ?_, rfl, rfl⟩
  have h1 := (testProgram_ok t p).mpr hp
  have c1 : ¬ (t.output = [] ∧ ¬ trimSpace t.result ≠ []) := fun h => ho h.1
  rw [runTest, h1]
  simp only
  rw [he]
  unfold checkTest
  simp only [hx, ne_eq, not_true_eq_false, if_false]
  rw [if_neg c1, if_pos ⟨ho, hn⟩]

/-- Finding: what is shown does not tell all values apart: strings are not escaped between the quotes, and negative zero has no sign. So a test can fail with twice
the same value in the message. -/
theorem C56_shown_alike [Ext] : ∃ v w : Value, Floats v ∧ Floats w ∧ goEqual v w = false ∧ formatValue v = formatValue w := by
  refine ⟨.list [.str b! "a", .str b! "b"], .list [.str b! "a\" \"b"], ?_, ?_, ?_, ?_⟩
  · exact ⟨trivial, trivial, trivial⟩
  · exact ⟨trivial, trivial⟩
  · rfl
  · rfl

/-! ### The trace -/

theorem traceLines_print [Ext] (l : List TraceEvent) (h : ∀ e ∈ l, Floats e.1) : TraceLines l (l.flatMap tracePrint) := by
  induction l with
  | nil => exact .nil
  | cons e l ih =>
    obtain ⟨v, b⟩ := e
    have h1 := C56_shown v (h _ List.mem_cons_self)
    have h2 := TraceLines.cons (b := b) h1 (ih fun e he => h e (List.mem_cons_of_mem _ he))
    have : ((v, b) :: l).flatMap tracePrint = b! "TRACE: Executed instruction: " ++ formatValue v ++ b! "\n  Buffer content: " ++ quote b.content ++ b! "\n  Point: " ++
        intDec b.point ++ b! ", Mark: " ++ intDec b.mark ++ b! "\n\n" ++ l.flatMap tracePrint := by
      rw [List.flatMap_cons, tracePrint]
      simp only [List.append_assoc]
      rfl
    rw [this]
    exact h2

/-- What the trace of one file prints. -/
theorem fileTrace_run [Ext] (load : Bytes → Except Bytes TestCase) (f : Bytes)
    (hf : ∀ t p, load f = .ok t → TestProgram t p → ∀ v ∈ p, Floats v) :
    FileTrace load f ((runTestFile defaultEnv load true f).2.flatMap tracePrint) := by
  unfold runTestFile
  cases hl : load f with
  | error e => exact .inl ⟨fun t p h => (by rw [hl] at h; exact nomatch h), rfl⟩
  | ok t =>
    simp only [if_true]
    unfold runTestWithTrace
    rcases hp : testProgram t with p | e | _
    · refine .inr ⟨t, p, _, hl, (testProgram_ok t p).mp hp, fun i v bi => C27_trace_events defaultEnv p _ i v bi, traceLines_print _ ?_⟩
      intro e he
      obtain ⟨i, hi⟩ := List.getElem?_of_mem he
      have := (C27_trace_events defaultEnv p (newBuffer t.buffer) i e.1 e.2).1 hi
      exact hf t p hl ((testProgram_ok t p).mp hp) _ (List.mem_of_getElem? this.1)
    · exact .inl ⟨fun t' p h h' => (by
        rw [hl] at h; cases h
        rw [(testProgram_ok _ p).mpr h'] at hp; cases hp), rfl⟩
    · exact .inl ⟨fun t' p h h' => (by
        rw [hl] at h; cases h
        rw [(testProgram_ok _ p).mpr h'] at hp; cases hp), rfl⟩

theorem runFiles_texts [Ext] (load : Bytes → Except Bytes TestCase) (fs : List Bytes) (rs : List TestResult) (out : Bytes)
    (h : runFiles load true fs = some (rs, out)) : out = (fs.map fun f => (runTestFile defaultEnv load true f).2.flatMap tracePrint).flatten := by
  induction fs generalizing rs out with
  | nil => cases h; rfl
  | cons f fs ih =>
    simp only [runFiles] at h
    rcases hf : runTestFile defaultEnv load true f with ⟨r, evs⟩
    rw [hf] at h
    cases r with
    | none => exact nomatch h
    | some r =>
      simp only at h
      rcases hr : runFiles load true fs with _ | ⟨rs', o⟩
      · rw [hr] at h; exact nomatch h
      · rw [hr] at h
        cases h
        rw [List.map_cons, List.flatten_cons, hf, ih rs' o hr]

/-- `--trace` only adds to what is printed: before everything else, for each selected file in order, the steps of its program. -/
theorem C64_trace [Ext] (load : Bytes → Except Bytes TestCase) (glob : List Bytes) (a : TestArgs)
    (hv : ∀ p ∈ a.includePatterns, ∃ re, Ext.compile p = .ok re)
    (hf : ∀ f ∈ Selected glob a, ∀ t p, load f = .ok t → TestProgram t p → ∀ v ∈ p, Floats v)
    (out : Bytes) (code : Nat) (h : runTests load glob { a with trace := true } = some (out, code)) (hne : Selected glob a ≠ []) :
    ∃ (texts : List Bytes) (rest : Bytes), texts.length = (Selected glob a).length ∧
      (∀ (i : Nat) (f : Bytes), (Selected glob a)[i]? = some f → ∃ s, texts[i]? = some s ∧ FileTrace load f s) ∧
      out = texts.flatten ++ rest ∧ runTests load glob { a with trace := false } = some (rest, code) := by
  rw [runTests_valid load glob { a with trace := true } hv] at h
  rw [runTests_valid load glob { a with trace := false } hv]
  have e1 : Selected glob { a with trace := true } = Selected glob a := rfl
  have e2 : Selected glob { a with trace := false } = Selected glob a := rfl
  rw [e1] at h
  rw [e2]
  rcases hs : Selected glob a with _ | ⟨f, fs⟩
  · exact absurd hs hne
  · rw [hs] at h hf
    simp only at h ⊢
    rcases hr : runFiles load true (f :: fs) with _ | ⟨rs, tr⟩
    · rw [hr] at h; exact nomatch h
    · rw [hr] at h
      simp only [Option.some.injEq, Prod.mk.injEq] at h
      obtain ⟨ho, hcode⟩ := h
      have hfl : ∃ tr', runFiles load false (f :: fs) = some (rs, tr') := by
        have := runFiles_trace load true (f :: fs)
        rw [hr] at this
        rcases hq : runFiles load false (f :: fs) with _ | ⟨rs', tr'⟩
        · rw [hq] at this; exact nomatch this
        · rw [hq] at this
          simp at this
          exact ⟨tr', by rw [this]⟩
      obtain ⟨tr', hq⟩ := hfl
      have hnil := (runFiles_spec load false _ _ _ hq).2 rfl
      subst hnil
      have ht := runFiles_texts load _ _ _ hr
      rw [hq]
      refine ⟨(f :: fs).map fun f => (runTestFile defaultEnv load true f).2.flatMap tracePrint,
        (if a.quiet then [] else rs.flatMap fun r => if a.failOnly && r.passed then [] else printTestResult r a.verbose) ++ testSummary rs,
        by rw [List.length_map], ?_, ?_, ?_⟩
      rotate_left
      · rw [← ht, ← ho, List.append_assoc]
      · simp only [List.nil_append]
        rw [hcode]
      · intro i g hg
        refine ⟨(runTestFile defaultEnv load true g).2.flatMap tracePrint, by rw [List.getElem?_map, hg]; rfl, ?_⟩
        exact fileTrace_run load g (hf g (List.mem_of_getElem? hg))

/-- The hypotheses are met: a traced run of one test, with what it prints. -/
example : letI := litExt
    Selected [b! "tests/a.xml"] {} ≠ [] ∧
    runTests demoLoad [b! "tests/a.xml"] { trace := true } =
      some (b! "TRACE: Executed instruction: (insert \"x\")\n  Buffer content: \"xab\"\n  Point: 2, Mark: 1\n\n[PASS] a.xml\n\nTests: 1 passed, 0 failed, 1 total\n", 0) ∧
    runTests demoLoad [b! "tests/a.xml"] {} = some (b! "[PASS] a.xml\n\nTests: 1 passed, 0 failed, 1 total\n", 0) := by decide +kernel

example (t : TestCase) (p : List Value) (h1 : demoLoad b! "tests/a.xml" = .ok t) (h2 : TestProgram t p) : ∀ v ∈ p, Floats v := by
  have e : t = { buffer := b! "ab", input := b! "insert \"x\"", output := b! "xab" } := by
    have : demoLoad b! "tests/a.xml" = .ok { buffer := b! "ab", input := b! "insert \"x\"", output := b! "xab" } := rfl
    rw [this] at h1; cases h1; rfl
  subst e
  have hp := (testProgram_ok _ p).mpr h2
  have : testProgram { buffer := b! "ab", input := b! "insert \"x\"", output := b! "xab" } = .ok [.list [.sym b! "insert", .str b! "x"]] := by decide +kernel
  rw [this] at hp
  cases hp
  intro v hv
  simp at hv
  subst hv
  exact ⟨trivial, trivial, trivial⟩

/-- A failing comparison, with both values shown. -/
example : letI := litExt
    (runTest defaultEnv { buffer := b! "ab", input := b! "buffer-size", result := b! "3" }).map (·.error) =
      some (some b! "result mismatch:\nexpected: \"3\"\nactual: \"2\"") ∧
    (runTest defaultEnv { buffer := b! "ab", input := b! "insert \"x\"", output := b! "ab" }).map (·.error) =
      some (some b! "output mismatch:\nexpected: \"ab\"\nactual: \"xab\"") := by decide +kernel

end Texted
