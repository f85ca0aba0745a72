import Verif.Lemmas.TgFormat
/-
`RunTest`, `RunTestWithTrace`, `RunTestFile`, `RunTestFileWithTrace` as they are written in Go.
-/
set_option linter.unusedSectionVars false
set_option linter.constructorNameAsVariable false
namespace Texted
variable [Ext]

/-- What a run of a test ends in. -/
def testOut (w : TgW) : Option TestResult → TgOut
  | none => .panic
  | some r => .ret [.result r] w

/-- What `RunTestWithTrace` does once the program has run (/repo/edlisp/testing/testing.go:127-209). -/
def checkTail : TgS := match tgRunTestWithTrace with
  | .seq _ (.seq _ (.seq _ (.seq _ (.seq _ (.seq _ (.seq _ (.seq _ r))))))) => r
  | _ => .skip

/-- What it does with the expected result (/repo/edlisp/testing/testing.go:171-209). -/
def resultTail : TgS := match checkTail with
  | .seq _ (.seq _ (.seq _ (.seq _ (.seq _ (.seq _ (.seq _ (.seq _ r))))))) => r
  | _ => .skip

/-- What it does before that, then `r`. -/
def checkWith (r : TgS) : TgS := match checkTail with
  | .seq a (.seq b (.seq c (.seq d (.seq e (.seq f (.seq g (.seq h _))))))) => .seq a (.seq b (.seq c (.seq d (.seq e (.seq f (.seq g (.seq h r)))))))
  | _ => .skip

theorem checkWith_rest : checkWith resultTail = checkTail := rfl

theorem trimSet_parens (s : Bytes) : trimSet s (b! "()") = trimParens s := by
  have : (fun c : UInt8 => (b! "()").contains c) = fun c : UInt8 => (c = 40 || c = 41 : Bool) := by
    funext c
    simp only [List.contains, List.elem, beq_eq_decide]
    by_cases h : c = 40
    · simp [h]
    · by_cases h' : c = 41
      · simp [h']
      · simp [h, h']
  simp only [trimSet, trimParens, this]

theorem dec_ne_nil {s : Bytes} (h : s ≠ []) : decide (s = []) = false := decide_eq_false h

theorem intDec_natCast (k : Nat) : intDec (k : Int) = natDec k := by
  unfold intDec; rw [if_neg (by omega), Int.natAbs_natCast]

theorem result_tail (x : TgX) (t : TestCase) (v : Value) (n d : Nat) (st : TgSt) (hn : v.parts ≤ n) (hd : v.parts < d)
    (hp : ∀ u, parseFormat (if t.resultLang = [] then b! "sexp" else t.resultLang) (trimSpace t.result) = .ok [u] → u.parts ≤ n ∧ u.parts < d)
    (h₁ : st.vars .testCase = .test t) (h₂ : st.vars .result = .result {}) (h₃ : st.vars .evalResult = .val v)
    (h₅ : st.vars .expectedResult = .str (trimSpace t.result)) (hr : trimSpace t.result ≠ []) :
    resultTail.exec x n (tgRun x n d) st = testOut st.w (checkResult t v) := by
  obtain ⟨d, rfl⟩ : ∃ e, d = e + 1 := ⟨d - 1, by omega⟩
  have hl : ∀ lang : Bytes, (if t.resultLang = [] then b! "sexp" else t.resultLang) = lang → 
      resultTail.exec x n (tgRun x n (d + 1)) st = testOut st.w (checkResult t v) := by
    intro lang hlang
    have hv := fun w => fmtValue_tg x v n (d + 1) w hn hd
    have hnil : ∀ w, tgRun x n (d + 1) .formatValue [.nil] w = .ret [.str b! "nil"] w := by
      intro w
      rw [tgRun_succ _ _ _ _ _ _ _ rfl]
      simp only [TgFn.body, tgFormatValue]
      tg []
    unfold checkResult
    simp only [hlang]
    simp only [resultTail, checkTail, tgRunTestWithTrace]
    rw [hlang] at hp
    have e0 : decide (((([] : List Value).length : Nat) : Int) = 0) = true := rfl
    have e1 : ∀ u : Value, decide (((([u] : List Value).length : Nat) : Int) = 0) = false := fun _ => rfl
    have e2 : ∀ u : Value, decide (((([u] : List Value).length : Nat) : Int) = 1) = true := fun _ => rfl
    have e3 : ∀ (u u' : Value) (us : List Value), decide ((((u :: u' :: us).length : Nat) : Int) = 0) = false := fun _ _ _ => decide_eq_false (by rw [List.length_cons]; omega)
    have e4 : ∀ (u u' : Value) (us : List Value), decide ((((u :: u' :: us).length : Nat) : Int) = 1) = false := fun _ _ _ => decide_eq_false (by rw [List.length_cons, List.length_cons]; omega)
    have e5 : ∀ u : Value, goAt [u] 0 = some u := fun _ => rfl
    by_cases hL : t.resultLang = []
    · rw [if_pos hL] at hlang
      subst hlang
      cases hpf : parseFormat (b! "sexp") (trimSpace t.result) with
      | panic => tg [h₁, h₂, h₃, h₅, dec_ne_nil hr, hL, hpf, tgParsed]; rfl
      | err e => tg [h₁, h₂, h₃, h₅, dec_ne_nil hr, hL, hpf, tgParsed, testOut, failed, List.append_assoc, List.append_nil]
      | ok l =>
        match l, hpf with
        | [], hpf => tg [h₁, h₂, h₃, h₅, dec_ne_nil hr, hL, hpf, tgParsed, hnil, hv, e0, testOut, List.append_assoc, List.append_nil]
        | [u], hpf =>
          have hu := fun w => fmtValue_tg x u n (d + 1) w (hp u hpf).1 (hp u hpf).2
          cases he : goEqual u v with
          | true => tg [h₁, h₂, h₃, h₅, dec_ne_nil hr, hL, hpf, tgParsed, e1, e2, e5, he, testOut]
          | false => tg [h₁, h₂, h₃, h₅, dec_ne_nil hr, hL, hpf, tgParsed, hv, hu, e1, e2, e5, he, testOut, Bool.false_eq_true, List.append_assoc, List.append_nil]
        | u :: u' :: us, hpf =>
          tg [h₁, h₂, h₃, h₅, dec_ne_nil hr, hL, hpf, tgParsed, e3, e4, testOut, failed, intDec_natCast, List.append_assoc, List.append_nil]
    · rw [if_neg hL] at hlang
      subst hlang
      cases hpf : parseFormat t.resultLang (trimSpace t.result) with
      | panic => tg [h₁, h₂, h₃, h₅, dec_ne_nil hr, dec_ne_nil hL, hpf, tgParsed]; rfl
      | err e => tg [h₁, h₂, h₃, h₅, dec_ne_nil hr, dec_ne_nil hL, hpf, tgParsed, testOut, failed, List.append_assoc, List.append_nil]
      | ok l =>
        match l, hpf with
        | [], hpf => tg [h₁, h₂, h₃, h₅, dec_ne_nil hr, dec_ne_nil hL, hpf, tgParsed, hnil, hv, e0, testOut, List.append_assoc, List.append_nil]
        | [u], hpf =>
          have hu := fun w => fmtValue_tg x u n (d + 1) w (hp u hpf).1 (hp u hpf).2
          cases he : goEqual u v with
          | true => tg [h₁, h₂, h₃, h₅, dec_ne_nil hr, dec_ne_nil hL, hpf, tgParsed, e1, e2, e5, he, testOut]
          | false => tg [h₁, h₂, h₃, h₅, dec_ne_nil hr, dec_ne_nil hL, hpf, tgParsed, hv, hu, e1, e2, e5, he, testOut, Bool.false_eq_true, List.append_assoc, List.append_nil]
        | u :: u' :: us, hpf =>
          tg [h₁, h₂, h₃, h₅, dec_ne_nil hr, dec_ne_nil hL, hpf, tgParsed, e3, e4, testOut, failed, intDec_natCast, List.append_assoc, List.append_nil]
  exact hl _ rfl

/-- The bounds that are enough for a test: the sizes of the values it shows. -/
def TestFits (n d : Nat) (t : TestCase) (run : Res ExecutionError Value × Buffer) : Prop :=
  (∀ v, run.1 = .ok v → v.parts ≤ n ∧ v.parts < d) ∧
  ∀ u, parseFormat (if t.resultLang = [] then b! "sexp" else t.resultLang) (trimSpace t.result) = .ok [u] → u.parts ≤ n ∧ u.parts < d

theorem check_tail_ok (x : TgX) (t : TestCase) (v : Value) (b : Buffer) (n d : Nat) (st : TgSt) (hf : TestFits n d t (.ok v, b))
    (h₁ : st.vars .testCase = .test t) (h₂ : st.vars .result = .result {}) (h₃ : st.vars .evalResult = .val v) (h₄ : st.vars .evalErr = .nil)
    (h₅ : st.vars .buffer = .buffer b) : checkTail.exec x n (tgRun x n d) st = testOut st.w (checkTest t (.ok v, b)) := by
  have hv := hf.1 v rfl
  have hrest : ∀ st' : TgSt, st'.vars .testCase = .test t → st'.vars .result = .result {} → st'.vars .evalResult = .val v → st'.w = st.w →
      st'.vars .expectedResult = .str (trimSpace t.result) → trimSpace t.result ≠ [] → resultTail.exec x n (tgRun x n d) st' = testOut st.w (checkResult t v) := by
    intro st' a₁ a₂ a₃ a₄ a₅ hr
    rw [← a₄]; exact result_tail x t v n d st' hv.1 hv.2 hf.2 a₁ a₂ a₃ a₅ hr
  unfold checkTest
  by_cases hE : trimSpace t.error = []
  · by_cases hR : trimSpace t.result = []
    · by_cases hO : t.output = []
      · simp only [checkTail, tgRunTestWithTrace]
        tg [h₁, h₂, h₃, h₄, h₅, hE, hR, hO, testOut, failed, ne_eq, not_true, not_false_eq_true, and_self, List.append_nil]
      · by_cases hb : t.output = b.content
        · simp only [checkTail, tgRunTestWithTrace]
          tg [h₁, h₂, h₃, h₄, h₅, hE, hR, hb, dec_ne_nil (hb ▸ hO), testOut, failed, ne_eq, not_true, not_false_eq_true, and_self, and_false, false_and, hb ▸ hO]
        · simp only [checkTail, tgRunTestWithTrace]
          tg [h₁, h₂, h₃, h₄, h₅, hE, hR, hO, hb, dec_ne_nil hO, testOut, failed, ne_eq, not_true, not_false_eq_true, and_self, and_false, false_and, List.append_nil, List.append_assoc]
    · rw [← checkWith_rest]
      generalize resultTail = r at hrest
      by_cases hO : t.output = []
      · simp only [checkWith, checkTail, tgRunTestWithTrace]
        tg [h₁, h₂, h₃, h₄, h₅, hE, dec_ne_nil hR, hO, ne_eq, not_true, not_false_eq_true, and_self, and_false, false_and, hR]
        exact hrest _ (by tg [h₁]) (by tg [h₂]) (by tg [h₃]) rfl (by tg []) hR
      · by_cases hb : t.output = b.content
        · simp only [checkWith, checkTail, tgRunTestWithTrace]
          tg [h₁, h₂, h₃, h₄, h₅, hE, dec_ne_nil hR, hb, dec_ne_nil (hb ▸ hO), ne_eq, not_true, not_false_eq_true, and_self, and_false, false_and, hb ▸ hO, hR]
          exact hrest _ (by tg [h₁]) (by tg [h₂]) (by tg [h₃]) rfl (by tg []) hR
        · simp only [checkWith, checkTail, tgRunTestWithTrace]
          tg [h₁, h₂, h₃, h₄, h₅, hE, dec_ne_nil hR, hR, hO, hb, dec_ne_nil hO, testOut, failed, ne_eq, not_true, not_false_eq_true, and_self, and_false, false_and, List.append_nil, List.append_assoc]
  · simp only [checkTail, tgRunTestWithTrace]
    tg [h₁, h₂, h₃, h₄, h₅, dec_ne_nil hE, hE, testOut, failed, ne_eq, not_false_eq_true, List.append_nil, List.append_assoc]

theorem check_tail_err (x : TgX) (t : TestCase) (e : ExecutionError) (b : Buffer) (n d : Nat) (st : TgSt)
    (h₁ : st.vars .testCase = .test t) (h₂ : st.vars .result = .result {}) (h₄ : st.vars .evalErr = .err e.message) :
    checkTail.exec x n (tgRun x n d) st = testOut st.w (checkTest t (.err e, b)) := by
  unfold checkTest
  by_cases hE : trimSpace t.error = []
  · simp only [checkTail, tgRunTestWithTrace]
    tg [h₁, h₂, h₄, hE, testOut, failed, ne_eq, not_true, List.append_nil]
  · cases hc : containsSub e.message (trimParens (trimSpace t.error)) with
    | true =>
      simp only [checkTail, tgRunTestWithTrace]
      tg [h₁, h₂, h₄, dec_ne_nil hE, hE, trimSet_parens, hc, testOut, ne_eq, not_false_eq_true]
    | false =>
      simp only [checkTail, tgRunTestWithTrace]
      tg [h₁, h₂, h₄, dec_ne_nil hE, hE, trimSet_parens, hc, testOut, failed, ne_eq, not_false_eq_true, Bool.false_eq_true, List.append_nil, List.append_assoc]

end Texted
