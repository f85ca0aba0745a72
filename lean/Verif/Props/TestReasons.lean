import Verif.Props.TestShown
import Verif.Props.Xml
import Verif.Props.JsonErrors
import Verif.Props.CommandLine
/- C56, C64, C77: why a test fails, and what `texted test` finds and reports, from the files on. -/
namespace Texted
open Spec
variable [Ext]

mutual
theorem shown_functional : (v : Value) → (s s' : Bytes) → ValueShown v s → ValueShown v s' → s = s'
  | .str _, _, _, .str, .str => rfl
  | .sym _, _, _, .sym, .sym => rfl
  | .num _, _, _, .zero, .zero => rfl
  | .num _, _, _, .zero, .num h => absurd rfl (h _)
  | .num _, _, _, .num h, .zero => absurd rfl (h _)
  | .num _, _, _, .num _, .num _ => rfl
  | .list l, _, _, .list h, .list h' => by rw [shown_functional_all l _ _ h h']
theorem shown_functional_all : (l : List Value) → (s s' : Bytes) → ValuesShown l s → ValuesShown l s' → s = s'
  | [], _, _, .nil, .nil => rfl
  | [v], _, _, .one h, .one h' => shown_functional v _ _ h h'
  | v :: w :: l, _, _, .more h g, .more h' g' => by
    rw [shown_functional v _ _ h h', shown_functional_all (w :: l) _ _ g g']
end

theorem shown_is {v : Value} (hv : Floats v) {s : Bytes} (h : ValueShown v s) : s = formatValue v :=
  shown_functional v _ _ h (C56_shown v hv)

omit [Ext] in
theorem parseFormat_err (f s e : Bytes) : parseFormat f s = .err e ↔ UnreadableIn f s e := by
  unfold parseFormat UnreadableIn
  by_cases h1 : f = b! "sexp" ∨ f = []
  · rw [if_pos h1]
    have n1 : f ≠ b! "shell" := by rcases h1 with rfl | rfl <;> decide
    have n2 : f ≠ b! "json" := by rcases h1 with rfl | rfl <;> decide
    simp [n1, n2]
  · rw [if_neg h1]
    by_cases h2 : f = b! "shell"
    · rw [if_pos h2]; subst h2; simp
    · rw [if_neg h2]
      by_cases h3 : f = b! "json"
      · rw [if_pos h3]; subst h3
        cases hj : parseJsonString s <;> simp [Res.ofExcept]
      · rw [if_neg h3]; simp [h2, h3]

theorem checkResult_reason (t : TestCase) (v : Value) (e : Bytes) (hv : Floats v) (hw : ∀ w, ReadIn (ResultLang t) (trimSpace t.result) [w] → Floats w) :
    (∃ r, checkResult t v = some r ∧ r.error = some e) ↔ WrongValue (ResultLang t) (trimSpace t.result) v e := by
  have hc : checkResult t v = match parseFormat (ResultLang t) (trimSpace t.result) with
    | .panic => none
    | .err e => some (failed (b! "parsing expected result with format " ++ ResultLang t ++ b! ": " ++ e))
    | .ok [] => some { error := some (b! "result mismatch:\nexpected: " ++ quote b! "nil" ++ b! "\nactual: " ++ quote (formatValue v)),
                       expected := b! "nil", actual := formatValue v }
    | .ok [w] =>
      if goEqual w v then some { passed := true }
      else some { error := some (b! "result mismatch:\nexpected: " ++ quote (formatValue w) ++ b! "\nactual: " ++ quote (formatValue v)),
                  expected := formatValue w, actual := formatValue v }
    | .ok ws => some (failed (b! "expected result should contain exactly one expression, got " ++ natDec ws.length)) := rfl
  have hnil : b! "result mismatch:\nexpected: " ++ quote b! "nil" ++ b! "\nactual: " = b! "result mismatch:\nexpected: \"nil\"\nactual: " := rfl
  rw [hc]
  constructor
  · rintro ⟨r, h, he⟩
    rcases hp : parseFormat (ResultLang t) (trimSpace t.result) with ws | e' | _
    · rw [hp] at h
      have hr := (parseFormat_iff _ _ _).1 hp
      match ws, h, hr with
      | [], h, hr =>
        cases h
        simp only [Option.some.injEq] at he
        rw [← he, hnil]
        exact .none hr (C56_shown v hv)
      | [w], h, hr =>
        dsimp only at h
        by_cases hg : goEqual w v = true
        · rw [if_pos hg] at h; cases h; cases he
        · rw [if_neg hg] at h
          cases h
          simp only [Option.some.injEq] at he
          rw [← he]
          exact .other hr (by simpa using hg) (C56_shown w (hw w hr)) (C56_shown v hv)
      | a :: b :: ws, h, hr =>
        cases h
        simp only [failed, Option.some.injEq] at he
        rw [← he]
        exact .many hr (by simp)
    · rw [hp] at h
      cases h
      simp only [failed, Option.some.injEq] at he
      rw [← he]
      exact .unreadable ((parseFormat_err _ _ _).1 hp)
    · rw [hp] at h; cases h
  · intro h
    cases h with
    | unreadable h => rw [(parseFormat_err _ _ _).2 h]; exact ⟨_, rfl, rfl⟩
    | none h hs =>
      rw [(parseFormat_iff _ _ _).2 h, ← hnil, shown_is hv hs]
      exact ⟨_, rfl, rfl⟩
    | other h hg hs hs' =>
      rw [(parseFormat_iff _ _ _).2 h, shown_is hv hs', shown_is (hw _ h) hs]
      dsimp only
      rw [hg]
      exact ⟨_, rfl, rfl⟩
    | @many ws h hl =>
      rw [(parseFormat_iff _ _ _).2 h]
      match ws, hl with
      | a :: b :: ws, _ => exact ⟨_, rfl, rfl⟩

/-- C56. Exactly why a test fails, for every test: what the report says is true, and the test fails for no other reason. (The numbers that are shown are
float64s and not 2^63, see `Floats`.) -/
theorem C56_reason (env : Env) (t : TestCase) (e : Bytes)
    (hv : ∀ p v b, TestProgram t p → eval env p (newBuffer t.buffer) = (.ok v, b) → Floats v)
    (hw : ∀ w, ReadIn (ResultLang t) (trimSpace t.result) [w] → Floats w) :
    (∃ r, runTest env t = some r ∧ r.error = some e) ↔ WhyFails env t e := by
  constructor
  · rintro ⟨r, h, he⟩
    unfold runTest at h
    rcases hp : testProgram t with p | m | _
    · rw [hp] at h
      have hp' := (testProgram_ok t p).1 hp
      rcases hr : eval env p (newBuffer t.buffer) with ⟨v | m | _, b⟩
      · simp only [hr, checkTest] at h
        by_cases hx : trimSpace t.error = []
        · simp only [hx, ne_eq, not_true_eq_false, if_false] at h
          split at h
          · rename_i hn
            cases h
            simp only [failed, Option.some.injEq] at he
            rw [← he]
            exact .nothing hp' hr hx hn.1 (by simpa using hn.2)
          · split at h
            · rename_i hn
              cases h
              simp only [Option.some.injEq] at he
              rw [← he]
              exact .output hp' hr hx hn.1 hn.2
            · rename_i hn
              split at h
              · rename_i hres
                refine .result hp' hr hx ?_ hres ((checkResult_reason t v e (hv _ _ _ hp' hr) hw).1 ⟨r, h, he⟩)
                by_cases ho : t.output = []
                · exact .inl ho
                · exact .inr (Decidable.byContradiction fun hc => hn ⟨ho, hc⟩)
              · cases h; cases he
        · simp only [hx, ne_eq, not_false_eq_true, if_true] at h
          cases h
          simp only [failed, Option.some.injEq] at he
          rw [← he]
          exact .noError hp' hr hx
      · simp only [hr, checkTest] at h
        by_cases hx : trimSpace t.error = []
        · simp only [hx, ne_eq, not_true_eq_false, if_false] at h
          cases h
          simp only [failed, Option.some.injEq] at he
          rw [← he]
          exact .unexpected hp' hr hx
        · simp only [hx, ne_eq, not_false_eq_true, if_true] at h
          split at h
          · cases h; cases he
          · rename_i hc
            cases h
            simp only [failed, Option.some.injEq] at he
            rw [← he]
            exact .otherError hp' hr hx ((inParens_iff _ _).2 rfl) fun h => hc ((containsSub_iff _ _).2 h)
      · simp only [hr, checkTest] at h
        cases h
    · rw [hp] at h
      cases h
      simp only [failed, Option.some.injEq] at he
      rw [← he]
      unfold testProgram at hp
      split at hp
      · cases hp
      · rename_i hne
        exact .script hne hp
    · rw [hp] at h; cases h
  · intro h
    unfold runTest
    cases h with
    | script hne hs =>
      rw [testProgram, if_neg hne, hs]
      exact ⟨_, rfl, rfl⟩
    | otherError hp hr hx hi hc =>
      rw [(testProgram_ok t _).2 hp]
      simp only [hr, checkTest, hx, ne_eq, not_false_eq_true, if_true]
      rw [if_neg (fun h => hc (by rw [(inParens_iff _ _).1 hi]; exact (containsSub_iff _ _).1 h))]
      exact ⟨_, rfl, rfl⟩
    | unexpected hp hr hx =>
      rw [(testProgram_ok t _).2 hp]
      simp only [hr, checkTest, hx, ne_eq, not_true_eq_false, if_false]
      exact ⟨_, rfl, rfl⟩
    | noError hp hr hx =>
      rw [(testProgram_ok t _).2 hp]
      simp only [hr, checkTest, hx, ne_eq, not_false_eq_true, if_true]
      exact ⟨_, rfl, rfl⟩
    | nothing hp hr hx ho hres =>
      rw [(testProgram_ok t _).2 hp]
      simp only [hr, checkTest, hx, ne_eq, not_true_eq_false, if_false, ho, hres, not_false_eq_true, and_self, if_true]
      exact ⟨_, rfl, rfl⟩
    | output hp hr hx ho hc =>
      rw [(testProgram_ok t _).2 hp]
      simp only [hr, checkTest, hx, ne_eq, not_true_eq_false, if_false, ho, false_and, hc, not_false_eq_true, and_self, if_true]
      exact ⟨_, rfl, rfl⟩
    | result hp hr hx ho hres hwv =>
      rw [(testProgram_ok t _).2 hp]
      simp only [hr, checkTest, hx, ne_eq, not_true_eq_false, if_false]
      rw [if_neg (fun h => h.2 hres), if_neg (fun h => ho.elim h.1 h.2), if_pos hres]
      exact (checkResult_reason t _ e (hv _ _ _ hp hr) hw).2 hwv

/-- The numbers that a test compares are float64s and not 2^63 (see `Floats`). -/
def Comparable (t : TestCase) : Prop :=
  (∀ p v b, TestProgram t p → eval defaultEnv p (newBuffer t.buffer) = (.ok v, b) → Floats v) ∧
  (∀ w, ReadIn (ResultLang t) (trimSpace t.result) [w] → Floats w)

theorem runTestFile_reason (load : Bytes → Except Bytes TestCase) (f e : Bytes) (hc : ∀ t, load f = .ok t → Comparable t) :
    (∃ r, (runTestFile defaultEnv load false f).1 = some r ∧ r.error = some e) ↔ FileFails load f e := by
  unfold runTestFile
  cases hl : load f with
  | error m =>
    constructor
    · rintro ⟨r, h, he⟩
      cases h
      cases he
      exact .load hl
    · intro h
      cases h with
      | load h => rw [hl] at h; cases h; exact ⟨_, rfl, rfl⟩
      | test h _ => rw [hl] at h; cases h
  | ok t =>
    have hr := C56_reason defaultEnv t e (hc t hl).1 (hc t hl).2
    constructor
    · rintro ⟨r, h, he⟩
      simp only [Bool.false_eq_true, if_false, Option.map_eq_some_iff] at h
      obtain ⟨r', h', rfl⟩ := h
      exact .test hl (hr.1 ⟨r', h', he⟩)
    · intro h
      cases h with
      | load h => rw [hl] at h; cases h
      | test h hw =>
        rw [hl] at h; cases h
        obtain ⟨r, h', he⟩ := hr.2 hw
        exact ⟨{ r with name := pathBase f }, by simp [h'], he⟩

/-- **C64.** What the report says of each selected file, in order: `[PASS]`, or `[FAIL]` with the reason, and the reasons are right and complete. -/
theorem C64_reasons (load : Bytes → Except Bytes TestCase) (glob : List Bytes) (a : TestArgs) (ht : a.trace = false)
    (hv : ∀ p ∈ a.includePatterns, ∃ re, Ext.compile p = .ok re) (hne : Selected glob a ≠ [])
    (hc : ∀ f ∈ Selected glob a, ∀ t, load f = .ok t → Comparable t) (out : Bytes) (code : Nat)
    (h : runTests load glob a = some (out, code)) :
    ∃ (reasons : List (Option Bytes)) (summary : Bytes), reasons.length = (Selected glob a).length ∧
      (∀ (i : Nat) (f : Bytes), (Selected glob a)[i]? = some f →
        (reasons[i]? = some none ↔ FilePasses load f) ∧ ∀ e, reasons[i]? = some (some e) ↔ FileFails load f e) ∧
      out = (if a.quiet then [] else ((Selected glob a).zip reasons).flatMap fun p => if a.failOnly && p.2.isNone then [] else shownLine p.1 p.2) ++ summary ∧
      summary = b! "\nTests: " ++ natDec (reasons.filter (·.isNone)).length ++ b! " passed, " ++ natDec (reasons.filter (·.isSome)).length ++
        b! " failed, " ++ natDec reasons.length ++ b! " total\n" := by
  obtain ⟨reasons, summary, h1, h2, h3⟩ := report_core load glob a ht hv hne out code h
  refine ⟨reasons, summary, h1, fun i f hf => ?_, h3⟩
  obtain ⟨r, hr, he⟩ := h2 i f hf
  obtain ⟨g1, g2, _⟩ := runTestFile_passed load false f r hr
  refine ⟨by rw [he, Option.some.injEq, ← g2, g1], fun e => ?_⟩
  rw [← runTestFile_reason load f e (hc f (List.mem_of_getElem? hf)), he, Option.some.injEq, hr]
  constructor
  · exact fun h => ⟨r, rfl, h⟩
  · rintro ⟨r', h, he'⟩; cases h; exact he'

section
omit [Ext]
theorem load_open (x : XmlExt) {read : Bytes → Reading} (msg : Bytes → Bytes) {f e : Bytes} (h : read f = .cannotOpen e) :
    loadTest x read msg f = .error (b! "opening test file " ++ f ++ b! ": " ++ e) := by simp only [loadTest, h]
theorem load_read (x : XmlExt) {read : Bytes → Reading} (msg : Bytes → Bytes) {f e : Bytes} (h : read f = .cannotRead e) :
    loadTest x read msg f = .error (b! "reading test case: " ++ e) := by simp only [loadTest, h]
theorem load_bad (x : XmlExt) {read : Bytes → Reading} (msg : Bytes → Bytes) {f s : Bytes} (h : read f = .content s) (hp : parseTestCase x s = none) :
    loadTest x read msg f = .error (b! "parsing test case: " ++ msg s) := by simp only [loadTest, h, hp]
theorem load_good (x : XmlExt) {read : Bytes → Reading} (msg : Bytes → Bytes) {f s : Bytes} {c : TestCase} (h : read f = .content s)
    (hp : parseTestCase x s = some c) : loadTest x read msg f = .ok c := by simp only [loadTest, h, hp]
end

/-- **C77, C64.** Why a test file fails, and what the report says then. -/
theorem C77_file_fails (x : XmlExt) (read : Bytes → Reading) (msg : Bytes → Bytes) (f e : Bytes) :
    FileFails (loadTest x read msg) f e ↔ TestFileFails x read msg f e := by
  constructor
  · intro h
    cases hr : read f with
    | cannotOpen m =>
      have hl := load_open x msg hr
      cases h with
      | load h => rw [hl] at h; rw [← Except.error.inj h]; exact .cannotOpen hr
      | test h _ => rw [hl] at h; nomatch h
    | cannotRead m =>
      have hl := load_read x msg hr
      cases h with
      | load h => rw [hl] at h; rw [← Except.error.inj h]; exact .cannotRead hr
      | test h _ => rw [hl] at h; nomatch h
    | content s =>
      cases hp : parseTestCase x s with
      | none =>
        have hl := load_bad x msg hr hp
        cases h with
        | load h =>
          rw [hl] at h; rw [← Except.error.inj h]
          exact .notXml hr (fun c hc => by rw [(C77_exact _ _ _).2 hc] at hp; nomatch hp)
        | test h _ => rw [hl] at h; nomatch h
      | some c =>
        have hl := load_good x msg hr hp
        cases h with
        | load h => rw [hl] at h; nomatch h
        | test h hw => rw [hl] at h; rw [← Except.ok.inj h] at hw; exact .test hr ((C77_exact _ _ _).1 hp) hw
  · intro h
    cases h with
    | cannotOpen hr => exact .load (load_open x msg hr)
    | cannotRead hr => exact .load (load_read x msg hr)
    | @notXml s hr hn =>
      cases hp : parseTestCase x s with
      | none => exact .load (load_bad x msg hr hp)
      | some c => exact absurd ((C77_exact _ _ _).1 hp) (hn c)
    | test hr hf hw => exact .test (load_good x msg hr ((C77_exact _ _ _).2 hf)) hw

/-! ### The files of the directory -/

omit [Ext] in
theorem insertName_perm (n : Bytes) : ∀ l, (insertName n l).Perm (n :: l)
  | [] => List.Perm.refl _
  | m :: r => by
    rw [insertName]
    split
    · exact ((insertName_perm n r).cons m).trans (List.Perm.swap _ _ _)
    · exact List.Perm.refl _

omit [Ext] in
theorem sortNames_perm : ∀ l, (sortNames l).Perm l
  | [] => List.Perm.refl _
  | n :: r => (insertName_perm n _).trans ((sortNames_perm r).cons n)

omit [Ext] in
theorem insertName_sorted (n : Bytes) : ∀ l, l.Pairwise (fun a b : Bytes => ¬ b < a) → (insertName n l).Pairwise (fun a b : Bytes => ¬ b < a)
  | [], _ => by simp [insertName]
  | m :: r, h => by
    have hm := List.pairwise_cons.1 h
    rw [insertName]
    split
    · rename_i hl
      rw [bytesLess_iff] at hl
      refine List.pairwise_cons.2 ⟨fun q hq => ?_, insertName_sorted n r hm.2⟩
      rcases List.mem_cons.1 ((insertName_perm n r).mem_iff.1 hq) with rfl | hq
      · exact List.lt_asymm hl
      · exact hm.1 q hq
    · rename_i hl
      rw [bytesLess_iff] at hl
      refine List.pairwise_cons.2 ⟨fun q hq => ?_, h⟩
      rcases List.mem_cons.1 hq with rfl | hq
      · exact hl
      · exact fun hqn => by
          by_cases h' : n < m
          · exact hm.1 q hq (List.lt_trans hqn h')
          · have : n = m := List.le_antisymm (List.not_lt.1 hl) (List.not_lt.1 h')
            exact hm.1 q hq (this ▸ hqn)

omit [Ext] in
theorem sortNames_sorted : ∀ l, (sortNames l).Pairwise (fun a b : Bytes => ¬ b < a)
  | [] => List.Pairwise.nil
  | n :: r => insertName_sorted n _ (sortNames_sorted r)

omit [Ext] in
theorem matchXml_iff : ∀ n : Bytes, 47 ∉ n → (matchXml n = true ↔ b! ".xml" <:+ n)
  | [], _ => by simp [matchXml]
  | c :: r, h => by
    simp only [List.mem_cons, not_or] at h
    rw [matchXml, List.suffix_cons_iff, ← matchXml_iff r h.2, Bool.or_eq_true, decide_eq_true_eq, Bool.and_eq_true, decide_eq_true_eq]
    exact ⟨fun h => h.elim (fun h => .inl h.symm) (fun h => .inr h.2), fun h' => h'.elim (fun h => .inl h.symm) (fun h' => .inr ⟨fun e => h.1 e.symm, h'⟩)⟩

omit [Ext] in
/-- **C64.** Without files on the command line the tests are those in the directory `tests` whose names end in `.xml`, in ascending order. -/
theorem C64_directory (names : List Bytes) (hn : ∀ n ∈ names, 47 ∉ n) : DirectoryTests names (globTests names) := by
  refine ⟨(sortNames names).filter matchXml, rfl, (sortNames_sorted names).filter _, ?_⟩
  refine ((sortNames_perm names).filter matchXml).trans ?_
  refine List.Perm.of_eq (List.filter_congr fun n h => ?_)
  rw [Bool.eq_iff_iff, matchXml_iff n (hn n h), List.isSuffixOf_iff_suffix]

/-- **C64, C77, C56.** `texted test` without further words, from the names in the directory and the contents of the files on: there is one line for
each file whose name ends in `.xml`, in ascending order, `[PASS]` exactly if the file can be read, is a test file and the test is met, otherwise `[FAIL]`
with the reason; the counts; and the exit status is 0 exactly if all tests pass. -/
theorem C64_plain (x : XmlExt) (read : Bytes → Reading) (msg : Bytes → Bytes) (help : Bytes) (names : List Bytes) (hn : ∀ n ∈ names, 47 ∉ n)
    (hc : ∀ f s t, read f = .content s → TestFile x s t → Comparable t) (out : Bytes) (code : Nat)
    (h : testMain help (loadTest x read msg) (globTests names) [] = some (out, code)) :
    ∃ files, DirectoryTests names files ∧ ((files = [] ∧ out = b! "No test files found\n" ∧ code = 0) ∨ (files ≠ [] ∧
      ∃ reasons : List (Option Bytes), reasons.length = files.length ∧
      (∀ (i : Nat) (f : Bytes), files[i]? = some f →
        (reasons[i]? = some none ↔ ∃ s t, read f = .content s ∧ TestFile x s t ∧ Met defaultEnv t) ∧
        ∀ e, reasons[i]? = some (some e) ↔ TestFileFails x read msg f e) ∧
      out = (files.zip reasons).flatMap (fun p => shownLine p.1 p.2) ++
        b! "\nTests: " ++ natDec (reasons.filter (·.isNone)).length ++ b! " passed, " ++ natDec (reasons.filter (·.isSome)).length ++
        b! " failed, " ++ natDec reasons.length ++ b! " total\n" ∧
      (code = 0 ∧ (∀ r ∈ reasons, r = none) ∨ code = 1 ∧ ∃ e, some e ∈ reasons))) := by
  have hr : testMain help (loadTest x read msg) (globTests names) [] = runTests (loadTest x read msg) (globTests names) {} := by
    have hp : parseWords testFlags [] = .ok ([], []) := rfl
    rw [testMain, hp]
    rfl
  rw [hr] at h
  have hs : Selected (globTests names) {} = globTests names := rfl
  refine ⟨globTests names, C64_directory names hn, ?_⟩
  by_cases hf : globTests names = []
  · refine .inl ⟨hf, ?_⟩
    rw [hf] at h
    cases h
    exact ⟨rfl, rfl⟩
  · refine .inr ⟨hf, ?_⟩
    have hex := C64_exit_status (loadTest x read msg) (globTests names) {} (fun p hp => nomatch hp) out code h
    obtain ⟨reasons, summary, h1, h2, h3, h4⟩ := C64_reasons (loadTest x read msg) (globTests names) {} rfl (fun p hp => nomatch hp) (by rw [hs]; exact hf)
      (fun f _ t hl => by
        cases hrd : read f with
        | cannotOpen e => rw [load_open x msg hrd] at hl; nomatch hl
        | cannotRead e => rw [load_read x msg hrd] at hl; nomatch hl
        | content s =>
          cases hp : parseTestCase x s with
          | none => rw [load_bad x msg hrd hp] at hl; nomatch hl
          | some c => rw [load_good x msg hrd hp] at hl; rw [← Except.ok.inj hl]; exact hc f s c hrd ((C77_exact _ _ _).1 hp)) out code h
    rw [hs] at h1 h2 h3 hex
    refine ⟨reasons, h1, fun i f hi => ⟨?_, fun e => ?_⟩, ?_, ?_⟩
    · rw [(h2 i f hi).1, C77_file_passes]
    · rw [(h2 i f hi).2 e, C77_file_fails]
    · rw [h3, h4]
      simp
    · rcases hex with ⟨c0, hall⟩ | ⟨c1, f, hfm, hnp⟩
      · refine .inl ⟨c0, fun r hr => ?_⟩
        obtain ⟨i, hi⟩ := List.getElem?_of_mem hr
        have hlt : i < (globTests names).length := by rw [← h1]; exact (List.getElem?_eq_some_iff.mp hi).1
        have := (h2 i _ (List.getElem?_eq_getElem hlt)).1.2 (hall _ (List.getElem_mem hlt))
        rw [hi] at this; exact Option.some.inj this
      · refine .inr ⟨c1, ?_⟩
        obtain ⟨i, hi⟩ := List.getElem?_of_mem hfm
        have hlt : i < reasons.length := by rw [h1]; exact (List.getElem?_eq_some_iff.mp hi).1
        have hg := List.getElem?_eq_getElem hlt
        cases hb : reasons[i] with
        | none => rw [hb] at hg; exact absurd ((h2 i f hi).1.1 hg) hnp
        | some e => exact ⟨e, hb ▸ List.getElem_mem hlt⟩

/-! ### Examples -/

/-- A directory with two tests, one of which has a mistake, a file that cannot be opened, and a file that is no test. -/
def demoRead (f : Bytes) : Reading :=
  if f = b! "tests/a.xml" then .content b! "<buffer>ab</buffer><input>insert \"x\"</input><output>xab</output>"
  else if f = b! "tests/b.xml" then .content b! "<buffer>ab\n</buffer><input>search-forward \"b\"; insert \"y\"</input><output>aby</output>"
  else if f = b! "tests/c.xml" then .content b! "<buffer>"
  else .cannotOpen b! "permission denied"

example : letI := litExt
    runTests (loadTest plainXml demoRead (fun _ => b! "unexpected EOF")) (globTests [b! "d.xml", b! "c.xml", b! "b.xml", b! "a.xml", b! "README"]) {} =
      some (b! "[PASS] a.xml\n[FAIL] b.xml\n  Error: output mismatch:\nexpected: \"aby\"\nactual: \"aby\\n\"\n[FAIL] c.xml\n  Error: parsing test case: unexpected EOF\n[FAIL] d.xml\n  Error: opening test file tests/d.xml: permission denied\n\nTests: 1 passed, 3 failed, 4 total\n", 1) := by
  decide +kernel

/-- The first of these tests meets the condition on numbers. -/
example : letI := litExt
    Comparable { buffer := b! "ab", input := b! "insert \"x\"", output := b! "xab" } := by
  letI := litExt
  refine ⟨fun p v b hp he => ?_, fun w hw => ?_⟩
  · have h1 : testProgram { buffer := b! "ab", input := b! "insert \"x\"", output := b! "xab" } = .ok p := (testProgram_ok _ p).2 hp
    have h2 : testProgram { buffer := b! "ab", input := b! "insert \"x\"", output := b! "xab" } = .ok [.list [.sym b! "insert", .str b! "x"]] := by decide +kernel
    rw [h2] at h1
    cases h1
    have h3 : (eval defaultEnv [.list [.sym b! "insert", .str b! "x"]] (newBuffer b! "ab")).1 = .ok (.str []) := by decide +kernel
    rw [show ({ buffer := b! "ab", input := b! "insert \"x\"", output := b! "xab" } : TestCase).buffer = b! "ab" from rfl] at he
    rw [he] at h3
    cases h3
    trivial
  · have h1 := (parseFormat_iff _ _ _).2 hw
    have h2 : parseFormat (ResultLang { buffer := b! "ab", input := b! "insert \"x\"", output := b! "xab" }) [] = .ok [] := by decide +kernel
    rw [show trimSpace ({ buffer := b! "ab", input := b! "insert \"x\"", output := b! "xab" } : TestCase).result = [] by decide +kernel, h2] at h1
    nomatch h1

example : DirectoryTests [b! "d.xml", b! "a", b! "a.xml", b! ".xml"] [b! "tests/.xml", b! "tests/a.xml", b! "tests/d.xml"] :=
  C64_directory [b! "d.xml", b! "a", b! "a.xml", b! ".xml"] (by decide)

end Texted
