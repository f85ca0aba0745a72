import Verif.Model.Script
import Verif.Lemmas.Proc
import Verif.Lemmas.Parse
import Verif.Lemmas.LitExt
import Verif.Spec.Files
import Verif.Props.Json
import Verif.Props.Syntax
import Verif.Props.Grammar
/-
Running scripts on texts and files (/repo/texted.go).
C28 ExecuteScript, C29 EditFile, C30 EditFiles.
-/
namespace Texted
open Spec

/-! ### C28 -/

theorem isValidFormat_iff (f : Bytes) : isValidFormat f = true ↔ f = b! "shell" ∨ f = b! "sexp" ∨ f = b! "json" := by
  simp [isValidFormat, or_assoc]

/-- C28. A script succeeds exactly if the whole of it parses and the program runs to its end; the result is then the text of
the buffer at the end of the run. -/
theorem C28_success [Ext] (input script text : Bytes) :
    executeScript input script = .ok text ↔
      ∃ program v b, parseString script = .ok program ∧ eval defaultEnv program (newBuffer input) = (.ok v, b) ∧ text = b.content := by
  unfold executeScript executeParsed evalOn
  cases parseString script with
  | err e => simp
  | panic => simp
  | ok p =>
    rcases h : eval defaultEnv p (newBuffer input) with ⟨r, b⟩
    cases r with
    | ok v =>
      simp only [h, Res.ok.injEq]
      constructor
      · rintro rfl; exact ⟨p, v, b, rfl, h, rfl⟩
      · rintro ⟨_, _, _, rfl, h2, rfl⟩; rw [h] at h2; cases h2; rfl
    | err e => simp [h]
    | panic => simp [h]

/-- C28. It fails in exactly two ways, which the error text tells apart. -/
theorem C28_failure [Ext] (input script e : Bytes) :
    executeScript input script = .err e ↔
      (∃ m, parseString script = .err m ∧ e = b! "parsing script: " ++ m) ∨
      (∃ program x b, parseString script = .ok program ∧ eval defaultEnv program (newBuffer input) = (.err x, b) ∧
        e = b! "script execution failed: " ++ x.message) := by
  unfold executeScript executeParsed evalOn
  cases parseString script with
  | err e => simp [eq_comm]
  | panic => simp
  | ok p =>
    rcases h : eval defaultEnv p (newBuffer input) with ⟨r, b⟩
    cases r with
    | ok v => simp [h]
    | err e => simp [h, eq_comm]
    | panic => simp [h]

theorem parseLines_append (a b : List Bytes) : parseLines (a ++ b) = (parseLines a).cat (parseLines b) := by
  induction a with
  | nil => cases h : parseLines b <;> simp [parseLines, Res.cat, Res.bind, h]
  | cons l ls ih =>
    rw [List.cons_append, parseLines, parseLines, ih]
    split
    · simp [Res.cat, Res.bind]
    · cases parseRawLine (dropCR l) with
      | ok vs => cases parseLines ls <;> cases parseLines b <;> simp [Res.cat, Res.bind]
      | err e => simp [Res.cat, Res.bind]
      | panic => simp [Res.cat, Res.bind]

theorem splitByte_ne_nil (sep : UInt8) (s : Bytes) : splitByte sep s ≠ [] := by
  induction s with
  | nil => simp [splitByte]
  | cons x xs ih =>
    rw [splitByte]
    split
    · simp
    · split <;> simp

theorem splitByte_sep (sep : UInt8) (a b : Bytes) : splitByte sep (a ++ sep :: b) = splitByte sep a ++ splitByte sep b := by
  induction a with
  | nil => simp [splitByte]
  | cons x xs ih =>
    rw [List.cons_append, splitByte, splitByte]
    split
    · rw [ih]; rfl
    · rw [ih]
      cases h : splitByte sep xs with
      | nil => exact absurd h (splitByte_ne_nil sep xs)
      | cons l ls => rfl

/-- Scripts are parsed line by line. -/
theorem parseString_append (a b : Bytes) : parseString (a ++ nl :: b) = (parseString a).cat (parseString b) := by
  unfold parseString scanLines
  rw [splitByte_sep, parseLines_append]

/-- C28. A syntax error anywhere in the script makes the whole script fail, for every input and with the same error: nothing
of it is executed. (`bad` may be the first, a middle or the last part; `before` and `after` are any text.) -/
theorem C28_syntax_error_anywhere [Ext] (before bad after m : Bytes) (h : parseString bad = .err m) :
    ∃ e, (∀ input, executeScript input (before ++ nl :: (bad ++ nl :: after)) = .err e) ∧ hasPrefix e (b! "parsing script: ") = true := by
  have : ∃ e, parseString (before ++ nl :: (bad ++ nl :: after)) = .err e := by
    rw [parseString_append, parseString_append, h]
    cases hb : parseString before with
    | ok p => exact ⟨m, rfl⟩
    | err e => exact ⟨e, rfl⟩
    | panic => rcases C42_total before with ⟨_, h⟩ | ⟨_, h⟩ <;> rw [h] at hb <;> cases hb
  obtain ⟨e, he⟩ := this
  refine ⟨b! "parsing script: " ++ e, fun input => ?_, rfl⟩
  simp only [executeScript, executeParsed, he]

/-- C28. The shell and sexp formats are the same, and the same as no format. -/
theorem C28_formats_alike [Ext] (input script : Bytes) :
    executeScriptWithFormat input script (b! "shell") = executeScript input script ∧
    executeScriptWithFormat input script (b! "sexp") = executeScript input script := ⟨rfl, rfl⟩

/-- C28. Every other format name but json is refused, whatever input and script are. -/
theorem C28_unknown_format [Ext] (input script format : Bytes)
    (h : format ≠ b! "shell" ∧ format ≠ b! "sexp" ∧ format ≠ b! "json") :
    executeScriptWithFormat input script format = .err (b! "invalid script format: " ++ format ++ b! " (must be shell, sexp, or json)") := by
  rw [executeScriptWithFormat, if_neg]
  intro hv
  rcases (isValidFormat_iff format).1 hv with rfl | rfl | rfl
  · exact h.1 rfl
  · exact h.2.1 rfl
  · exact h.2.2 rfl

/-- C28. A program written as S-expressions or as a JSON script does the same to every text. -/
theorem C28_json_and_sexp_agree [Ext] (input : Bytes) (p : List Value) (ts : List Bytes)
    (hp : ∀ v ∈ p, JsonCommand v ∧ TextValue v ∧ nesting v ≤ 9999) (hw : WritableAll p) (hlen : ∀ v ∈ p, v.toStr.length < 65536)
    (hts : p.map writeJsonValue = ts.map fun t => some (t ++ [nl])) :
    executeScriptWithFormat input (b! "[" ++ joinWith (b! ",") ts ++ b! "]") (b! "json") =
      executeScriptWithFormat input (writeSexp p).out (b! "sexp") := by
  have hl : ∀ v ∈ p, isList v := by
    intro v hv
    obtain ⟨l, rfl⟩ := jsonCommand_list (hp v hv).1
    trivial
  have h1 := (C35_sexp_roundtrip p hw hl hlen).2
  have h2 := C37_text_array p ts hp hts
  rw [(C28_formats_alike input _).2, executeScript, h1]
  have : parseScript (b! "json") (b! "[" ++ joinWith (b! ",") ts ++ b! "]") = .ok p := by
    rw [parseScript, if_pos rfl, h2]; rfl
  rw [executeScriptWithFormat, if_pos (by rfl), this]

/-! ### C29 -/

theorem world_ext {w w' : World} (h1 : w.files = w'.files) (h2 : w.input = w'.input) (h3 : w.out = w'.out) : w = w' := by
  cases w; cases w'; cases h1; cases h2; cases h3; rfl

theorem sameExcept_put (w : World) (f d : Bytes) : SameExcept f w (w.put f d) :=
  ⟨fun q hq => World.put_other w f d q hq, rfl, rfl⟩

theorem sameExcept_eq {f d : Bytes} {w w' : World} (h : SameExcept f w w') (hd : w'.files f = some d) : w' = w.put f d := by
  apply world_ext
  · funext q
    by_cases hq : q = f
    · subst hq; rw [hd, World.put_same]
    · rw [h.1 q hq, World.put_other _ _ _ _ hq]
  · exact h.2.1
  · exact h.2.2

theorem sameExcept_same {f : Bytes} {w w' : World} (h : SameExcept f w w') (hd : w'.files f = w.files f) : w' = w := by
  apply world_ext
  · funext q
    by_cases hq : q = f
    · subst hq; rw [hd]
    · rw [h.1 q hq]
  · exact h.2.1
  · exact h.2.2

theorem Spec.SameExcept.refl (f : Bytes) (w : World) : SameExcept f w w := ⟨fun _ _ => rfl, rfl, rfl⟩

theorem put_self {w : World} {f c : Bytes} (h : w.files f = some c) : w.put f c = w :=
  (sameExcept_same (sameExcept_put w f c) (by rw [World.put_same, h]))

theorem editFileBy_ends (exec : Bytes → Res Bytes Bytes) (f : Bytes) (w : World) (e : Option Bytes) (w' : World) :
    Ends (editFileBy exec f) w e w' ↔ EditOutcome exec f (w.files f) e (w'.files f) ∧ SameExcept f w w' := by
  unfold editFileBy
  rw [ends_act]
  constructor
  · rintro ⟨r, w1, ⟨rfl, ⟨c, hc, rfl⟩ | ⟨msg, rfl⟩⟩, h2⟩
    · simp only at h2
      cases hx : exec c with
      | err m =>
        rw [hx] at h2
        obtain ⟨rfl, rfl⟩ := ends_ret.1 h2
        rw [hc]
        exact ⟨.failed c m hx, .refl f _⟩
      | panic => rw [hx] at h2; exact absurd h2 ends_panic
      | ok t =>
        rw [hx] at h2
        obtain ⟨r, w2, h3, h4⟩ := ends_act.1 h2
        rcases h3 with ⟨rfl, rfl⟩ | ⟨msg, rfl, rfl | ⟨n, hn, rfl⟩⟩
        · obtain ⟨rfl, rfl⟩ := ends_ret.1 h4
          rw [hc, World.put_same]
          exact ⟨.edited c t hx, sameExcept_put _ _ _⟩
        · obtain ⟨rfl, rfl⟩ := ends_ret.1 h4
          rw [hc]
          exact ⟨.unwritable c t msg hx, .refl f _⟩
        · obtain ⟨rfl, rfl⟩ := ends_ret.1 h4
          rw [hc, World.put_same]
          exact ⟨.cut c t msg n hx hn, sameExcept_put _ _ _⟩
    · obtain ⟨rfl, rfl⟩ := ends_ret.1 h2
      exact ⟨.unreadable _ msg, .refl f _⟩
  · rintro ⟨h, hs⟩
    generalize hb : w.files f = before at h
    generalize ha : w'.files f = after at h
    cases h with
    | unreadable c m =>
      have := sameExcept_same hs (by rw [hb, ha]); subst this
      exact ⟨_, _, ⟨rfl, Or.inr ⟨m, rfl⟩⟩, ends_ret.2 ⟨rfl, rfl⟩⟩
    | failed c m hx =>
      have := sameExcept_same hs (by rw [hb, ha]); subst this
      exact ⟨_, _, ⟨rfl, Or.inl ⟨c, hb, rfl⟩⟩, by simp only [hx]; exact ends_ret.2 ⟨rfl, rfl⟩⟩
    | edited c t hx =>
      have := sameExcept_eq hs ha; subst this
      refine ⟨_, _, ⟨rfl, Or.inl ⟨c, hb, rfl⟩⟩, ?_⟩
      simp only [hx]
      exact ends_act.2 ⟨_, _, Or.inl ⟨rfl, rfl⟩, ends_ret.2 ⟨rfl, rfl⟩⟩
    | unwritable c t m hx =>
      have := sameExcept_same hs (by rw [hb, ha]); subst this
      refine ⟨_, _, ⟨rfl, Or.inl ⟨c, hb, rfl⟩⟩, ?_⟩
      simp only [hx]
      exact ends_act.2 ⟨_, _, Or.inr ⟨m, rfl, Or.inl rfl⟩, ends_ret.2 ⟨rfl, rfl⟩⟩
    | cut c t m n hx hn =>
      have := sameExcept_eq hs ha; subst this
      refine ⟨_, _, ⟨rfl, Or.inl ⟨c, hb, rfl⟩⟩, ?_⟩
      simp only [hx]
      exact ends_act.2 ⟨_, _, Or.inr ⟨m, rfl, Or.inr ⟨n, hn, rfl⟩⟩, ends_ret.2 ⟨rfl, rfl⟩⟩

/-- C29. All ways in which `EditFile` can return, for every world and whatever fails: exactly the outcomes of the
specification, and nothing but the named file changes. -/
theorem C29_outcomes [Ext] (f script : Bytes) (w : World) (e : Option Bytes) (w' : World) :
    Ends (editFile f script) w e w' ↔ EditOutcome (fun c => executeScript c script) f (w.files f) e (w'.files f) ∧ SameExcept f w w' :=
  editFileBy_ends _ f w e w'

/-- C29, `EditFileWithFormat`. -/
theorem C29_outcomes_format [Ext] (f script format : Bytes) (w : World) (e : Option Bytes) (w' : World) :
    Ends (editFileWithFormat f script format) w e w' ↔
      EditOutcome (fun c => executeScriptWithFormat c script format) f (w.files f) e (w'.files f) ∧ SameExcept f w w' :=
  editFileBy_ends _ f w e w'

/-- C29. If the script does not succeed on the contents of the file (or there is no file), then at no moment of the run is
anything changed. -/
theorem C29_failure_untouched [Ext] (f script : Bytes) (w w' : World)
    (h : ∀ c, w.files f = some c → ∀ t, executeScript c script ≠ .ok t) (hs : Sees (editFile f script) w w') : w' = w := by
  rcases sees_act.1 hs with (rfl | h1) | ⟨r, w1, ⟨rfl, ⟨c, hc, rfl⟩ | ⟨e, rfl⟩⟩, h2⟩
  · rfl
  · exact h1.elim
  · simp only at h2
    cases hx : executeScript c script with
    | err m => rw [hx] at h2; exact sees_ret.1 h2
    | panic => rw [hx] at h2; exact sees_panic.1 h2
    | ok t => exact absurd hx (h c hc t)
  · exact sees_ret.1 h2

/-- C29. At no moment does any other file differ from what it was. -/
theorem C29_other_files [Ext] (f script : Bytes) (w w' : World) (hs : Sees (editFile f script) w w') (q : Bytes) (hq : q ≠ f) :
    w'.files q = w.files q := by
  have hw : WritesOnly (· = f) (editFile f script) := by
    refine ⟨trivial, fun r => ?_⟩
    cases r with
    | error e => trivial
    | ok c =>
      simp only
      cases executeScript c script with
      | err m => trivial
      | panic => trivial
      | ok t => refine ⟨rfl, fun r => ?_⟩; cases r <;> trivial
  exact hw.sees hs q hq

/-- C29. Success means: the file was there, the script succeeded on it, and the file holds exactly the script's output. -/
theorem C29_success [Ext] (f script : Bytes) (w w' : World) (h : Ends (editFile f script) w none w') :
    ∃ c t, w.files f = some c ∧ executeScript c script = .ok t ∧ w'.files f = some t := by
  obtain ⟨h1, _⟩ := (C29_outcomes f script w none w').1 h
  generalize hb : w.files f = before at h1
  generalize ha : w'.files f = after at h1
  cases h1 with
  | edited c t hx => exact ⟨c, t, rfl, hx, rfl⟩

/-- C29. When no action fails: a readable file on which the script succeeds is always edited. -/
theorem C29_success_happens [Ext] (missing : Bytes → Bytes) (f script c t : Bytes) (w : World) (hc : w.files f = some c)
    (hx : executeScript c script = .ok t) : runOk missing (editFile f script) w = (some none, w.put f t) := by
  rw [editFile, editFileBy, runOk, hc]
  simp only [hx]
  rfl

/-- C29, negative result: if the write fails, the file need not be untouched — its contents can be gone. -/
theorem C29_failed_write_loses [Ext] (f script c t e : Bytes) (w : World) (hc : w.files f = some c)
    (hx : executeScript c script = .ok t) :
    ∃ w', Ends (editFile f script) w (some (b! "failed to write file " ++ f ++ b! ": " ++ e)) w' ∧ w'.files f = some [] := by
  refine ⟨w.put f [], (C29_outcomes _ _ _ _ _).2 ⟨?_, sameExcept_put w f []⟩, World.put_same _ _ _⟩
  rw [hc, World.put_same]
  exact .cut c t e 0 hx (Nat.zero_le _)

/-- The hypotheses are met: a script that succeeds, one that fails to parse, one that fails to execute. -/
example : @executeScript litExt (b! "hello") (b! "search-forward \"l\"; insert \"X\"") = .ok (b! "helXlo") ∧
    (∃ e, @executeScript litExt (b! "hello") (b! "insert \"X\"\ninsert \"Y") = .err e) ∧
    (∃ e, @executeScript litExt (b! "hello") (b! "insert \"X\"\nsearch-forward \"z\"") = .err e) :=
  ⟨by decide +kernel, ⟨_, rfl⟩, ⟨_, rfl⟩⟩

/-! ### C30 -/

theorem editFilesBy_ends (exec : Bytes → Res Bytes Bytes) (fs : List Bytes) (hnd : fs.Nodup) (w : World) (rs : List EditResult) (w' : World) :
    Ends (editFilesBy (editFileBy exec) fs) w rs w' ↔
      rs.map (·.filename) = fs ∧ (∀ r ∈ rs, EditOutcome exec r.filename (w.files r.filename) r.error (w'.files r.filename)) ∧
      (∀ q, q ∉ fs → w'.files q = w.files q) ∧ w'.input = w.input ∧ w'.out = w.out := by
  induction fs generalizing w rs with
  | nil =>
    rw [editFilesBy, ends_ret]
    constructor
    · rintro ⟨rfl, rfl⟩; simp
    · rintro ⟨h1, _, h3, h4, h5⟩
      refine ⟨List.map_eq_nil_iff.1 h1, world_ext (funext fun q => h3 q List.not_mem_nil) h4 h5⟩
  | cons f fs ih =>
    obtain ⟨hf, hnd'⟩ := List.nodup_cons.1 hnd
    rw [editFilesBy, ends_bind]
    constructor
    · rintro ⟨e, w1, h1, h2⟩
      obtain ⟨rs', w2, h3, h4⟩ := ends_bind.1 h2
      obtain ⟨rfl, rfl⟩ := ends_ret.1 h4
      obtain ⟨ho, hs⟩ := (editFileBy_ends exec f w e w1).1 h1
      obtain ⟨hm, hr, hq, hi, hu⟩ := (ih hnd' w1 rs').1 h3
      have hff : w'.files f = w1.files f := hq f hf
      refine ⟨by simp [hm], ?_, ?_, hi.trans hs.2.1, hu.trans hs.2.2⟩
      · intro r hrm
        rcases List.mem_cons.1 hrm with rfl | hrm
        · simp only; rw [hff]; exact ho
        · have : r.filename ∈ fs := hm ▸ List.mem_map_of_mem hrm
          have hne : r.filename ≠ f := by rintro h; exact hf (h ▸ this)
          have := hr r hrm
          rwa [hs.1 _ hne] at this
      · intro q hqn
        rw [hq q (fun h => hqn (List.mem_cons_of_mem _ h)), hs.1 q (fun h => hqn (h ▸ List.mem_cons_self))]
    · rintro ⟨hm, hr, hq, hi, hu⟩
      cases rs with
      | nil => simp at hm
      | cons r rs =>
        obtain ⟨g, e⟩ := r
        rw [List.map_cons, List.cons.injEq] at hm
        obtain ⟨rfl, hm⟩ := hm
        simp only at hf
        let w1 : World := { w with files := fun q => if q = g then w'.files g else w.files q }
        have hg : w1.files g = w'.files g := by simp [w1]
        have ho : ∀ q, q ≠ g → w1.files q = w.files q := by intro q hq; simp [w1, hq]
        refine ⟨e, w1, (editFileBy_ends exec g w e w1).2 ⟨?_, ho, rfl, rfl⟩, ends_bind.2 ⟨rs, w', (ih hnd' w1 rs).2 ⟨hm, ?_, ?_, hi, hu⟩, ends_ret.2 ⟨rfl, rfl⟩⟩⟩
        · rw [hg]; exact hr _ List.mem_cons_self
        · intro r hrm
          have hmem : r.filename ∈ fs := hm ▸ List.mem_map_of_mem hrm
          rw [ho _ (fun h => hf (h ▸ hmem))]
          exact hr r (List.mem_cons_of_mem _ hrm)
        · intro q hqn
          by_cases hqg : q = g
          · subst hqg; exact hg.symm
          · rw [ho q hqg]; exact hq q (by simp [hqg, hqn])

/-- C30. There is exactly one result per named file, in the order given (even if a name occurs twice). -/
theorem C30_one_result_each [Ext] (fs : List Bytes) (script : Bytes) (w w' : World) (rs : List EditResult)
    (h : Ends (editFiles fs script) w rs w') : rs.map (·.filename) = fs := by
  unfold editFiles at h
  generalize (fun f => editFile f script) = edit at h
  induction fs generalizing w rs with
  | nil => obtain ⟨rfl, _⟩ := ends_ret.1 h; rfl
  | cons f fs ih =>
    obtain ⟨e, w1, _, h2⟩ := ends_bind.1 h
    obtain ⟨rs', w2, h3, h4⟩ := ends_bind.1 h2
    obtain ⟨rfl, rfl⟩ := ends_ret.1 h4
    simp [ih w1 rs' h3]

/-- C30. For different names, all the ways in which `EditFiles` can return, whatever fails: every file has one of the
outcomes it has when edited alone, computed from its own contents at the start, independently of the outcomes of the
others (any combination can occur); other files, standard input and output are untouched. -/
theorem C30_independent [Ext] (fs : List Bytes) (hnd : fs.Nodup) (script : Bytes) (w : World) (rs : List EditResult) (w' : World) :
    Ends (editFiles fs script) w rs w' ↔
      rs.map (·.filename) = fs ∧
      (∀ r ∈ rs, EditOutcome (fun c => executeScript c script) r.filename (w.files r.filename) r.error (w'.files r.filename)) ∧
      (∀ q, q ∉ fs → w'.files q = w.files q) ∧ w'.input = w.input ∧ w'.out = w.out :=
  editFilesBy_ends _ fs hnd w rs w'

/-- C30, `EditFilesWithFormat`. -/
theorem C30_independent_format [Ext] (fs : List Bytes) (hnd : fs.Nodup) (script format : Bytes) (w : World) (rs : List EditResult)
    (w' : World) :
    Ends (editFilesWithFormat fs script format) w rs w' ↔
      rs.map (·.filename) = fs ∧
      (∀ r ∈ rs, EditOutcome (fun c => executeScriptWithFormat c script format) r.filename (w.files r.filename) r.error (w'.files r.filename)) ∧
      (∀ q, q ∉ fs → w'.files q = w.files q) ∧ w'.input = w.input ∧ w'.out = w.out :=
  editFilesBy_ends _ fs hnd w rs w'

/-- C30. A result says success exactly if it carries no error; the file then holds the script's output on its contents at the
start, and a file whose script failed is unchanged. -/
theorem C30_results [Ext] (fs : List Bytes) (hnd : fs.Nodup) (script : Bytes) (w : World) (rs : List EditResult) (w' : World)
    (h : Ends (editFiles fs script) w rs w') (r : EditResult) (hr : r ∈ rs) :
    (r.success = true → ∃ c t, w.files r.filename = some c ∧ executeScript c script = .ok t ∧ w'.files r.filename = some t) ∧
    ((∀ c, w.files r.filename = some c → ∀ t, executeScript c script ≠ .ok t) →
      r.success = false ∧ w'.files r.filename = w.files r.filename) := by
  have ho := ((C30_independent fs hnd script w rs w').1 h).2.1 r hr
  obtain ⟨f, e⟩ := r
  simp only at ho ⊢
  generalize w.files f = before at ho ⊢
  generalize w'.files f = after at ho ⊢
  cases ho with
  | unreadable => exact ⟨fun h => (nomatch h), fun _ => ⟨rfl, rfl⟩⟩
  | failed c m hx => exact ⟨fun h => (nomatch h), fun _ => ⟨rfl, rfl⟩⟩
  | edited c t hx => exact ⟨fun _ => ⟨c, t, rfl, hx, rfl⟩, fun h => absurd hx (h c rfl t)⟩
  | unwritable c t m hx => exact ⟨fun h => (nomatch h), fun h => absurd hx (h c rfl t)⟩
  | cut c t m n hx => exact ⟨fun h => (nomatch h), fun h => absurd hx (h c rfl t)⟩

/-- C30. When no action fails, every readable file on which the script succeeds is edited, whatever happens to the others
(as long as the script panics on none of them). -/
theorem C30_all_good_edited [Ext] (missing : Bytes → Bytes) (fs : List Bytes) (hnd : fs.Nodup) (script : Bytes) (w : World)
    (hp : ∀ f ∈ fs, ∀ c, w.files f = some c → executeScript c script ≠ .panic) :
    ∃ rs w', runOk missing (editFiles fs script) w = (some rs, w') ∧ rs.map (·.filename) = fs ∧
      (∀ r ∈ rs, ∀ c t, w.files r.filename = some c → executeScript c script = .ok t → r.success = true ∧ w'.files r.filename = some t) ∧
      (∀ r ∈ rs, ∀ c m, w.files r.filename = some c → executeScript c script = .err m → r.error = some m ∧ w'.files r.filename = some c) ∧
      (∀ q, q ∉ fs → w'.files q = w.files q) := by
  induction fs generalizing w with
  | nil => exact ⟨[], w, rfl, rfl, fun _ h => (nomatch h), fun _ h => (nomatch h), fun _ _ => rfl⟩
  | cons f fs ih =>
    obtain ⟨hf, hnd'⟩ := List.nodup_cons.1 hnd
    -- the first file
    have hone : ∃ e w1, runOk missing (editFile f script) w = (some e, w1) ∧
        (∀ c t, w.files f = some c → executeScript c script = .ok t → e = none ∧ w1.files f = some t) ∧
        (∀ c m, w.files f = some c → executeScript c script = .err m → e = some m ∧ w1.files f = some c) ∧
        (∀ q, q ≠ f → w1.files q = w.files q) := by
      cases hc : w.files f with
      | none =>
        refine ⟨some (b! "failed to read file " ++ f ++ b! ": " ++ missing f), w, ?_, fun _ _ h => (nomatch h), fun _ _ h => (nomatch h), fun _ _ => rfl⟩
        rw [editFile, editFileBy, runOk, hc]; rfl
      | some c =>
        cases hx : executeScript c script with
        | panic => exact absurd hx (hp f List.mem_cons_self c hc)
        | ok t =>
          refine ⟨none, w.put f t, C29_success_happens missing f script c t w hc hx, ?_, ?_, fun q hq => World.put_other _ _ _ _ hq⟩
          · rintro _ t' ⟨⟩ h; rw [hx] at h; cases h; exact ⟨rfl, World.put_same _ _ _⟩
          · rintro _ m ⟨⟩ h; rw [hx] at h; cases h
        | err m =>
          refine ⟨some m, w, ?_, ?_, ?_, fun _ _ => rfl⟩
          · rw [editFile, editFileBy, runOk, hc]; simp only [hx]; rfl
          · rintro _ t' ⟨⟩ h; rw [hx] at h; cases h
          · rintro _ m' ⟨⟩ h; rw [hx] at h; cases h; exact ⟨rfl, hc⟩
    obtain ⟨e, w1, h1, h2, h3, h4⟩ := hone
    have hne : ∀ g ∈ fs, g ≠ f := fun g hg h => hf (h ▸ hg)
    obtain ⟨rs, w', h5, h6, h7, h8, h9⟩ := ih hnd' w1 (fun g hg c hc => hp g (List.mem_cons_of_mem _ hg) c (by rw [← h4 g (hne g hg)]; exact hc))
    have hff : w'.files f = w1.files f := h9 f hf
    have hmem : ∀ r ∈ rs, r.filename ≠ f := fun r hr => hne _ (h6 ▸ List.mem_map_of_mem hr)
    refine ⟨⟨f, e⟩ :: rs, w', ?_, by simp [h6], ?_, ?_, ?_⟩
    · rw [editFiles, editFilesBy, runOk_bind, h1]
      simp only
      rw [runOk_bind]
      rw [editFiles] at h5
      rw [h5]; rfl
    · intro r hr c t hc hx
      rcases List.mem_cons.1 hr with rfl | hr
      · obtain ⟨rfl, h⟩ := h2 c t hc hx; exact ⟨rfl, by rw [← h]; exact hff⟩
      · exact h7 r hr c t (by rw [h4 _ (hmem r hr)]; exact hc) hx
    · intro r hr c m hc hx
      rcases List.mem_cons.1 hr with rfl | hr
      · obtain ⟨rfl, h⟩ := h3 c m hc hx; exact ⟨rfl, by rw [← h]; exact hff⟩
      · exact h8 r hr c m (by rw [h4 _ (hmem r hr)]; exact hc) hx
    · intro q hq
      rw [h9 q (fun h => hq (List.mem_cons_of_mem _ h)), h4 q (fun h => hq (h ▸ List.mem_cons_self))]

/-- C30, negative result: a file on which the script panics takes down the whole call: the files after it are not edited and
no result is returned, for any of the files. -/
theorem C30_panic_stops_all [Ext] (missing : Bytes → Bytes) (f : Bytes) (rest : List Bytes) (script c : Bytes) (w : World)
    (hc : w.files f = some c) (hx : executeScript c script = .panic) :
    runOk missing (editFiles (f :: rest) script) w = (none, w) ∧ ∀ rs w', ¬ Ends (editFiles (f :: rest) script) w rs w' ∨
      ∃ r ∈ rs, r.filename = f ∧ ∃ e, r.error = some (b! "failed to read file " ++ f ++ b! ": " ++ e) := by
  constructor
  · rw [editFiles, editFilesBy, runOk_bind]
    have : runOk missing (editFile f script) w = (none, w) := by
      rw [editFile, editFileBy, runOk, hc]; simp only [hx]; rfl
    rw [this]
  · intro rs w'
    by_cases h : Ends (editFiles (f :: rest) script) w rs w'
    · refine Or.inr ?_
      obtain ⟨e, w1, h1, h2⟩ := ends_bind.1 h
      obtain ⟨rs', w2, h3, h4⟩ := ends_bind.1 h2
      obtain ⟨rfl, rfl⟩ := ends_ret.1 h4
      refine ⟨_, List.mem_cons_self, rfl, ?_⟩
      have ho := ((C29_outcomes f script w e w1).1 h1).1
      rw [hc] at ho
      generalize w1.files f = after at ho
      generalize hcc : some c = before at ho
      cases ho with
      | unreadable _ m => exact ⟨m, rfl⟩
      | failed c' m hx' => cases hcc; rw [hx] at hx'; cases hx'
      | edited c' t hx' => cases hcc; rw [hx] at hx'; cases hx'
      | unwritable c' t m hx' => cases hcc; rw [hx] at hx'; cases hx'
      | cut c' t m n hx' => cases hcc; rw [hx] at hx'; cases hx'
    · exact Or.inl h

/-- The hypothesis is met: a script that succeeds on most texts and panics on the empty one. -/
example : @executeScript litExt [] (b! "beginning-of-line\nforward-word") = .panic ∧
    @executeScript litExt (b! "ab") (b! "beginning-of-line\nforward-word") = .ok (b! "ab") :=
  ⟨by decide +kernel, by decide +kernel⟩

end Texted
