import Verif.Lemmas.LinkFree
import Verif.Props.Linked
/-
C99, more of the linked program: the functions of /repo/texted.go, the tools, `texted parse`.
-/
set_option linter.unusedSectionVars false
namespace Texted
open Spec

section
variable [Ext] [LawfulExt] {L : Linking} {w w' : World}

/-- **C99** `EditFileWithFormat`, linked (as `C99_edit_file`, with the format). -/
theorem C99_edit_file_format (hL : Linking.Real L) (file script format : Bytes) (hf : ∀ c, w.files file = some c → FitsIn L.mem c script format) (e : Option Bytes) :
    LinkedEnds L .EditFileWithFormat [.str file, .str script, .str format] w [fgError e] w' ↔
      EditOutcome (fun c => executeScriptWithFormat c script format) file (w.files file) e (w'.files file) ∧ SameExcept file w w' :=
  (((C99_exact hL (stays_EditFileWithFormat hf)).1 _).trans (((C95_does (C95_files file script format []).2.1).2.2.1 _ _ _).trans ends_failing)).trans
    (C29_outcomes_format file script format w e w')

/-- **C99** `EditFiles`, linked, with different names (C30): if the script and the contents of the files fit into memory, the call can return `vs`
and leave the world so exactly if `vs` is one result for each file, in the order given, each one an outcome of editing this file alone, and nothing
else changes. -/
theorem C99_edit_files (hL : Linking.Real L) (files : List Bytes) (hnd : files.Nodup) (script : Bytes)
    (hf : ∀ f ∈ files, ∀ c, w.files f = some c → FitsIn L.mem c script (b! "shell")) (vs : List FgV) :
    LinkedEnds L .EditFiles [.strs files, .str script] w vs w' ↔
      ∃ rs : List EditResult, vs = [.results (rs.map editResult), .nil] ∧ rs.map (·.filename) = files ∧
      (∀ r ∈ rs, EditOutcome (fun c => executeScript c script) r.filename (w.files r.filename) r.error (w'.files r.filename)) ∧
      (∀ q, q ∉ files → w'.files q = w.files q) ∧ w'.input = w.input ∧ w'.out = w.out :=
  ((C99_exact hL (stays_EditFiles hnd hf)).1 vs).trans (C95_edit_files_outcomes files hnd script vs)

/-- **C99** `EditFilesWithFormat`, linked (as `C99_edit_files`, with the format). -/
theorem C99_edit_files_format (hL : Linking.Real L) (files : List Bytes) (hnd : files.Nodup) (script format : Bytes)
    (hf : ∀ f ∈ files, ∀ c, w.files f = some c → FitsIn L.mem c script format) (vs : List FgV) :
    LinkedEnds L .EditFilesWithFormat [.strs files, .str script, .str format] w vs w' ↔
      ∃ rs : List EditResult, vs = [.results (rs.map editResult), .nil] ∧ rs.map (·.filename) = files ∧
      (∀ r ∈ rs, EditOutcome (fun c => executeScriptWithFormat c script format) r.filename (w.files r.filename) r.error (w'.files r.filename)) ∧
      (∀ q, q ∉ files → w'.files q = w.files q) ∧ w'.input = w.input ∧ w'.out = w.out := by
  rw [(C99_exact hL (stays_EditFilesWithFormat hnd hf)).1 vs, (C95_does (C95_files [] script format files).2.2.2).2.2.1, resultsAndNil, ends_bind]
  constructor
  · rintro ⟨rs, w1, h₁, h₂⟩
    obtain ⟨e, rfl⟩ := ends_ret.1 h₂
    exact ⟨rs, e, (C30_independent_format files hnd script format w rs w').1 h₁⟩
  · rintro ⟨rs, rfl, h⟩
    exact ⟨rs, w', (C30_independent_format files hnd script format w rs w').2 h, .refl⟩

/-! ### The tools -/

/-- **C99** The tool `texted_eval`, linked: if the input and the script of the request fit into memory, it answers exactly what the model of the
tool answers (C46), and touches nothing. -/
theorem C99_eval_tool (hL : Linking.Real L) (ctx : FgV) (request : Json)
    (hf : ∀ input script, requireString request (b! "input") = .ok input → requireString request (b! "script") = .ok script →
      FitsIn L.mem input script (b! "shell")) (r : ToolResult) :
    (LinkedEnds L .TextedEvalHandler [ctx, .request request] w [.tool r, .nil] w' ↔ Ends (textedEvalHandler (evalRequest request)) w r w') ∧
    (LinkedSees L .TextedEvalHandler [ctx, .request request] w w' → w' = w) := by
  refine ⟨((C99_exact hL (stays_TextedEvalHandler ctx request hf)).1 _).trans ?_, fun h => C95_eval_touches_nothing ctx request ((C99_safe hL).2 h)⟩
  rw [(C95_does (C95_eval_tool ctx request)).2.2.1, toolAndNil, ends_bind]
  constructor
  · rintro ⟨r', w1, h₁, h₂⟩
    obtain ⟨e, rfl⟩ := ends_ret.1 h₂
    simp only [List.cons.injEq, FgV.tool.injEq] at e
    rw [e.1]; exact h₁
  · intro h
    exact ⟨r, w', h, .refl⟩

/-- **C99** The tool `edit_file` without `loopUntilError`, linked: if the script and the files of the request (different names) fit into memory, it
answers exactly what the model of the tool answers (C45), the world is at every moment one that the model leads to, and no other is missing. -/
theorem C99_edit_tool (hL : Linking.Real L) (ctx : FgV) (request : Json) (hl : getBool request (b! "loopUntilError") false = false)
    (hf : ∀ files script, requireStringSlice request (b! "files") = .ok files → requireString request (b! "script") = .ok script →
      files.Nodup ∧ ∀ f ∈ files, ∀ c, w.files f = some c → FitsIn L.mem c script (b! "shell")) :
    (∀ r, LinkedEnds L .EditFileHandler [ctx, .request request] w [.tool r, .nil] w' ↔ Ends (editFileHandler 0 (editFileRequest request)) w (some r) w') ∧
    (LinkedSees L .EditFileHandler [ctx, .request request] w w' ↔ Sees (editFileHandler 0 (editFileRequest request)) w w') := by
  have fuel : ∀ n, editFileHandler n (editFileRequest request) = editFileHandler 0 (editFileRequest request) := fun n => by
    simp only [editFileHandler, editFileRequest, hl]
    rfl
  obtain ⟨h₁, h₂⟩ := C99_exact (w' := w') hL (stays_EditFileHandler ctx request hl hf)
  obtain ⟨h₃, _, h₄⟩ := C95_edit_tool ctx request
  constructor
  · intro r
    rw [h₁, h₃]
    exact ⟨fun ⟨n, h⟩ => fuel n ▸ h, fun h => ⟨0, h⟩⟩
  · rw [h₂, h₄]
    exact ⟨fun ⟨n, h⟩ => fuel n ▸ h, fun h => ⟨0, h⟩⟩

/-! ### The program -/

/-- **C99** `texted parse`, linked: if what is read from standard input fits into memory (for JSON, whatever is read), it does at every moment, and
returns at the end, exactly what the model of the command says. -/
theorem C99_parse (hL : Linking.Real L) (inputFormat outputFormat : Bytes) (hf : inputFormat = b! "json" ∨ L.mem.text w.input = true) :
    (∀ e, LinkedEnds L .runParse [.str inputFormat, .str outputFormat] w [fgError e] w' ↔ Ends (parseProc inputFormat outputFormat) w e w') ∧
    (LinkedSees L .runParse [.str inputFormat, .str outputFormat] w w' ↔ Sees (parseProc inputFormat outputFormat) w w') := by
  obtain ⟨h₁, h₂⟩ := C99_exact (w' := w') hL (stays_runParse inputFormat outputFormat hf)
  exact ⟨fun e => (h₁ _).trans (((C95_does (C95_parse inputFormat outputFormat)).2.2.1 _ _ _).trans ends_failing),
    h₂.trans (((C95_does (C95_parse inputFormat outputFormat)).2.1 _ _).trans sees_failing)⟩

/-- **C99** `texted WORDS`, from `main` on, linked with all packages: if the call that the words come to stays within the memory, what can be in the
world at any moment, and with which exit status and which world it can end, is exactly what the model of the program says. -/
theorem C99_program_exact (hL : Linking.Real L) (helps : Bytes → Bytes) (others : Bytes → List Bytes → Proc Nat) (words : List Bytes)
    (hs : ∀ f vs, ProgramCalls cgMain words f vs → StaysIn L.mem f vs w) :
    (LinkedProgramSees L cgMain helps others words w w' ↔ Sees (textedMain helps (withParse helps others) words) w w') ∧
    ∀ k, LinkedProgramEnds L cgMain helps others words w k w' ↔ Ends (textedMain helps (withParse helps others) words) w k w' := by
  obtain ⟨h₁, h₂⟩ := C99_program (w := w) (w' := w') hL helps others words
  obtain ⟨h₃, h₄⟩ := C98_program_exact helps others words w w'
  refine ⟨⟨h₁, fun h => ?_⟩, fun k => ⟨h₂ k, fun h => ?_⟩⟩
  · obtain ⟨n, d, h⟩ := h₃.2 h
    unfold LinkedProgramSees
    unfold CgProgram.linked
    unfold CgProgram.run at h
    cases hp : cgMain.pick words with
    | unknown _ => rw [hp] at h; exact ⟨0, 0, n, d, h⟩
    | root _ => rw [hp] at h; exact ⟨0, 0, n, d, h⟩
    | own _ _ => rw [hp] at h; exact ⟨0, 0, n, d, h⟩
    | command c ws =>
      rw [hp] at h
      dsimp only at h ⊢
      by_cases hc : c.calls = .runEdit ∨ c.calls = .runParse
      · simp only [if_pos hc] at h ⊢
        have h : Sees (cgFiles n d (helps c.name) c ws) w w' := by
          rcases sees_bind.1 h with h | ⟨o, w1, h1, h2⟩
          · exact h
          · rw [sees_ret.1 h2]; exact ends_sees h1
        suffices ∃ m e n d, Sees (linkedFiles (Linking.upTo L m e) n d (helps c.name) c ws) w w' by
          obtain ⟨m, e, n, d, h⟩ := this
          exact ⟨m, e, n, d, sees_bind.2 (.inl h)⟩
        unfold linkedFiles
        unfold cgFiles at h
        cases hst : c.start ws with
        | call g args =>
          rw [hst] at h
          cases g <;> first
            | exact ⟨0, 0, n, d, h⟩
            | (dsimp only at h ⊢
               cases ha : args.mapM CgV.fg with
               | none => rw [ha] at h; exact ⟨0, 0, n, d, h⟩
               | some vs =>
                 rw [ha] at h
                 first
                   | exact (C99_exact hL (hs .runEdit vs (.edit hp hst ha))).2.2 ⟨n, d, h⟩
                   | exact (C99_exact hL (hs .runParse vs (.parse hp hst ha))).2.2 ⟨n, d, h⟩)
        | _ => rw [hst] at h; exact ⟨0, 0, n, d, h⟩
      · simp only [if_neg hc] at h ⊢
        exact ⟨0, 0, n, d, h⟩
  · obtain ⟨n, d, h⟩ := (h₄ k).2 h
    unfold LinkedProgramEnds
    unfold CgProgram.linked
    unfold CgProgram.run at h
    cases hp : cgMain.pick words with
    | unknown _ => rw [hp] at h; exact ⟨0, 0, n, d, h⟩
    | root _ => rw [hp] at h; exact ⟨0, 0, n, d, h⟩
    | own _ _ => rw [hp] at h; exact ⟨0, 0, n, d, h⟩
    | command c ws =>
      rw [hp] at h
      dsimp only at h ⊢
      by_cases hc : c.calls = .runEdit ∨ c.calls = .runParse
      · simp only [if_pos hc] at h ⊢
        obtain ⟨o, w1, h1, h2⟩ := ends_bind.1 h
        obtain ⟨vs, rfl⟩ : ∃ vs, o = .ret vs := by
          cases o with
          | ret vs => exact ⟨vs, rfl⟩
          | _ => exact nomatch (ends_ret.1 h2).1
        suffices ∃ m e n d, Ends (linkedFiles (Linking.upTo L m e) n d (helps c.name) c ws) w (.ret vs) w1 by
          obtain ⟨m, e, n, d, h⟩ := this
          exact ⟨m, e, n, d, ends_bind.2 ⟨_, _, h, h2⟩⟩
        unfold linkedFiles
        unfold cgFiles at h1
        cases hst : c.start ws with
        | call g args =>
          rw [hst] at h1
          cases g <;> first
            | exact ⟨0, 0, n, d, h1⟩
            | (dsimp only at h1 ⊢
               cases ha : args.mapM CgV.fg with
               | none => rw [ha] at h1; exact ⟨0, 0, n, d, h1⟩
               | some us =>
                 rw [ha] at h1
                 first
                   | exact ((C99_exact hL (hs .runEdit us (.edit hp hst ha))).1 vs).2 ⟨n, d, h1⟩
                   | exact ((C99_exact hL (hs .runParse us (.parse hp hst ha))).1 vs).2 ⟨n, d, h1⟩)
        | _ => rw [hst] at h1; exact ⟨0, 0, n, d, h1⟩
      · simp only [if_neg hc] at h ⊢
        exact ⟨0, 0, n, d, h⟩

theorem pick_parse (ws : List Bytes) : cgMain.pick (b! "parse" :: ws) = .command cgParseCommand ws := by
  have hp : pick (b! "parse" :: ws) = .sub (b! "parse") ws := (C76_exact _ _ _).2 ⟨by decide, [], ws, .nil, rfl, rfl⟩
  have h := (C98_pick (b! "parse" :: ws)).1
  rw [hp] at h
  cases hk : cgMain.pick (b! "parse" :: ws) with
  | unknown _ => rw [hk] at h; exact nomatch h
  | root _ => rw [hk] at h; exact nomatch h
  | own name _ =>
    have hn := own_of hk
    rw [hk] at h
    simp only [CgPicked.plain, Picked.sub.injEq] at h
    rw [h.1] at hn
    exact absurd hn (by decide)
  | command c ws' =>
    have hc := command_of hk
    rw [hk] at h
    simp only [CgPicked.plain, Picked.sub.injEq] at h
    obtain ⟨h1, rfl⟩ := h
    simp only [List.mem_cons, List.not_mem_nil, or_false] at hc
    rcases hc with rfl | rfl | rfl | rfl | rfl <;> first | rfl | exact absurd h1 (by decide +kernel)

/-- **C99** `texted parse WORDS` from `main` on, linked, for all words: if what is on standard input fits into memory, what can be in the world at any
moment and how it can end is exactly what the model of the program says. -/
theorem C99_program_parse (hL : Linking.Real L) (helps : Bytes → Bytes) (others : Bytes → List Bytes → Proc Nat) (ws : List Bytes)
    (hf : L.mem.text w.input = true) :
    (LinkedProgramSees L cgMain helps others (b! "parse" :: ws) w w' ↔ Sees (textedMain helps (withParse helps others) (b! "parse" :: ws)) w w') ∧
    ∀ k, LinkedProgramEnds L cgMain helps others (b! "parse" :: ws) w k w' ↔
      Ends (textedMain helps (withParse helps others) (b! "parse" :: ws)) w k w' := by
  have key : ∀ c ws' g args vs, cgMain.pick (b! "parse" :: ws) = .command c ws' → c.start ws' = .call g args → args.mapM CgV.fg = some vs →
      g = .runParse ∧ ∃ i o, vs = [.str i, .str o] := by
    intro c ws' g args vs hp hst ha
    rw [pick_parse] at hp
    injection hp with h1 h2
    subst h1 h2
    cases hw : parseWords parseFlags ws with
    | error e =>
      rw [(start_ready parseOpts_ready parseOpts_sound parseOpts_defs parseFlags_good ws).1 e hw] at hst
      exact nomatch hst
    | ok lf =>
      obtain ⟨l, files⟩ := lf
      obtain ⟨args', hs', ha'⟩ := parse_start hw
      rw [hs'] at hst
      by_cases hb : boolSetting l (b! "help") = true
      · rw [if_pos hb] at hst; exact nomatch hst
      · rw [if_neg hb] at hst
        injection hst with h1 h2
        subst h1 h2
        rw [ha'] at ha
        injection ha with ha
        exact ⟨rfl, _, _, ha.symm⟩
  refine C99_program_exact hL helps others _ fun f vs h => ?_
  cases h with
  | edit hp hst ha => exact nomatch (key _ _ _ _ _ hp hst ha).1
  | parse hp hst ha =>
    obtain ⟨_, i, o, rfl⟩ := key _ _ _ _ _ hp hst ha
    exact stays_runParse i o (.inr hf)

end

/-! ### Linked runs in which all hypotheses are met together -/

theorem dropX_fits_a {w : World} (h : w.files (b! "a") = some (b! "xay")) : letI := litExt; ∀ f ∈ [b! "a"], ∀ c, w.files f = some c → FitsIn fullMemory c dropX (b! "shell") := by
  letI := litExt
  intro f hf c hc
  obtain rfl : f = b! "a" := by simpa using hf
  obtain rfl : c = b! "xay" := by rw [h] at hc; exact (Option.some.inj hc).symm
  exact dropX_fits

/-- `EditFiles` on the file `a`. -/
example : letI := litExt
    ∃ (L : Linking) (w' : World), Linking.Real L ∧ w'.files (b! "a") = some (b! "ay") ∧
      LinkedEnds L .EditFiles [.strs [b! "a"], .str dropX] pairWorld [.results [editResult ⟨b! "a", none⟩], .nil] w' := by
  letI := litExt
  haveI := litExt_lawful
  obtain ⟨L, hL, hm⟩ := C99_real
  have h : Ends (editFiles [b! "a"] dropX) pairWorld [⟨b! "a", none⟩] (runOk (fun _ => []) (editFiles [b! "a"] dropX) pairWorld).2 :=
    (runOk_ends _ _ _).1 _ (by decide +kernel)
  exact ⟨L, _, hL, by decide +kernel, (C99_edit_files hL [b! "a"] (by decide) dropX (by rw [hm]; exact dropX_fits_a rfl) _).2
    ⟨_, rfl, (C30_independent _ (by decide) dropX _ _ _).1 h⟩⟩

/-- The request of the examples. -/
def editRequest : Json := .obj [(b! "script", .str dropX), (b! "files", .arr [.str (b! "a")])]

/-- The tool `edit_file` on the file `a`. -/
example : letI := litExt
    ∃ (L : Linking) (w' : World), Linking.Real L ∧ w'.files (b! "a") = some (b! "ay") ∧
      LinkedEnds L .EditFileHandler [.nil, .request editRequest] pairWorld [.tool (.text (b! "All files edited successfully after 1 iterations:\n✓ Successfully edited a\n")), .nil] w' := by
  letI := litExt
  haveI := litExt_lawful
  obtain ⟨L, hL, hm⟩ := C99_real
  have h : Ends (editFileHandler 0 (editFileRequest editRequest)) pairWorld (some (.text (b! "All files edited successfully after 1 iterations:\n✓ Successfully edited a\n")))
      (runOk (fun _ => []) (editFileHandler 0 (editFileRequest editRequest)) pairWorld).2 :=
    (runOk_ends _ _ _).1 _ (by decide +kernel)
  refine ⟨L, _, hL, by decide +kernel, ((C99_edit_tool hL .nil editRequest rfl fun files script h1 h2 => ?_).1 _).2 h⟩
  obtain rfl : files = [b! "a"] := by have : requireStringSlice editRequest (b! "files") = .ok [b! "a"] := rfl; rw [this] at h1; exact (Except.ok.inj h1).symm
  obtain rfl : script = dropX := by have : requireString editRequest (b! "script") = .ok dropX := rfl; rw [this] at h2; exact (Except.ok.inj h2).symm
  exact ⟨by decide, by rw [hm]; exact dropX_fits_a rfl⟩

/-- The request of the example. -/
def evalRequestX : Json := .obj [(b! "script", .str dropX), (b! "input", .str (b! "xay"))]

/-- The tool `texted_eval`. -/
example : letI := litExt
    ∃ (L : Linking) (w' : World), Linking.Real L ∧ LinkedEnds L .TextedEvalHandler [.nil, .request evalRequestX] pairWorld [.tool (.text (b! "ay")), .nil] w' := by
  letI := litExt
  haveI := litExt_lawful
  obtain ⟨L, hL, hm⟩ := C99_real
  have h : Ends (textedEvalHandler (evalRequest evalRequestX)) pairWorld (.text (b! "ay")) (runOk (fun _ => []) (textedEvalHandler (evalRequest evalRequestX)) pairWorld).2 :=
    (runOk_ends _ _ _).1 _ (by decide +kernel)
  refine ⟨L, _, hL, (C99_eval_tool hL .nil evalRequestX (fun input script h1 h2 => ?_) _).1.2 h⟩
  obtain rfl : input = b! "xay" := by have : requireString evalRequestX (b! "input") = .ok (b! "xay") := rfl; rw [this] at h1; exact (Except.ok.inj h1).symm
  obtain rfl : script = dropX := by have : requireString evalRequestX (b! "script") = .ok dropX := rfl; rw [this] at h2; exact (Except.ok.inj h2).symm
  rw [hm]
  exact dropX_fits

/-- `texted parse --output-format json` from `main` on. -/
example : letI := litExt
    ∃ (L : Linking) (w' : World), Linking.Real L ∧ LinkedProgramEnds L cgMain (fun _ => []) (fun _ _ => .ret 0) [b! "parse", b! "--output-format", b! "json"] pairWorld 0 w' ∧
      w'.out = b! "[\"search-forward\",\"x\"]\n" := by
  letI := litExt
  haveI := litExt_lawful
  obtain ⟨L, hL, hm⟩ := C99_real
  have ht : L.mem.text pairWorld.input = true := by
    rw [hm]
    exact (decide_eq_true (show Held pairWorld.input.length by decide) : decide (Held pairWorld.input.length) = true)
  have h : Ends (textedMain (fun _ => []) (withParse (fun _ => []) (fun _ _ => .ret 0)) [b! "parse", b! "--output-format", b! "json"]) pairWorld 0
      (runOk (fun _ => []) (textedMain (fun _ => []) (withParse (fun _ => []) (fun _ _ => .ret 0)) [b! "parse", b! "--output-format", b! "json"]) pairWorld).2 :=
    (runOk_ends _ _ _).1 _ (by decide +kernel)
  exact ⟨L, _, hL, ((C99_program_parse hL (fun _ => []) (fun _ _ => .ret 0) _ ht).2 0).2 h, by decide +kernel⟩

end Texted
