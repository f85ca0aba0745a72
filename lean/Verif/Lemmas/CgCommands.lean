import Verif.Lemmas.Cg
import Verif.Spec.Cg
import Verif.Props.FgSource
import Verif.Props.TgDocs
/-
The four commands, from their declarations.
-/
set_option linter.unusedSectionVars false
namespace Texted
open Spec

/-- The options of `texted edit`, registered. -/
def editOpts : CgState := cgEditCommand.ready.get (by decide +kernel)
/-- The options of `texted parse`, registered. -/
def parseOpts : CgState := cgParseCommand.ready.get (by decide +kernel)
/-- The options of `texted test`, registered. -/
def testOpts : CgState := cgTestCommand.ready.get (by decide +kernel)
/-- The options of `texted doc`, registered. -/
def docOpts : CgState := cgDocCommand.ready.get (by decide +kernel)

theorem editOpts_ready : cgEditCommand.ready = some editOpts := (Option.some_get _).symm
theorem parseOpts_ready : cgParseCommand.ready = some parseOpts := (Option.some_get _).symm
theorem testOpts_ready : cgTestCommand.ready = some testOpts := (Option.some_get _).symm
theorem docOpts_ready : cgDocCommand.ready = some docOpts := (Option.some_get _).symm

theorem editOpts_sound : Sound editOpts := ⟨by decide +kernel, by decide +kernel, by decide +kernel⟩
theorem parseOpts_sound : Sound parseOpts := ⟨by decide +kernel, by decide +kernel, by decide +kernel⟩
theorem testOpts_sound : Sound testOpts := ⟨by decide +kernel, by decide +kernel, by decide +kernel⟩
theorem docOpts_sound : Sound docOpts := ⟨by decide +kernel, by decide +kernel, by decide +kernel⟩

theorem editOpts_defs : editOpts.flags.map (·.defn) = editFlags := by decide +kernel
theorem parseOpts_defs : parseOpts.flags.map (·.defn) = parseFlags := by decide +kernel
theorem testOpts_defs : testOpts.flags.map (·.defn) = testFlags := by decide +kernel
theorem docOpts_defs : docOpts.flags.map (·.defn) = docFlags := by decide +kernel

section
variable {st st' : CgState} {l : List (FlagDef × Bytes)}
  (ha : ∀ g ∈ st.flags, st'.cells g.cell = CgVal.after g.defn.name (st.cells g.cell) (st.changed g.defn.name) l)
include ha

theorem got_str {n dflt : Bytes} {c : CgCell} {d : FlagDef} (hg : (⟨d, c⟩ : CgFlag) ∈ st.flags) (hd : d.name = n) (hv : st.cells c = .str dflt) :
    st'.cells c = .str (strSetting l n dflt) := by
  subst hd; have := ha _ hg; simp only [hv] at this; rw [this, after_str]

theorem got_bool {n : Bytes} {c : CgCell} {d : FlagDef} (hg : (⟨d, c⟩ : CgFlag) ∈ st.flags) (hd : d.name = n) (hv : st.cells c = .bool false) :
    st'.cells c = .bool (boolSetting l n) := by
  subst hd; have := ha _ hg; simp only [hv] at this; rw [this, after_bool]; rfl

theorem got_strs {n : Bytes} {fs : List Bytes} {c : CgCell} {d : FlagDef} (hg : (⟨d, c⟩ : CgFlag) ∈ st.flags) (hd : d.name = n) (hv : st.cells c = .strs [])
    (hs : Strings n l fs) : st'.cells c = .strs fs := by
  subst hd; have := ha _ hg; simp only [hv] at this; rw [this, after_strs _ _ _ _ _ hs (fun _ => rfl), List.nil_append]
end

theorem got_help {st' : CgState} {t : Bool} (h : st'.lookup (b! "help") = some (.bool t)) :
    (st'.lookup (b! "help") = some (.bool true)) ↔ t = true := by
  rw [h]; cases t <;> simp

variable [Ext]

/-- What the function of `texted edit WORDS` is called with. -/
theorem edit_start {words : List Bytes} {l : List (FlagDef × Bytes)} {files : List Bytes} (hp : parseWords editFlags words = .ok (l, files)) :
    ∃ fs args, Strings (b! "expression") l fs ∧ cgEditCommand.start words = (if boolSetting l (b! "help") = true then .help else .call .runEdit args) ∧
      args.mapM CgV.fg = some (EditArgs.fg { editArgs l files with expressions := if fs = [[]] then [] else fs.map unCRLF }) := by
  obtain ⟨h₁, h₂⟩ := start_ready editOpts_ready editOpts_sound editOpts_defs editFlags_good words
  obtain ⟨st', hf, _, fits, ha, hl, hs⟩ := h₂ l files hp
  have help' : st'.lookup (b! "help") = some (.bool (boolSetting l (b! "help"))) :=
    (hl ⟨helpFlag, .own (b! "help")⟩ (by decide +kernel)).trans
      (congrArg some (got_bool ha (c := .own (b! "help")) (d := helpFlag) (by decide +kernel) rfl (by decide +kernel)))
  obtain ⟨fs, hfs⟩ : ∃ fs, Strings (b! "expression") l fs := slices fun s hs hn => by
    obtain ⟨h1, h2⟩ := fits s hs
    exact ⟨(by decide : ∀ f ∈ editFlags, f.name = b! "expression" → f.kind = .slice) s.1 h1 hn, h2⟩
  have v1 := got_str ha (c := .var .scriptFormat) (n := b! "format") (d := ⟨b! "format", none, .str⟩) (dflt := b! "shell") (by decide +kernel) rfl (by decide +kernel)
  have v2 := got_str ha (c := .var .scriptFile) (n := b! "file") (d := ⟨b! "file", some 102, .str⟩) (dflt := []) (by decide +kernel) rfl (by decide +kernel)
  have v3 := got_bool ha (c := .var .inPlace) (n := b! "in-place") (d := ⟨b! "in-place", some 105, .bool⟩) (by decide +kernel) rfl (by decide +kernel)
  have v4 := got_str ha (c := .var .outputFile) (n := b! "output") (d := ⟨b! "output", some 111, .str⟩) (dflt := []) (by decide +kernel) rfl (by decide +kernel)
  have v5 := got_str ha (c := .var .backupSuffix) (n := b! "backup") (d := ⟨b! "backup", none, .str⟩) (dflt := []) (by decide +kernel) rfl (by decide +kernel)
  have v6 := got_bool ha (c := .var .verbose) (n := b! "verbose") (d := ⟨b! "verbose", some 118, .bool⟩) (by decide +kernel) rfl (by decide +kernel)
  have v7 := got_bool ha (c := .var .quiet) (n := b! "quiet") (d := ⟨b! "quiet", some 113, .bool⟩) (by decide +kernel) rfl (by decide +kernel)
  have v8 := got_bool ha (c := .var .dryRun) (n := b! "dry-run") (d := ⟨b! "dry-run", some 110, .bool⟩) (by decide +kernel) rfl (by decide +kernel)
  have v9 := got_bool ha (c := .var .shell) (n := b! "shell") (d := ⟨b! "shell", none, .bool⟩) (by decide +kernel) rfl (by decide +kernel)
  have v10 := got_bool ha (c := .var .sexp) (n := b! "sexp") (d := ⟨b! "sexp", none, .bool⟩) (by decide +kernel) rfl (by decide +kernel)
  have v11 := got_bool ha (c := .var .json) (n := b! "json") (d := ⟨b! "json", none, .bool⟩) (by decide +kernel) rfl (by decide +kernel)
  have v12 := got_str ha (c := .var .outputFormat) (n := b! "output-format") (d := ⟨b! "output-format", none, .str⟩) (dflt := b! "shell") (by decide +kernel) rfl (by decide +kernel)
  have v13 : st'.lookup (b! "script") = some (.str (strSetting l (b! "script") [])) :=
    (hl ⟨⟨b! "script", some 115, .str⟩, .own (b! "script")⟩ (by decide +kernel)).trans <| congrArg some (got_str ha (c := .own (b! "script")) (d := ⟨b! "script", some 115, .str⟩) (by decide +kernel) rfl (by decide +kernel))
  have v14 : st'.lookup (b! "expression") = some (.strs fs) :=
    (hl ⟨⟨b! "expression", some 101, .slice⟩, .own (b! "expression")⟩ (by decide +kernel)).trans <| congrArg some (got_strs ha (c := .own (b! "expression")) (d := ⟨b! "expression", some 101, .slice⟩) (by decide +kernel) rfl (by decide +kernel) hfs)
  refine ⟨fs, cgEditCommand.passes.map (st'.args files), hfs, ?_, ?_⟩
  · rw [hs]; simp only [got_help help']; rfl
  · simp only [cgEditCommand, List.map_cons, List.map_nil, CgState.args, v1, v2, v3, v4, v5, v6, v7, v8, v9, v10, v11, v12, List.mapM_cons, List.mapM_nil,
      CgV.fg, v13, v14, C68_second_reading]
    rfl

/-- `texted edit WORDS`. -/
theorem edit_command (n d : Nat) (help : Bytes) (words : List Bytes) :
    cgFiles n (d + 5) help cgEditCommand words = fgFails (editMain help words) := by
  obtain ⟨h₁, _⟩ := start_ready editOpts_ready editOpts_sound editOpts_defs editFlags_good words
  rw [editMain]
  cases hp : parseWords editFlags words with
  | error e => rw [cgFiles, h₁ e hp]; rfl
  | ok lf =>
    obtain ⟨l, files⟩ := lf
    obtain ⟨fs, args, hfs, hs, ha⟩ := edit_start hp
    rw [cgFiles, hs]
    by_cases hb : boolSetting l (b! "help") = true
    · simp only [if_pos hb]; rfl
    · simp only [if_neg hb, ha]
      rw [C68_accepted _ _ _ (strings_set hfs), ← fg_runEdit (n := n) (d := d)]

/-- What `texted parse WORDS` calls. -/
theorem parse_start {words : List Bytes} {l : List (FlagDef × Bytes)} {files : List Bytes} (hp : parseWords parseFlags words = .ok (l, files)) :
    ∃ args, cgParseCommand.start words = (if boolSetting l (b! "help") = true then .help else .call .runParse args) ∧
      args.mapM CgV.fg = some [.str (strSetting l (b! "input-format") (b! "shell")), .str (strSetting l (b! "output-format") (b! "sexp"))] := by
  obtain ⟨h₁, h₂⟩ := start_ready parseOpts_ready parseOpts_sound parseOpts_defs parseFlags_good words
  obtain ⟨st', hf, _, fits, ha, hl, hs⟩ := h₂ l files hp
  have help' : st'.lookup (b! "help") = some (.bool (boolSetting l (b! "help"))) :=
    (hl ⟨helpFlag, .own (b! "help")⟩ (by decide +kernel)).trans
      (congrArg some (got_bool ha (c := .own (b! "help")) (d := helpFlag) (by decide +kernel) rfl (by decide +kernel)))
  have v1 := got_str ha (c := .var .inputFormat) (n := b! "input-format") (d := ⟨b! "input-format", none, .str⟩) (dflt := b! "shell") (by decide +kernel) rfl (by decide +kernel)
  have v2 := got_str ha (c := .var .outputFormat) (n := b! "output-format") (d := ⟨b! "output-format", none, .str⟩) (dflt := b! "sexp") (by decide +kernel) rfl (by decide +kernel)
  refine ⟨cgParseCommand.passes.map (st'.args files), ?_, ?_⟩
  · rw [hs]; simp only [got_help help']; rfl
  · simp only [cgParseCommand, List.map_cons, List.map_nil, CgState.args, v1, v2, List.mapM_cons, List.mapM_nil, CgV.fg]
    rfl

/-- `texted parse WORDS`. -/
theorem parse_command (n d : Nat) (help : Bytes) (words : List Bytes) :
    cgFiles n (d + 5) help cgParseCommand words = fgFails (parseMainProc help words) := by
  obtain ⟨h₁, h₂⟩ := start_ready parseOpts_ready parseOpts_sound parseOpts_defs parseFlags_good words
  rw [parseMainProc]
  cases hp : parseWords parseFlags words with
  | error e => rw [cgFiles, h₁ e hp]; rfl
  | ok lf =>
    obtain ⟨l, files⟩ := lf
    obtain ⟨args, hs, ha⟩ := parse_start hp
    rw [cgFiles, hs]
    by_cases hb : boolSetting l (b! "help") = true
    · simp only [if_pos hb]; rfl
    · simp only [if_neg hb, ha]
      exact fg_runParse _ _

/-- `texted test WORDS`. -/
theorem test_command (x : TgX) (n d : Nat) (help : Bytes) (words : List Bytes) (w : TgW) :
    cgShows x n d help cgTestCommand words w =
      match parseWords testFlags words with
      | .error e => .ret [.err e.text] w
      | .ok (l, files) =>
        if boolSetting l (b! "help") then .ret [.nil] (w.say help)
        else match setStringSlice (sliceSettings l (b! "include")) with
          | .error _ => .stuck
          | .ok pats => tgRun x n d .runTests
            (testCall
              { testFiles := files, includePatterns := pats, verbose := boolSetting l (b! "verbose"), quiet := boolSetting l (b! "quiet"),
                failOnly := boolSetting l (b! "fail-only"), «trace» := boolSetting l (b! "trace") }) w := by
  obtain ⟨h₁, h₂⟩ := start_ready testOpts_ready testOpts_sound testOpts_defs testFlags_good words
  cases hp : parseWords testFlags words with
  | error e => rw [cgShows, h₁ e hp]
  | ok lf =>
    obtain ⟨l, files⟩ := lf
    obtain ⟨st', hf, _, fits, ha, hl, hs⟩ := h₂ l files hp
    have help' : st'.lookup (b! "help") = some (.bool (boolSetting l (b! "help"))) :=
      (hl ⟨helpFlag, .own (b! "help")⟩ (by decide +kernel)).trans
        (congrArg some (got_bool ha (c := .own (b! "help")) (d := helpFlag) (by decide +kernel) rfl (by decide +kernel)))
    rw [cgShows, hs]
    simp only [got_help help']
    by_cases hb : boolSetting l (b! "help") = true
    · rw [if_pos hb, if_pos hb]; rfl
    · rw [if_neg hb, if_neg hb]
      obtain ⟨fs, hfs⟩ : ∃ fs, Strings (b! "include") l fs := slices fun s hs hn => by
        obtain ⟨h1, h2⟩ := fits s hs
        exact ⟨(by decide : ∀ f ∈ testFlags, f.name = b! "include" → f.kind = .slice) s.1 h1 hn, h2⟩
      have v1 := got_bool ha (c := .var .verbose) (n := b! "verbose") (d := ⟨b! "verbose", some 118, .bool⟩) (by decide +kernel) rfl (by decide +kernel)
      have v2 := got_bool ha (c := .var .quiet) (n := b! "quiet") (d := ⟨b! "quiet", some 113, .bool⟩) (by decide +kernel) rfl (by decide +kernel)
      have v3 := got_bool ha (c := .var .failOnly) (n := b! "fail-only") (d := ⟨b! "fail-only", none, .bool⟩) (by decide +kernel) rfl (by decide +kernel)
      have v4 := got_bool ha (c := .var .«trace») (n := b! "trace") (d := ⟨b! "trace", none, .bool⟩) (by decide +kernel) rfl (by decide +kernel)
      have v5 := got_strs ha (c := .var .«include») (n := b! "include") (d := ⟨b! "include", some 105, .slice⟩) (by decide +kernel) rfl (by decide +kernel) hfs
      have : (cgTestCommand.passes.map (st'.args files)).mapM CgV.tg =
          some (testCall
            { testFiles := files, includePatterns := fs, verbose := boolSetting l (b! "verbose"), quiet := boolSetting l (b! "quiet"),
              failOnly := boolSetting l (b! "fail-only"), «trace» := boolSetting l (b! "trace") }) := by
        simp only [cgTestCommand, List.map_cons, List.map_nil, CgState.args, v1, v2, v3, v4, v5, List.mapM_cons, List.mapM_nil, CgV.tg]
        rfl
      simp only [show cgTestCommand.calls = .runTests from rfl, this, strings_set hfs]

/-- `texted doc WORDS`. -/
theorem doc_command (x : TgX) (n d : Nat) (help : Bytes) (words : List Bytes) (w : TgW) :
    cgShows x n d help cgDocCommand words w =
      match parseWords docFlags words with
      | .error e => .ret [.err e.text] w
      | .ok (l, args) =>
        if boolSetting l (b! "help") then .ret [.nil] (w.say help)
        else tgRun x n d .runDoc [.strs args, .str (strSetting l (b! "category") []), .bool (boolSetting l (b! "verbose"))] w := by
  obtain ⟨h₁, h₂⟩ := start_ready docOpts_ready docOpts_sound docOpts_defs docFlags_good words
  cases hp : parseWords docFlags words with
  | error e => rw [cgShows, h₁ e hp]
  | ok lf =>
    obtain ⟨l, files⟩ := lf
    obtain ⟨st', hf, _, fits, ha, hl, hs⟩ := h₂ l files hp
    have help' : st'.lookup (b! "help") = some (.bool (boolSetting l (b! "help"))) :=
      (hl ⟨helpFlag, .own (b! "help")⟩ (by decide +kernel)).trans
        (congrArg some (got_bool ha (c := .own (b! "help")) (d := helpFlag) (by decide +kernel) rfl (by decide +kernel)))
    rw [cgShows, hs]
    simp only [got_help help']
    by_cases hb : boolSetting l (b! "help") = true
    · rw [if_pos hb, if_pos hb]; rfl
    · rw [if_neg hb, if_neg hb]
      have v1 := got_bool ha (c := .var .verbose) (n := b! "verbose") (d := ⟨b! "verbose", some 118, .bool⟩) (by decide +kernel) rfl (by decide +kernel)
      have v2 := got_str ha (c := .var .category) (n := b! "category") (d := ⟨b! "category", none, .str⟩) (dflt := []) (by decide +kernel) rfl (by decide +kernel)
      have : (cgDocCommand.passes.map (st'.args files)).mapM CgV.tg =
          some [.strs files, .str (strSetting l (b! "category") []), .bool (boolSetting l (b! "verbose"))] := by
        simp only [cgDocCommand, List.map_cons, List.map_nil, CgState.args, v1, v2, List.mapM_cons, List.mapM_nil, CgV.tg]
        rfl
      simp only [show cgDocCommand.calls = .runDoc from rfl, this]

end Texted
