import Verif.Lemmas.CgCommands
import Verif.Props.Main
import Verif.Props.Mcp
/-
C98: the program from the words of the command line on, the commands and options as they are declared in Go and the functions as they are
written in Go, is the program of the model; so are the tools of the server.
-/
set_option linter.unusedSectionVars false
namespace Texted
open Spec
variable [Ext]

/-! ### The commands -/

/-- **C98** `texted edit WORDS` (/repo/commands/edit.go:112-183 and everything it calls), as it is declared and written. -/
theorem C98_edit (help : Bytes) (words : List Bytes) : CommandDoes help cgEditCommand words (editMain help words) := ⟨0, 5, edit_command 0 0 help words⟩

/-- **C98** `texted parse WORDS` (/repo/commands/parse.go). -/
theorem C98_parse (help : Bytes) (words : List Bytes) : CommandDoes help cgParseCommand words (parseMainProc help words) := ⟨0, 5, parse_command 0 0 help words⟩

/-- The exit status that `main` makes of what a command comes to, and what has been printed. -/
def CgProgram.shown (p : CgProgram) : TgOut → Option (Nat × TgW)
  | .ret [] w => some (0, w)
  | .ret [.nil] w => some (0, w)
  | .ret [.err _] w => some (p.onError, w)
  | .exit k w => some (k.toNat, w)
  | _ => none

/-- **C98** `texted test WORDS` (/repo/commands/test.go, edlisp/testing), as it is declared and written: what it prints and the exit status
of the program are those of the model, for all words. -/
theorem C98_test (x : TgX) (help : Bytes) (words : List Bytes) (w : TgW) :
    ∃ o, CommandEnds x help cgTestCommand words w o ∧
      match testMain help x.load (globTests x.names) words with
      | some (s, k) => cgMain.shown o = some (k, w.say s)
      | none => o = .panic := by
  unfold CommandEnds
  simp only [test_command, testMain]
  cases hp : parseWords testFlags words with
  | error e => exact ⟨_, ⟨0, fun _ _ _ _ => rfl⟩, by simp [CgProgram.shown, cgMain, TgW.say]⟩
  | ok lf =>
    obtain ⟨l, files⟩ := lf
    simp only
    by_cases hb : boolSetting l (b! "help") = true
    · simp only [if_pos hb]; exact ⟨_, ⟨0, fun _ _ _ _ => rfl⟩, rfl⟩
    · simp only [if_neg hb]
      obtain ⟨fs, hfs⟩ : ∃ fs, Strings (b! "include") l fs := slices fun s hs hn => by
        obtain ⟨h1, h2⟩ := commandLine_fits ((parseWords_iff testFlags_good _ _ _).1 hp) s hs
        exact ⟨(by decide : ∀ f ∈ testFlags, f.name = b! "include" → f.kind = .slice) s.1 h1 hn, h2⟩
      simp only [strings_set hfs]
      refine ⟨_, (C96_runTests x _ w _).2 rfl, ?_⟩
      cases runTests x.load (globTests x.names) _ with
      | none => rfl
      | some r =>
        obtain ⟨s, k⟩ := r
        cases k with
        | zero => rfl
        | succ k => rfl

/-- **C98** `texted doc WORDS` (/repo/commands/doc.go, edlisp/documentation_registry.go): what can come of it is what the model says. -/
theorem C98_doc (x : TgX) (calls : List FunctionDoc) (help : Bytes) (words : List Bytes) (w : TgW) (hw : w.reg = registryOf calls) (out : Except Bytes Bytes) :
    DocMain help (strTitle x.title) (registryOf calls) words out ↔
      ∃ order, LawfulOrder order ∧ ∃ j, CommandEnds { x with order := order } help cgDocCommand words w (docOut { w with tick := j } out) := by
  unfold CommandEnds
  simp only [doc_command, DocMain]
  have const : ∀ o : TgOut, (∃ order, LawfulOrder order ∧ ∃ j, Eventually fun _ _ => o = docOut { w with tick := j } out) ↔
      ∃ j, o = docOut { w with tick := j } out := by
    intro o
    constructor
    · rintro ⟨_, _, j, N, h⟩; exact ⟨j, h N N (Nat.le_refl _) (Nat.le_refl _)⟩
    · rintro ⟨j, h⟩; exact ⟨_, range_lawful, j, 0, fun _ _ _ _ => h⟩
  cases hp : parseWords docFlags words with
  | error e =>
    simp only [const]
    constructor
    · rintro rfl; exact ⟨w.tick, rfl⟩
    · rintro ⟨j, h⟩
      cases out with
      | error e' => simp only [docOut] at h; injection h with h _; injection h with h _; injection h with h; rw [h]
      | ok s => simp only [docOut] at h; injection h with h _; injection h with h _; exact nomatch h
  | ok la =>
    obtain ⟨l, args⟩ := la
    simp only
    by_cases hb : boolSetting l (b! "help") = true
    · simp only [if_pos hb, const]
      constructor
      · rintro rfl; exact ⟨w.tick, rfl⟩
      · rintro ⟨j, h⟩
        cases out with
        | error e' => simp only [docOut] at h; injection h with h _; injection h with h _; exact nomatch h
        | ok s =>
          simp only [docOut] at h; injection h with _ h
          simp only [TgW.say, TgW.mk.injEq, List.append_cancel_left_eq] at h
          rw [h.1]
    · simp only [if_neg hb]
      exact C97_command x calls args _ _ w hw out

/-! ### The program -/

/-- What is chosen, in the terms of the model. -/
def CgPicked.plain : CgPicked → Picked
  | .root ws => .root ws
  | .command c ws => .sub c.name ws
  | .own name ws => .sub name ws
  | .unknown w => .unknown w

/-- **C98** Which command runs, with which words (/repo/cmd/texted/main.go:12-23): as in the model; and each name stands for its own function. -/
theorem C98_pick (words : List Bytes) : (cgMain.pick words).plain = pick words ∧
    cgMain.commands.map (fun c => (c.name, c.calls)) =
      [(b! "edit", .runEdit), (b! "parse", .runParse), (b! "test", .runTests), (b! "doc", .runDoc), (b! "mcp", .runMCPServer)] := by
  refine ⟨?_, by decide +kernel⟩
  unfold CgProgram.pick pick
  cases commandWords words with
  | nil => rfl
  | cons w ws =>
    simp only
    have hs : subcommands = cgMain.commands.map (·.name) ++ cobraCommands := by decide +kernel
    cases hf : cgMain.commands.find? (fun c => c.name = w) with
    | some c =>
      have h1 : c.name = w := by simpa using List.find?_some hf
      have h2 : w ∈ subcommands := by rw [hs, List.mem_append]; exact .inl (List.mem_map.2 ⟨c, List.mem_of_find?_eq_some hf, h1⟩)
      simp only [if_pos h2, CgPicked.plain, h1]
    | none =>
      have h1 : w ∉ cgMain.commands.map (·.name) := by
        intro h
        obtain ⟨c, hc, he⟩ := List.mem_map.1 h
        exact absurd (List.find?_eq_none.1 hf c hc) (by simpa using he)
      by_cases h2 : w ∈ cobraCommands
      · simp only [if_pos h2, CgPicked.plain, if_pos (show w ∈ subcommands by rw [hs, List.mem_append]; exact .inr h2)]
      · simp only [if_neg h2, CgPicked.plain, if_neg (show w ∉ subcommands by rw [hs, List.mem_append]; exact fun h => h.elim h1 h2)]

theorem command_of {words ws : List Bytes} {c : CgCommand} (h : cgMain.pick words = .command c ws) :
    c ∈ [cgEditCommand, cgParseCommand, cgTestCommand, cgDocCommand, cgMCPCommand] := by
  unfold CgProgram.pick at h
  split at h
  · exact nomatch h
  · split at h
    · rename_i hf
      injection h with h _
      exact h ▸ List.mem_of_find?_eq_some hf
    · split at h <;> exact nomatch h

theorem own_of {words ws : List Bytes} {name : Bytes} (h : cgMain.pick words = .own name ws) : name ∈ cobraCommands := by
  unfold CgProgram.pick at h
  split at h
  · exact nomatch h
  · split at h
    · exact nomatch h
    · split at h
      · rename_i hm; injection h with h _; exact h ▸ hm
      · exact nomatch h

/-- The exit status of the commands that return an error. -/
theorem status_fails (p : Proc (Option Bytes)) :
    ((fgFails p).bind fun o => .ret (cgMain.status o)) = (p.bind fun e => .ret (exitStatus e)).bind fun k => .ret (some k) := by
  rw [fgFails, proc_bind_assoc, proc_bind_assoc]
  congr 1
  funext e
  cases e <;> rfl

/-- With large enough bounds, the program of the model. -/
theorem run_model (n d : Nat) (helps : Bytes → Bytes) (others : Bytes → List Bytes → Proc Nat) (words : List Bytes) :
    cgMain.run n (d + 5) helps others words = (textedMain helps (withParse helps others) words).bind fun k => .ret (some k) := by
  have hp := (C98_pick words).1
  unfold CgProgram.run textedMain
  cases h : cgMain.pick words with
  | unknown w => rw [h] at hp; rw [← hp]; rfl
  | root ws =>
    rw [h] at hp; rw [← hp]
    simp only [CgPicked.plain]
    cases parseWords [helpFlag] ws with
    | error e => rfl
    | ok _ => rfl
  | own name ws =>
    have hn := own_of h
    rw [h] at hp; rw [← hp]
    simp only [CgPicked.plain]
    have h1 : name ≠ b! "edit" := fun e => by rw [e] at hn; revert hn; decide
    have h2 : name ≠ b! "parse" := fun e => by rw [e] at hn; revert hn; decide
    rw [if_neg h1, withParse, if_neg h2]
  | command c ws =>
    have hc := command_of h
    rw [h] at hp; rw [← hp]
    simp only [CgPicked.plain]
    simp only [List.mem_cons, List.not_mem_nil, or_false] at hc
    rcases hc with rfl | rfl | rfl | rfl | rfl
    · have e : cgEditCommand.name = b! "edit" := by decide +kernel
      rw [if_pos (.inl rfl), if_pos e, edit_command, status_fails, e]
    · have e : cgParseCommand.name = b! "parse" := by decide +kernel
      rw [if_pos (.inr rfl), if_neg (by rw [e]; decide), withParse, if_pos e, parse_command, status_fails, e]
    · have e : cgTestCommand.name = b! "test" := by decide +kernel
      rw [if_neg (by decide), if_neg (by rw [e]; decide), withParse, if_neg (by rw [e]; decide)]
    · have e : cgDocCommand.name = b! "doc" := by decide +kernel
      rw [if_neg (by decide), if_neg (by rw [e]; decide), withParse, if_neg (by rw [e]; decide)]
    · have e : cgMCPCommand.name = b! "mcp" := by decide +kernel
      rw [if_neg (by decide), if_neg (by rw [e]; decide), withParse, if_neg (by rw [e]; decide)]

theorem upto_cgFiles {n n' d d' : Nat} (hn : n ≤ n') (hd : d ≤ d') (help : Bytes) (c : CgCommand) (words : List Bytes) :
    Upto (cgFiles n d help c words) (cgFiles n' d' help c words) := by
  unfold cgFiles
  cases c.start words with
  | panics => exact upto_refl _
  | refused e => exact upto_refl _
  | help => exact upto_refl _
  | call f args =>
    cases f with
    | runEdit =>
      simp only
      cases args.mapM CgV.fg with
      | none => exact upto_refl _
      | some vs => exact upto_fgRun hn hd _ _
    | runParse =>
      simp only
      cases args.mapM CgV.fg with
      | none => exact upto_refl _
      | some vs => exact upto_fgRun hn hd _ _
    | _ => exact upto_refl _

theorem run_grows {n n' d d' : Nat} (hn : n ≤ n') (hd : d ≤ d') (helps : Bytes → Bytes) (others : Bytes → List Bytes → Proc Nat) (words : List Bytes) (w w' : World) :
    (Sees (cgMain.run n d helps others words) w w' → Sees (cgMain.run n' d' helps others words) w w') ∧
    ∀ k, Ends (cgMain.run n d helps others words) w (some k) w' → Ends (cgMain.run n' d' helps others words) w (some k) w' := by
  unfold CgProgram.run
  cases cgMain.pick words with
  | command c ws =>
    simp only
    by_cases hc : c.calls = .runEdit ∨ c.calls = .runParse
    · rw [if_pos hc, if_pos hc]
      have hu := upto_cgFiles hn hd (helps c.name) c ws
      constructor
      · intro h
        rcases sees_bind.1 h with h | ⟨o, w1, h1, h2⟩
        · exact sees_bind.2 (.inl (upto_sees hu h))
        · rw [sees_ret.1 h2]; exact sees_bind.2 (.inl (upto_sees hu (ends_sees h1)))
      · intro k h
        obtain ⟨o, w1, h1, h2⟩ := ends_bind.1 h
        obtain ⟨e, rfl⟩ := ends_ret.1 h2
        exact ends_bind.2 ⟨o, w', upto_ends hu (fun he => by subst he; exact nomatch e) h1, ends_ret.2 ⟨e, rfl⟩⟩
    · rw [if_neg hc, if_neg hc]; exact ⟨id, fun _ => id⟩
  | _ => exact ⟨id, fun _ => id⟩

/-- **C98** `texted WORDS`, from `main` on, as it is declared and written in Go, is the program of the model: the same actions in the same
order, whatever the replies, and the same exit status. (`others`: what the commands that do not edit or convert do.) -/
theorem C98_program (helps : Bytes → Bytes) (others : Bytes → List Bytes → Proc Nat) (words : List Bytes) :
    ProgramDoes cgMain helps others words (textedMain helps (withParse helps others) words) := ⟨0, 5, run_model 0 0 helps others words⟩

/-- **C98** What can be in the world at any moment of `texted WORDS`, and which exit status it can end with in which world, is exactly what the
model says. -/
theorem C98_program_exact (helps : Bytes → Bytes) (others : Bytes → List Bytes → Proc Nat) (words : List Bytes) (w w' : World) :
    (ProgramSees cgMain helps others words w w' ↔ Sees (textedMain helps (withParse helps others) words) w w') ∧
    ∀ k, ProgramEnds cgMain helps others words w k w' ↔ Ends (textedMain helps (withParse helps others) words) w k w' := by
  constructor
  · constructor
    · rintro ⟨n, d, h⟩
      have := (run_grows (Nat.le_refl n) (Nat.le_add_right d 5) helps others words w w').1 h
      rw [run_model] at this
      rcases sees_bind.1 this with h | ⟨o, w1, h1, h2⟩
      · exact h
      · rw [sees_ret.1 h2]; exact ends_sees h1
    · intro h
      exact ⟨0, 5, by rw [run_model 0 0]; exact sees_bind.2 (.inl h)⟩
  · intro k
    constructor
    · rintro ⟨n, d, h⟩
      have := (run_grows (Nat.le_refl n) (Nat.le_add_right d 5) helps others words w w').2 k h
      rw [run_model] at this
      obtain ⟨o, w1, h1, h2⟩ := ends_bind.1 this
      obtain ⟨e, rfl⟩ := ends_ret.1 h2
      injection e with e
      subst e; exact h1
    · intro h
      exact ⟨0, 5, by rw [run_model 0 0]; exact ends_bind.2 ⟨k, w', h, ends_ret.2 ⟨rfl, rfl⟩⟩⟩

/-! ### What follows for the files -/

/-- The error of the command is an exit status, and nothing else happens. -/
theorem program_edit (helps : Bytes → Bytes) (others : Bytes → List Bytes → Proc Nat) (ws : List Bytes) (w w' : World) :
    (ProgramSees cgMain helps others (b! "edit" :: ws) w w' ↔ Sees (editMain (helps (b! "edit")) ws) w w') ∧
    ∀ k, ProgramEnds cgMain helps others (b! "edit" :: ws) w k w' ↔
      ∃ r, Ends (editMain (helps (b! "edit")) ws) w r w' ∧ ((r = none ∧ k = 0) ∨ (r ≠ none ∧ k = 1)) := by
  obtain ⟨h1, h2⟩ := C98_program_exact helps others (b! "edit" :: ws) w w'
  obtain ⟨h3, h4⟩ := C76_edit helps (withParse helps others) ws w w'
  exact ⟨h1.trans h4, fun k => (h2 k).trans (h3 k)⟩

/-- **C98** Whatever else is on the command line, at no moment of `texted edit` is any file changed if `-i` is not on and no `-o` is given, or if
`-n` is on. -/
theorem C98_files_untouched (helps : Bytes → Bytes) (others : Bytes → List Bytes → Proc Nat) {ws : List Bytes} {l : List (FlagDef × Bytes)} {files : List Bytes}
    (hc : CommandLine editFlags ws l files) (h : (¬ On l (b! "in-place") ∧ Last l (b! "output") [] []) ∨ On l (b! "dry-run")) {w w' : World}
    (hs : ProgramSees cgMain helps others (b! "edit" :: ws) w w') : w'.files = w.files := by
  have hs := (program_edit helps others ws w w').1.1 hs
  by_cases hh : On l (b! "help")
  · rw [C71_help _ hc hh] at hs
    exact WritesNothing.sees (p := .act (.print (helps (b! "edit"))) fun _ => .ret none) (show WritesOnly (fun _ => False) (.act _ _) by simp [WritesOnly]) hs
  · obtain ⟨fs, h1, h2⟩ := C71_has_meaning hc
    rw [C71_meaning _ hc hh h2] at hs
    rcases h with ⟨hi, ho⟩ | hd
    · refine C33_no_output_no_write _ ?_ ?_ _ _ hs
      · exact Bool.eq_false_iff.2 fun e => hi (h2.inPlace.1 e)
      · have := h2.outputFile
        rw [strSetting_iff] at this ho
        rw [this, ← ho]
    · exact C32_dry_run_writes_nothing _ (h2.dryRun.2 hd) _ _ hs

/-- **C98** A command line of `texted edit` that is none: the exit status is 1, and nothing has been read, written or printed. -/
theorem C98_refused (helps : Bytes → Bytes) (others : Bytes → List Bytes → Proc Nat) (ws : List Bytes) (h : ∀ l files, ¬ CommandLine editFlags ws l files) (w w' : World) :
    (ProgramSees cgMain helps others (b! "edit" :: ws) w w' ↔ w' = w) ∧ ∀ k, ProgramEnds cgMain helps others (b! "edit" :: ws) w k w' ↔ k = 1 ∧ w' = w := by
  obtain ⟨h1, h2⟩ := program_edit helps others ws w w'
  obtain ⟨e, he⟩ := C71_refused (helps (b! "edit")) ws h
  rw [he] at h1
  simp only [he] at h2
  refine ⟨h1.trans sees_ret, fun k => (h2 k).trans ⟨?_, ?_⟩⟩
  · rintro ⟨r, h3, h4⟩
    obtain ⟨rfl, rfl⟩ := ends_ret.1 h3
    rcases h4 with ⟨h5, _⟩ | ⟨_, rfl⟩
    · exact nomatch h5
    · exact ⟨rfl, rfl⟩
  · rintro ⟨rfl, rfl⟩
    exact ⟨_, ends_ret.2 ⟨rfl, rfl⟩, .inr ⟨by simp, rfl⟩⟩

/-- **C98** The everyday command lines, down to the function of the model: `texted edit -s SCRIPT -- FILES...` and `texted edit -i -s SCRIPT -- FILES...`. -/
theorem C98_everyday (helps : Bytes → Bytes) (others : Bytes → List Bytes → Proc Nat) (script : Bytes) (files : List Bytes) :
    ProgramDoes cgMain helps others (b! "edit" :: b! "-s" :: script :: b! "--" :: files)
      ((runEdit { script := script, files := files }).bind fun e => .ret (exitStatus e)) ∧
    ProgramDoes cgMain helps others (b! "edit" :: b! "-i" :: b! "-s" :: script :: b! "--" :: files)
      ((runEdit { script := script, files := files, inPlace := true }).bind fun e => .ret (exitStatus e)) := by
  have key : ∀ ws, textedMain helps (withParse helps others) (b! "edit" :: ws) = (editMain (helps (b! "edit")) ws).bind fun e => .ret (exitStatus e) := by
    intro ws
    have hp : pick (b! "edit" :: ws) = .sub (b! "edit") ws := (C76_exact _ _ _).2 ⟨by decide, [], ws, .nil, rfl, rfl⟩
    simp only [textedMain, hp, if_true]
  obtain ⟨h1, h2, _⟩ := C71_everyday (helps (b! "edit")) script files
  constructor
  · have := C98_program helps others (b! "edit" :: b! "-s" :: script :: b! "--" :: files)
    rw [key, h1] at this; exact this
  · have := C98_program helps others (b! "edit" :: b! "-i" :: b! "-s" :: script :: b! "--" :: files)
    rw [key, h2] at this; exact this

/-! ### The server -/

/-- The options of `texted mcp`, registered. -/
def mcpOpts : CgState := cgMCPCommand.ready.get (by decide +kernel)

/-- **C98** The prefix of the names is the value of `--prefix` (/repo/commands/mcp.go:13-37), or empty. -/
theorem C98_prefix (words : List Bytes) :
    cgMCPCommand.start words =
      match parseWords [{ name := b! "prefix", kind := .str }, helpFlag] words with
      | .error e => .refused e
      | .ok (l, _) => if boolSetting l (b! "help") then .help else .call .runMCPServer [.val (.str (strSetting l (b! "prefix") []))] := by
  obtain ⟨h₁, h₂⟩ := start_ready (c := cgMCPCommand) (st := mcpOpts) (Option.some_get _).symm ⟨by decide +kernel, by decide +kernel, by decide +kernel⟩
    (defs := [{ name := b! "prefix", kind := .str }, helpFlag]) (by decide +kernel) ⟨by decide, by decide, by decide, by decide⟩ words
  cases hp : parseWords [{ name := b! "prefix", kind := .str }, helpFlag] words with
  | error e => exact h₁ e hp
  | ok lf =>
    obtain ⟨l, files⟩ := lf
    obtain ⟨st', hf, _, fits, ha, hl, hs⟩ := h₂ l files hp
    have help' : st'.lookup (b! "help") = some (.bool (boolSetting l (b! "help"))) :=
      (hl ⟨helpFlag, .own (b! "help")⟩ (by decide +kernel)).trans
        (congrArg some (got_bool ha (c := .own (b! "help")) (d := helpFlag) (by decide +kernel) rfl (by decide +kernel)))
    have v1 := got_str ha (c := .var .«prefix») (n := b! "prefix") (d := ⟨b! "prefix", none, .str⟩) (dflt := []) (by decide +kernel) rfl (by decide +kernel)
    rw [hs]
    simp only [got_help help', cgMCPCommand, List.map_cons, List.map_nil, CgState.args, v1]

theorem registered_eq (pre : Bytes) : cgServer.map (fun t => (t.1.registered pre, t.2)) =
    [(toolName pre (b! "edit_file"), .editFile), (toolName pre (b! "texted_eval"), .textedEval), (toolName pre (b! "texted_doc"), .textedDoc)] := by
  have h : ∀ t ∈ cgServer, t.1.registered pre = toolName pre t.1.name := by
    intro t ht
    simp only [cgServer, List.mem_cons, List.not_mem_nil, or_false] at ht
    by_cases hp : pre = [] <;> rcases ht with rfl | rfl | rfl <;>
      simp [hp, CgTool.registered, cgEditFileToolWithPrefix, cgTextedEvalToolWithPrefix, cgTextedDocToolWithPrefix, CgTest.eval, CgStr.eval, toolName]
  simp only [cgServer, List.mem_cons, List.not_mem_nil, or_false, forall_eq_or_imp, forall_eq] at h
  obtain ⟨h1, h2, h3⟩ := h
  simp only [cgServer, List.map_cons, List.map_nil, h1, h2, h3]
  rfl

/-- **C98** The tools that the server registers, with their parameters (/repo/commands/mcp.go:39-53, tools/*.go): the names are the prefix and the
name of the tool; each stands for its own handler, and no other name is registered. -/
theorem C98_tools (pre : Bytes) :
    cgServer.map (fun t => (t.1.registered pre, t.1.params)) = mcpTools pre ∧
    (∀ name, handlerOf pre name = some .editFile ↔ name = pre ++ b! "edit_file") ∧
    (∀ name, handlerOf pre name = some .textedEval ↔ name = pre ++ b! "texted_eval") ∧
    (∀ name, handlerOf pre name = some .textedDoc ↔ name = pre ++ b! "texted_doc") := by
  have e := registered_eq pre
  have hn : ∀ n, toolName pre n = pre ++ n := fun n => by unfold toolName; split <;> simp_all
  have key : ∀ name, handlerOf pre name = if pre ++ b! "texted_doc" = name then some .textedDoc else if pre ++ b! "texted_eval" = name then some .textedEval
      else if pre ++ b! "edit_file" = name then some .editFile else none := by
    intro name
    simp only [cgServer, List.map_cons, List.map_nil, List.cons.injEq, Prod.mk.injEq, hn] at e
    obtain ⟨⟨h1, _⟩, ⟨h2, _⟩, ⟨h3, _⟩, _⟩ := e
    simp only [handlerOf, cgFind, cgServer, List.reverse_cons, List.reverse_nil, List.nil_append, List.cons_append, List.find?_cons, List.find?_nil, h1, h2, h3]
    by_cases e1 : pre ++ b! "texted_doc" = name
    · simp [e1]
    · by_cases e2 : pre ++ b! "texted_eval" = name
      · simp [e1, e2]
      · by_cases e3 : pre ++ b! "edit_file" = name
        · simp [e1, e2, e3]
        · simp [e1, e2, e3]
  have d1 : pre ++ b! "texted_doc" ≠ pre ++ b! "texted_eval" := by simp
  have d2 : pre ++ b! "texted_doc" ≠ pre ++ b! "edit_file" := by simp
  have d3 : pre ++ b! "texted_eval" ≠ pre ++ b! "edit_file" := by simp
  refine ⟨?_, fun name => ?_, fun name => ?_, fun name => ?_⟩
  · simp only [cgServer, List.map_cons, List.map_nil, List.cons.injEq, Prod.mk.injEq] at e
    obtain ⟨⟨h1, _⟩, ⟨h2, _⟩, ⟨h3, _⟩, _⟩ := e
    simp only [cgServer, List.map_cons, List.map_nil, h1, h2, h3]
    rfl
  · rw [key]
    constructor
    · intro h; split at h
      · exact nomatch h
      · split at h
        · exact nomatch h
        · split at h
          · rename_i e; exact e.symm
          · exact nomatch h
    · rintro rfl; rw [if_neg d2, if_neg d3, if_pos rfl]
  · rw [key]
    constructor
    · intro h; split at h
      · exact nomatch h
      · split at h
        · rename_i e; exact e.symm
        · split at h <;> exact nomatch h
    · rintro rfl; rw [if_neg d1, if_pos rfl]
  · rw [key]
    constructor
    · intro h; split at h
      · rename_i e; exact e.symm
      · split at h
        · exact nomatch h
        · split at h <;> exact nomatch h
    · rintro rfl; rw [if_pos rfl]

/-- **C98** The answers of the server to a call, and what they leave in the files, are those of the model: for every prefix, every name and all
arguments. -/
theorem C98_server (x : TgX) (calls : List FunctionDoc) (tw : TgW) (htw : tw.reg = registryOf calls) (pre name : Bytes) (args : Json) (w w' : World) (a : McpAnswer) :
    ServerAnswers x tw pre name args w a w' ↔ ∃ fuel p, McpCall (registryOf calls) pre name args fuel p ∧ Ends p w (some a) w' := by
  have hn : ∀ n, toolName pre n = pre ++ n := fun n => by unfold toolName; split <;> simp_all
  obtain ⟨_, t1, t2, t3⟩ := C98_tools pre
  constructor
  · rintro (⟨h, hc⟩ | ⟨h, hc⟩ | ⟨h, ho, hc⟩ | h)
    · obtain ⟨fuel, he⟩ := ((C95_edit_tool _ args).1 _ _ _).1 hc
      exact ⟨fuel, _, .editFile (by rw [hn]; exact (t1 name).1 h), ends_bind.2 ⟨_, _, he, ends_ret.2 ⟨rfl, rfl⟩⟩⟩
    · have := ((C95_does (C95_eval_tool _ args)).2.2.1 _ _ _).1 hc
      rw [toolAndNil] at this
      obtain ⟨r, w1, h1, h2⟩ := ends_bind.1 this
      obtain ⟨e, rfl⟩ := ends_ret.1 h2
      injection e with e _; injection e with e
      subst e
      exact ⟨0, _, .textedEval (by rw [hn]; exact (t2 name).1 h), ends_bind.2 ⟨_, _, h1, ends_ret.2 ⟨rfl, rfl⟩⟩⟩
    · exact ⟨0, _, .textedDoc (by rw [hn]; exact (t3 name).1 h) ((C97_tool x calls args tw htw _).2 ⟨_, ho, _, hc⟩), ends_ret.2 ⟨rfl, rfl⟩⟩
    · refine ⟨0, _, .unknown ?_ ?_ ?_, ends_ret.2 ⟨rfl, rfl⟩⟩
      · rw [hn]; intro e; rw [(t1 name).2 e] at h; exact nomatch h
      · rw [hn]; intro e; rw [(t2 name).2 e] at h; exact nomatch h
      · rw [hn]; intro e; rw [(t3 name).2 e] at h; exact nomatch h
  · rintro ⟨fuel, p, h | h | ⟨h, hd⟩ | ⟨h1, h2, h3⟩, he⟩
    · rw [hn] at h
      obtain ⟨r, w1, h1, h2⟩ := ends_bind.1 he
      obtain ⟨e, rfl⟩ := ends_ret.1 h2
      cases r with
      | none => exact nomatch e
      | some r =>
        injection e with e
        subst e
        exact .editFile (ctx := .nil) ((t1 name).2 h) (((C95_edit_tool _ args).1 _ _ _).2 ⟨fuel, h1⟩)
    · rw [hn] at h
      obtain ⟨r, w1, h1, h2⟩ := ends_bind.1 he
      obtain ⟨e, rfl⟩ := ends_ret.1 h2
      injection e with e
      subst e
      refine .textedEval (ctx := .nil) ((t2 name).2 h) (((C95_does (C95_eval_tool _ args)).2.2.1 _ _ _).2 ?_)
      rw [toolAndNil]
      exact ends_bind.2 ⟨_, _, h1, ends_ret.2 ⟨rfl, rfl⟩⟩
    · rw [hn] at h
      obtain ⟨e, rfl⟩ := ends_ret.1 he
      injection e with e
      subst e
      obtain ⟨order, ho, j, hj⟩ := (C97_tool x calls args tw htw _).1 hd
      exact .textedDoc ((t3 name).2 h) ho hj
    · rw [hn] at h1 h2 h3
      obtain ⟨e, rfl⟩ := ends_ret.1 he
      injection e with e
      subst e
      refine .unknown ?_
      cases hh : handlerOf pre name with
      | none => rfl
      | some k =>
        cases k with
        | editFile => exact absurd ((t1 name).1 hh) h1
        | textedEval => exact absurd ((t2 name).1 hh) h2
        | textedDoc => exact absurd ((t3 name).1 hh) h3

/-! ### Concrete cases -/

/-- How the program ends from the words on, all bounds 9: its exit status, a file, and what is printed. -/
def endOf (words : List Bytes) (w : World) (file : Bytes) : Option (Option Nat) × Option Bytes × Bytes :=
  let r := runOk (fun _ => []) (@CgProgram.run litExt cgMain 9 9 (fun _ => b! "HELP") (fun _ _ => .ret 7) words) w
  (r.1, r.2.files file, r.2.out)

/-- Words, from `main` on: in place with a backup, to standard output, two options in one word, a dry run, `-e`, refused words, an unknown
command, help, `parse`, and a command that is passed on. -/
example :
    [([b! "edit", b! "-i", b! "--backup=.bak", b! "-s", dropX, b! "a"], b! "a"),
     ([b! "edit", b! "-i", b! "--backup=.bak", b! "-s", dropX, b! "a"], b! "a.bak"),
     ([b! "edit", b! "a", b! "-s", dropX], b! "a"),
     ([b! "edit", b! "-is", dropX, b! "a"], b! "a"),
     ([b! "edit", b! "-ins", dropX, b! "a"], b! "a"),
     ([b! "edit", b! "-e", b! "end-of-buffer,point", b! "a"], b! "a"),
     ([b! "edit", b! "-x", b! "a"], b! "a"),
     ([b! "edti", b! "-i"], b! "a"),
     ([b! "edit", b! "-i", b! "--help"], b! "a"),
     ([b! "parse", b! "--output-format", b! "json"], b! "a"),
     ([b! "test"], b! "a")].map (fun t => endOf t.1 { pairWorld with input := b! "goto-char 3" } t.2) =
    [(some (some 0), some (b! "ay"), b! "✓ Successfully edited a\n"),
     (some (some 0), some (b! "xay"), b! "✓ Successfully edited a\n"),
     (some (some 0), some (b! "xay"), b! "ay"),
     (some (some 0), some (b! "ay"), b! "✓ Successfully edited a\n"),
     (some (some 0), some (b! "xay"), b! "Would edit a in place\n"),
     (some (some 0), some (b! "xay"), b! "\"\"\n4\n"),
     (some (some 1), some (b! "xay"), b! ""),
     (some (some 1), some (b! "xay"), b! ""),
     (some (some 0), some (b! "xay"), b! "HELP"),
     (some (some 0), some (b! "xay"), b! "[\"goto-char\",3]\n"),
     (some (some 7), some (b! "xay"), b! "")] := by
  decide +kernel

/-- `texted test` and `texted doc`, from the words on. -/
example :
    shownEnd (@cgShows litExt threeTests 20 20 [] cgTestCommand [b! "--trace", b! "-q", b! "tests/a.xml"] ⟨[], [], 0⟩) =
      some (0, b! "TRACE: Executed instruction: (insert \"x\")\n  Buffer content: \"xab\"\n  Point: 2, Mark: 1\n\n\nTests: 1 passed, 0 failed, 1 total\n") ∧
    docPrinted (@cgShows litExt (docWorld fun _ n => List.range n) 9 9 [] cgDocCommand [b! "-v", b! "--category", b! "position"] ⟨[], registryOf fourDocs, 0⟩) =
      some (true, b! "Functions in category 'position':\n\n## Position\n\n- **goto-char**: \n- **point**: Where point is\n\n") := by
  decide +kernel

/-- The hypotheses of `C98_files_untouched` are met by `-s SCRIPT a`, and by `-i -n -s SCRIPT a`; those of `C98_refused` by `--version`. -/
example : letI := litExt
    (∃ l files, CommandLine editFlags [b! "-s", dropX, b! "a"] l files ∧ ¬ On l (b! "in-place") ∧ Last l (b! "output") [] []) ∧
    (∃ l files, CommandLine editFlags [b! "-i", b! "-n", b! "-s", dropX, b! "a"] l files ∧ On l (b! "dry-run")) ∧
    ∀ l files, ¬ CommandLine editFlags [b! "--version"] l files := by
  letI := litExt
  refine ⟨⟨_, _, (parseWords_iff editFlags_good _ _ _).1 rfl, ?_, ?_⟩, ⟨_, _, (parseWords_iff editFlags_good _ _ _).1 rfl, ?_⟩, fun l files h => ?_⟩
  · intro h
    have := (bools ((parseWords_iff editFlags_good [b! "-s", dropX, b! "a"] _ _).1 rfl) (n := b! "in-place") (by decide)).2 h
    revert this; decide +kernel
  · rw [strSetting_iff]; decide +kernel
  · exact (bools ((parseWords_iff editFlags_good [b! "-i", b! "-n", b! "-s", dropX, b! "a"] _ _).1 rfl) (n := b! "dry-run") (by decide)).1 (by decide +kernel)
  · have := parseWords_complete editFlags_good h
    have e : (match parseWords editFlags [b! "--version"] with | .ok _ => true | .error _ => false) = false := by decide +kernel
    rw [this] at e; exact nomatch e

/-- The names of the tools with and without a prefix. -/
example : handlerOf (b! "t_") (b! "t_texted_doc") = some .textedDoc ∧ handlerOf (b! "t_") (b! "texted_doc") = none ∧ handlerOf [] (b! "edit_file") = some .editFile := by
  decide +kernel

end Texted
