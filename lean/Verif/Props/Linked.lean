import Verif.Lemmas.LinkEdit
import Verif.Props.FgSource
import Verif.Props.CgSource
import Verif.Props.GoScript
/-
C99: the packages of /repo linked together, everything as it is written in Go.
-/
set_option linter.unusedSectionVars false
namespace Texted
open Spec

theorem upto_ends_back {p q : Proc FgOut} (h : Upto p q) {w w' : World} {o : FgOut} (hn : ∀ w', ¬ Ends p w .spin w') (he : Ends q w o w') : Ends p w o w' := by
  induction h generalizing w with
  | spin q => exact absurd (ends_ret.2 ⟨rfl, rfl⟩) (hn w)
  | ret o => exact he
  | panic => exact he
  | act a _ ih =>
    obtain ⟨r, w1, h1, h2⟩ := ends_act.1 he
    exact ends_act.2 ⟨r, w1, h1, ih r (fun w' h => hn w' (ends_act.2 ⟨r, w1, h1, h⟩)) h2⟩

theorem upto_sees_back {p q : Proc FgOut} (h : Upto p q) {w w' : World} (hn : ∀ w', ¬ Ends p w .spin w') (he : Sees q w w') : Sees p w w' := by
  induction h generalizing w with
  | spin q => exact absurd (ends_ret.2 ⟨rfl, rfl⟩) (hn w)
  | ret o => exact he
  | panic => exact he
  | act a _ ih =>
    rcases sees_act.1 he with h | ⟨r, w1, h1, h2⟩
    · exact sees_act.2 (.inl h)
    · exact sees_act.2 (.inr ⟨r, w1, h1, ih r (fun w' h => hn w' (ends_act.2 ⟨r, w1, h1, h⟩)) h2⟩)

section
variable [Ext] [LawfulExt] {L : Linking} {f : FgFn} {args : List FgV} {w w' : World}

theorem linked_upto (hL : Linking.Real L) (m e n d : Nat) : Upto (linkedRun (Linking.upTo L m e) n d f args) (fgRunBy (fittingOp L.mem) n d f args) :=
  upto_runBy (op_upto hL m e) (Nat.le_refl n) (Nat.le_refl d) f args

theorem fitting_run (m : Memory) (n d : Nat) : Upto (fgRunBy (fittingOp m) n d f args) (fgRun n d f args) := by
  rw [← run_modelOp]
  exact upto_runBy (fitting_upto m) (Nat.le_refl n) (Nat.le_refl d) f args

theorem linked_ends (hL : Linking.Real L) (vs : List FgV) :
    LinkedEnds L f args w vs w' ↔ ∃ n d, Ends (fgRunBy (fittingOp L.mem) n d f args) w (.ret vs) w' := by
  constructor
  · rintro ⟨m, e, n, d, h⟩
    exact ⟨n, d, upto_ends (linked_upto hL m e n d) (fun h => nomatch h) h⟩
  · rintro ⟨n, d, h⟩
    obtain ⟨k, hk⟩ := (reaches_run hL n d f args).ends _ _ _ h
    exact ⟨k, k, n, d, hk k (Nat.le_refl k)⟩

theorem linked_sees (hL : Linking.Real L) : LinkedSees L f args w w' ↔ ∃ n d, Sees (fgRunBy (fittingOp L.mem) n d f args) w w' := by
  constructor
  · rintro ⟨m, e, n, d, h⟩
    exact ⟨n, d, upto_sees (linked_upto hL m e n d) h⟩
  · rintro ⟨n, d, h⟩
    obtain ⟨k, hk⟩ := (reaches_run hL n d f args).sees _ _ h
    exact ⟨k, k, n, d, hk k (Nat.le_refl k)⟩

/-- **C99** Whatever a function of texted.go, commands or tools does when everything it calls — parsers, evaluator, built-in functions, writers —
runs as it is written in Go, it does with the operations of the model: the results, the files, what is printed, at the end and at every moment
between. (So C95, and what follows from it, is about the linked program.) -/
theorem C99_safe (hL : Linking.Real L) :
    (∀ vs, LinkedEnds L f args w vs w' → CallEnds f args w vs w') ∧ (LinkedSees L f args w w' → CallSees f args w w') := by
  constructor
  · intro vs h
    obtain ⟨n, d, h⟩ := (linked_ends hL vs).1 h
    exact ⟨n, d, upto_ends (fitting_run L.mem n d) (fun h => nomatch h) h⟩
  · intro h
    obtain ⟨n, d, h⟩ := (linked_sees hL).1 h
    exact ⟨n, d, upto_sees (fitting_run L.mem n d) h⟩

/-- **C99** And as long as it stays within the memory, it does all of it: nothing that the model says is missing in the linked program. -/
theorem C99_exact (hL : Linking.Real L) (hm : StaysIn L.mem f args w) :
    (∀ vs, LinkedEnds L f args w vs w' ↔ CallEnds f args w vs w') ∧ (LinkedSees L f args w w' ↔ CallSees f args w w') := by
  obtain ⟨n₀, d₀, hn⟩ := hm
  have grow : ∀ n d, n₀ ≤ n → d₀ ≤ d → ∀ w', ¬ Ends (fgRunBy (fittingOp L.mem) n d f args) w .spin w' := fun n d h1 h2 w' he =>
    hn w' (upto_ends_back (upto_runBy (fun o vs => uptoL_refl _) h1 h2 f args) hn he)
  refine ⟨fun vs => ⟨(C99_safe hL).1 vs, ?_⟩, (C99_safe hL).2, ?_⟩
  · rintro ⟨n, d, h⟩
    have h' := upto_ends (o := .ret vs) (upto_fgRun (Nat.le_max_right n₀ n) (Nat.le_max_right d₀ d) f args) (fun h => nomatch h) h
    exact (linked_ends hL vs).2 ⟨_, _, upto_ends_back (fitting_run L.mem _ _) (grow _ _ (Nat.le_max_left ..) (Nat.le_max_left ..)) h'⟩
  · rintro ⟨n, d, h⟩
    have h' := upto_sees (upto_fgRun (Nat.le_max_right n₀ n) (Nat.le_max_right d₀ d) f args) h
    exact (linked_sees hL).2 ⟨_, _, upto_sees_back (fitting_run L.mem _ _) (grow _ _ (Nat.le_max_left ..) (Nat.le_max_left ..)) h'⟩

/-! ### The program -/

theorem linkedFiles_upto (hL : Linking.Real L) (m e n d : Nat) (help : Bytes) (c : CgCommand) (words : List Bytes) :
    Upto (linkedFiles (Linking.upTo L m e) n d help c words) (cgFiles n d help c words) := by
  have key : ∀ f args, Upto (linkedRun (Linking.upTo L m e) n d f args) (fgRun n d f args) := by
    intro f args
    rw [← run_modelOp]
    refine upto_runBy (fun o vs => ?_) (Nat.le_refl n) (Nat.le_refl d) f args
    have h1 := op_upto hL m e o vs
    have h2 := fitting_upto L.mem o vs
    generalize fittingOp L.mem o vs = q at h1 h2
    clear hL
    generalize (Linking.upTo L m e).op o vs = p at h1
    generalize modelOp o vs = r at h2
    induction h1 generalizing r with
    | spin q => exact .spin _
    | ret o => exact h2
    | panic => exact h2
    | act a _ ih => cases h2 with | act _ h2 => exact .act a fun x => ih x _ (h2 x)
  unfold linkedFiles cgFiles
  generalize c.start words = s
  cases s with
  | call g args =>
    cases g <;> first
      | exact upto_refl _
      | (dsimp only; generalize args.mapM CgV.fg = a; cases a <;> first | exact upto_refl _ | exact key _ _)
  | _ => exact upto_refl _

/-- **C99** `texted WORDS`, from `main` on, linked with all packages: at every moment the world is one that the model of the program can lead to,
and it ends with the exit status and the world that the model says. -/
theorem C99_program (hL : Linking.Real L) (helps : Bytes → Bytes) (others : Bytes → List Bytes → Proc Nat) (words : List Bytes) :
    (LinkedProgramSees L cgMain helps others words w w' → Sees (textedMain helps (withParse helps others) words) w w') ∧
    ∀ k, LinkedProgramEnds L cgMain helps others words w k w' → Ends (textedMain helps (withParse helps others) words) w k w' := by
  obtain ⟨h₁, h₂⟩ := C98_program_exact helps others words w w'
  constructor
  · rintro ⟨m, e, n, d, h⟩
    refine h₁.1 ⟨n, d, ?_⟩
    unfold CgProgram.linked at h
    unfold CgProgram.run
    generalize cgMain.pick words = pk at h ⊢
    cases pk with
    | unknown _ => exact h
    | root _ => exact h
    | own _ _ => exact h
    | command c ws =>
      dsimp only at h ⊢
      by_cases hc : c.calls = .runEdit ∨ c.calls = .runParse
      · rw [if_pos hc] at h ⊢
        rcases sees_bind.1 h with h | ⟨o, w1, h1, h2⟩
        · exact sees_bind.2 (.inl (upto_sees (linkedFiles_upto hL m e n d _ c ws) h))
        · rw [sees_ret.1 h2]
          exact sees_bind.2 (.inl (upto_sees (linkedFiles_upto hL m e n d _ c ws) (ends_sees h1)))
      · rw [if_neg hc] at h ⊢; exact h
  · rintro k ⟨m, e, n, d, h⟩
    refine (h₂ k).1 ⟨n, d, ?_⟩
    unfold CgProgram.linked at h
    unfold CgProgram.run
    generalize cgMain.pick words = pk at h ⊢
    cases pk with
    | unknown _ => exact h
    | root _ => exact h
    | own _ _ => exact h
    | command c ws =>
      dsimp only at h ⊢
      by_cases hc : c.calls = .runEdit ∨ c.calls = .runParse
      · rw [if_pos hc] at h ⊢
        obtain ⟨o, w1, h1, h2⟩ := ends_bind.1 h
        refine ends_bind.2 ⟨o, w1, upto_ends (linkedFiles_upto hL m e n d _ c ws) ?_ h1, h2⟩
        rintro rfl
        exact nomatch (ends_ret.1 h2).1
      · rw [if_neg hc] at h ⊢; exact h

/-! ### Calls that stay within the memory -/

/-- **C99** `ExecuteScript` and `ExecuteScriptWithFormat`, linked: if the script and the text fit into memory, the call gives exactly the text or the
error of the model (C28), and changes nothing. -/
theorem C99_execute (hL : Linking.Real L) (input script format : Bytes) (vs : List FgV) :
    (FitsIn L.mem input script (b! "shell") →
      (LinkedEnds L .ExecuteScript [.str input, .str script] w vs w' ↔ Ends (textAndError (executeScript input script)) w vs w')) ∧
    (FitsIn L.mem input script format →
      (LinkedEnds L .ExecuteScriptWithFormat [.str input, .str script, .str format] w vs w' ↔
        Ends (textAndError (executeScriptWithFormat input script format)) w vs w')) := by
  obtain ⟨_, h1, h2⟩ := C95_execute input script format
  exact ⟨fun h => ((C99_exact hL (stays_ExecuteScript h)).1 vs).trans ((C95_does h1).2.2.1 _ _ _),
    fun h => ((C99_exact hL (stays_ExecuteScriptWithFormat h)).1 vs).trans ((C95_does h2).2.2.1 _ _ _)⟩

/-- **C99** `EditFile`, linked (C29): if the script and the contents of the file fit into memory, the call can return the error `e` (nil without
one) and leave the file so exactly if that is an outcome of editing it, and nothing else changes. -/
theorem C99_edit_file (hL : Linking.Real L) (file script : Bytes) (hf : ∀ c, w.files file = some c → FitsIn L.mem c script (b! "shell")) (e : Option Bytes) :
    LinkedEnds L .EditFile [.str file, .str script] w [fgError e] w' ↔
      EditOutcome (fun c => executeScript c script) file (w.files file) e (w'.files file) ∧ SameExcept file w w' :=
  ((C99_exact hL (stays_EditFile hf)).1 _).trans (C95_edit_file_outcomes file script e)

/-- **C99** `texted edit` with a script, linked: any flags, any number of files (different names, no backup in the place of one of them). If the
script and the texts fit into memory, the command does at every moment, and returns at the end, exactly what the model of the command says. -/
theorem C99_edit (hL : Linking.Real L) (a : EditArgs) (he : a.expressions = []) (hn : a.files.Nodup)
    (hc : ∀ f ∈ a.files, ∀ g ∈ a.files, a.backupSuffix ≠ [] → f ++ a.backupSuffix ≠ g)
    (hf : ∀ script, ScriptOf a w script →
      (∀ f ∈ a.files, ∀ c, w.files f = some c → FitsIn L.mem c script a.format) ∧ (a.files = [] → FitsIn L.mem w.input script a.format)) :
    (∀ e, LinkedEnds L .runEdit (editCall a) w [fgError e] w' ↔ Ends (runEdit a) w e w') ∧
    (LinkedSees L .runEdit (editCall a) w w' ↔ Sees (runEdit a) w w') := by
  obtain ⟨h1, h2⟩ := C99_exact (w' := w') hL (stays_runEdit a w he hn hc hf)
  exact ⟨fun e => (h1 _).trans edit_ends, h2.trans edit_sees⟩

/-- **C99** After a successful `texted edit --in-place --backup`, linked (C31), every file holds the output of the script and its backup the
original — whether or not everything fits into memory; and at every moment before, the original is in one of the two places. -/
theorem C99_in_place (hL : Linking.Real L) (a : EditArgs) (hi : a.inPlace = true) (he : a.expressions = []) (hd : a.dryRun = false) (hf : a.files ≠ [])
    (hs : a.backupSuffix ≠ []) (hnd : a.files.Nodup) (hcol : ∀ f ∈ a.files, ∀ g ∈ a.files, f ++ a.backupSuffix ≠ g) :
    (LinkedEnds L .runEdit (editCall a) w [.nil] w' →
      ∃ script, ScriptOf a w script ∧ ∀ f ∈ a.files, ∃ c t, w.files f = some c ∧ executeScriptWithFormat c script a.format = .ok t ∧
        w'.files f = some t ∧ w'.files (f ++ a.backupSuffix) = some c) ∧
    (LinkedSees L .runEdit (editCall a) w w' → ∀ file c, file ∈ a.files → w.files file = some c →
      w'.files file = some c ∨ w'.files (file ++ a.backupSuffix) = some c) :=
  ⟨fun h => C95_in_place a hi he hd hf hs hnd hcol ((C99_safe hL).1 _ h),
    fun h file c hm hc => C95_original_survives a hi hs hnd hcol ((C99_safe hL).2 h) file c hm hc⟩

/-- **C99** A successful `texted edit` of standard input or one file, linked (C33): what it delivers is the script's output on that text. -/
theorem C99_delivered (hL : Linking.Real L) (a : EditArgs) (hi : a.inPlace = false) (hf : a.files.length ≤ 1) (he : a.expressions = [])
    (hd : a.dryRun = false) (hl : a.verbose = false) (h : LinkedEnds L .runEdit (editCall a) w [.nil] w') :
    ∃ script c t, ScriptOf a w script ∧ InputOf a w c ∧ executeScriptWithFormat c script a.format = .ok t ∧ Delivered a w w' t :=
  C95_delivered a hi hf he hd hl ((C99_safe hL).1 _ h)

theorem pick_edit (ws : List Bytes) : cgMain.pick (b! "edit" :: ws) = .command cgEditCommand ws := by
  have hp : pick (b! "edit" :: ws) = .sub (b! "edit") ws := (C76_exact _ _ _).2 ⟨by decide, [], ws, .nil, rfl, rfl⟩
  have h := (C98_pick (b! "edit" :: ws)).1
  rw [hp] at h
  cases hk : cgMain.pick (b! "edit" :: ws) with
  | unknown _ => rw [hk] at h; exact nomatch h
  | root _ => rw [hk] at h; exact nomatch h
  | own name _ =>
    have hn := own_of hk
    rw [hk] at h
    simp only [CgPicked.plain, Picked.sub.injEq] at h
    rw [h.1] at hn
    exact absurd hn (by decide)
  | command c ws' =>
    have hc := command_of hk
    rw [hk] at h
    simp only [CgPicked.plain, Picked.sub.injEq] at h
    obtain ⟨h1, rfl⟩ := h
    simp only [List.mem_cons, List.not_mem_nil, or_false] at hc
    rcases hc with rfl | rfl | rfl | rfl | rfl
    · rfl
    all_goals exact absurd h1 (by decide +kernel)

/-- **C99** `texted edit WORDS` from `main` on, linked: for words that mean `a` (C71), with a script and not `--help`; different names of files, no
backup in the place of one of them. If the script and the texts fit into memory, what can be in the world at any moment is exactly what the model
of the command says, and it ends with status 0 exactly where the model ends without an error, with 1 exactly where it ends with one. -/
theorem C99_program_edit (hL : Linking.Real L) (helps : Bytes → Bytes) (others : Bytes → List Bytes → Proc Nat) {ws : List Bytes} {l : List (FlagDef × Bytes)}
    {files : List Bytes} (hcl : CommandLine editFlags ws l files) (hh : ¬ On l (b! "help")) {a : EditArgs} (ha : EditMeaning l files a)
    (he : a.expressions = []) (hn : a.files.Nodup) (hc : ∀ f ∈ a.files, ∀ g ∈ a.files, a.backupSuffix ≠ [] → f ++ a.backupSuffix ≠ g)
    (hf : ∀ script, ScriptOf a w script →
      (∀ f ∈ a.files, ∀ c, w.files f = some c → FitsIn L.mem c script a.format) ∧ (a.files = [] → FitsIn L.mem w.input script a.format)) :
    (LinkedProgramSees L cgMain helps others (b! "edit" :: ws) w w' ↔ Sees (runEdit a) w w') ∧
    ∀ k, LinkedProgramEnds L cgMain helps others (b! "edit" :: ws) w k w' ↔
      ∃ r, Ends (runEdit a) w r w' ∧ ((r = none ∧ k = 0) ∨ (r ≠ none ∧ k = 1)) := by
  obtain ⟨h₁, h₂⟩ := C99_program (w := w) (w' := w') hL helps others (b! "edit" :: ws)
  obtain ⟨h₃, h₄⟩ := C76_edit helps (withParse helps others) ws w w'
  obtain ⟨h₅, h₆⟩ := C99_edit (w' := w') hL a he hn hc hf
  rw [C71_meaning _ hcl hh ha] at h₄
  simp only [C71_meaning _ hcl hh ha] at h₃
  have linked : ∀ m e n d, cgMain.linked (Linking.upTo L m e) n d helps others (b! "edit" :: ws) =
      (linkedRun (Linking.upTo L m e) n d .runEdit (editCall a)).bind fun o => .ret (cgMain.status o) := by
    intro m e n d
    have hb : ¬ boolSetting l (b! "help") = true := fun hx => hh ((bools hcl (by decide)).1 hx)
    obtain ⟨fs, args, hfs, hs, hm⟩ := edit_start (parseWords_complete editFlags_good hcl)
    have hone : EditMeaning l files { editArgs l files with expressions := if fs = [[]] then [] else fs.map unCRLF } := by
      constructor <;> first
        | exact (strSetting_iff _ _ _ _).2 rfl
        | exact bools hcl (by decide)
        | exact ⟨fs, hfs, rfl⟩
        | rfl
    rw [← C71_one_meaning ha hone] at hm
    rw [if_neg hb] at hs
    unfold CgProgram.linked
    rw [pick_edit]
    simp only
    rw [if_pos (.inl rfl), linkedFiles, hs]
    simp only [hm]
    rfl
  refine ⟨⟨fun h => h₄.1 (h₁ h), fun h => ?_⟩, fun k => ⟨fun h => (h₃ k).1 (h₂ k h), ?_⟩⟩
  · obtain ⟨m, e, n, d, h⟩ := h₆.2 h
    exact ⟨m, e, n, d, by rw [linked]; exact sees_bind.2 (.inl h)⟩
  · rintro ⟨r, h, hk⟩
    obtain ⟨m, e, n, d, h⟩ := (h₅ r).2 h
    refine ⟨m, e, n, d, ?_⟩
    rw [linked]
    refine ends_bind.2 ⟨_, _, h, ends_ret.2 ⟨?_, rfl⟩⟩
    rcases hk with ⟨rfl, rfl⟩ | ⟨hr, rfl⟩
    · rfl
    · cases r with
      | none => exact absurd rfl hr
      | some t => rfl

end

/-! ### A linked program -/

open Classical in
/-- The memory of a computer: everything that `Memory.Real` allows. -/
noncomputable def fullMemory [Ext] : Memory where
  text := fun s => decide (Held s.length)
  jsonText := fun s => decide (Held s.length ∧ IsArray s)
  run := fun p b => decide (Held (Value.partsAll p) ∧ Reached b ∧ ∀ c ∈ scriptCalls defaultEnv p b, Small c.args c.buf)

/-- There is such a program: the hypothesis of the theorems is met, with a memory that takes everything a computer can. -/
theorem C99_real [Ext] : ∃ L : Linking, Linking.Real L ∧ L.mem = fullMemory := by
  obtain ⟨env, he⟩ := C93_runs
  exact ⟨⟨fullMemory, env, fun _ => [], 0, 0⟩, ⟨⟨fun s h => of_decide_eq_true h, fun s h => @of_decide_eq_true _ (_) h, fun p b h => @of_decide_eq_true _ (_) h⟩, he⟩, rfl⟩

/-- The script of the example and the file fit. -/
theorem dropX_fits : letI := litExt; FitsIn fullMemory (b! "xay") dropX (b! "shell") := by
  letI := litExt
  refine ⟨by rw [if_neg (by decide)]; exact (decide_eq_true (show Held dropX.length by decide) : decide (Held dropX.length) = true), fun p hp => @decide_eq_true _ (_) ?_⟩
  have hp' : parseScript (b! "shell") dropX = .ok [.list [.sym (b! "search-forward"), .str (b! "x")], .list [.sym (b! "replace-match"), .str []]] := by
    with_unfolding_all rfl
  rw [hp'] at hp
  cases hp
  refine ⟨by decide, .new _, ?_⟩
  have e : (scriptCalls defaultEnv [.list [.sym (b! "search-forward"), .str (b! "x")], .list [.sym (b! "replace-match"), .str []]] (newBuffer (b! "xay"))).map (fun c => (c.args, c.buf)) =
      [([.str (b! "x")], newBuffer (b! "xay")), ([.str []], { content := b! "xay", point := 2, mark := 1, lastMatch := b! "x", lastStart := 1, lastEnd := 2 })] := by rfl
  intro c hc
  have := List.mem_map_of_mem (f := fun c : ACall => (c.args, c.buf)) hc
  rw [e] at this
  simp only [List.mem_cons, List.not_mem_nil, or_false, Prod.mk.injEq] at this
  rcases this with ⟨ha, hb⟩ | ⟨ha, hb⟩ <;> rw [ha, hb] <;> exact small_lit (by decide) (by decide) (by simp)

/-- All hypotheses are met together: the linked program edits the file `a` in place and keeps the original in `a.bak`. -/
example : letI := litExt
    ∃ (L : Linking) (w' : World), Linking.Real L ∧ LinkedEnds L .runEdit (editCall inPlaceA) pairWorld [.nil] w' ∧
      w'.files (b! "a") = some (b! "ay") ∧ w'.files (b! "a.bak") = some (b! "xay") := by
  letI := litExt
  haveI := litExt_lawful
  obtain ⟨L, hL, hm⟩ := C99_real
  have h : Ends (runEdit inPlaceA) pairWorld none (runOk (fun _ => []) (runEdit inPlaceA) pairWorld).2 :=
    (runOk_ends _ _ _).1 _ (by decide +kernel)
  refine ⟨L, _, hL, ((C99_edit hL inPlaceA rfl (by decide) (by decide) fun script hs => ⟨fun f hf c hc => ?_, fun h => nomatch h⟩).1 none).2 h, by decide +kernel, by decide +kernel⟩
  obtain rfl : script = dropX := hs.1
  obtain rfl : f = b! "a" := by simpa [inPlaceA] using hf
  obtain rfl : c = b! "xay" := by have : pairWorld.files (b! "a") = some (b! "xay") := rfl; rw [this] at hc; exact (Option.some.inj hc).symm
  rw [hm]
  exact dropX_fits

theorem no_strings {name : Bytes} {l : List (FlagDef × Bytes)} {fs : List Bytes} (h : Strings name l fs) (hx : l.filter (fun s => s.1.name = name) = []) : fs = [] := by
  induction h with
  | nil => rfl
  | other hn _ ih => exact ih (by rwa [List.filter_cons_of_neg (by simpa using hn)] at hx)
  | given hn _ _ _ => rw [List.filter_cons_of_pos (by simpa using hn)] at hx; exact nomatch hx

/-- `texted edit -i --backup .bak -s … a` from `main` on, linked: all hypotheses of `C99_program_edit` are met together; it ends with status 0, the
file `a` is edited and the original is in `a.bak`. -/
example (helps : Bytes → Bytes) (others : Bytes → List Bytes → Proc Nat) : letI := litExt
    ∃ (L : Linking) (w' : World), Linking.Real L ∧
      LinkedProgramEnds L cgMain helps others [b! "edit", b! "-i", b! "--backup", b! ".bak", b! "-s", dropX, b! "a"] pairWorld 0 w' ∧
      w'.files (b! "a") = some (b! "ay") ∧ w'.files (b! "a.bak") = some (b! "xay") := by
  letI := litExt
  haveI := litExt_lawful
  obtain ⟨L, hL, hm⟩ := C99_real
  have h : Ends (runEdit inPlaceA) pairWorld none (runOk (fun _ => []) (runEdit inPlaceA) pairWorld).2 :=
    (runOk_ends _ _ _).1 _ (by decide +kernel)
  have hp : ∃ l, parseWords editFlags [b! "-i", b! "--backup", b! ".bak", b! "-s", dropX, b! "a"] = .ok (l, [b! "a"]) ∧ boolSetting l (b! "help") = false ∧
      editArgs l [b! "a"] = inPlaceA ∧ l.filter (fun s => s.1.name = b! "expression") = [] := ⟨_, by rfl, by rfl, by rfl, by rfl⟩
  obtain ⟨l, hp, hb, ha, hx⟩ := hp
  have hcl := (parseWords_iff editFlags_good _ _ _).1 hp
  obtain ⟨fs, hfs, hme⟩ := C71_has_meaning hcl
  have hfs' : fs = [] := no_strings hfs hx
  subst hfs'
  rw [ha] at hme
  refine ⟨L, _, hL, ((C99_program_edit hL helps others hcl (fun hx => absurd ((bools hcl (by decide)).2 hx) (by rw [hb]; decide)) hme rfl (by decide) (by decide)
    fun script hs => ⟨fun f hf c hc => ?_, fun h => nomatch h⟩).2 0).2 ⟨none, h, .inl ⟨rfl, rfl⟩⟩, by decide +kernel, by decide +kernel⟩
  obtain rfl : script = dropX := hs.1
  obtain rfl : f = b! "a" := by simpa [inPlaceA] using hf
  obtain rfl : c = b! "xay" := by have : pairWorld.files (b! "a") = some (b! "xay") := rfl; rw [this] at hc; exact (Option.some.inj hc).symm
  rw [hm]
  exact dropX_fits

end Texted
