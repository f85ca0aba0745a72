import Verif.Props.Everyday
/- C79 with the options of docs/cli.md that keep the originals: `--backup`, `--output` and `--dry-run`, from the words to the files. -/
namespace Texted
open Spec
variable [Ext]

/-! ### The words -/

/-- C71, with `--backup`, `--output`, `--dry-run`: two options in front of the script. -/
theorem edit_with_two (help script v : Bytes) (files : List Bytes) :
    editMain help (b! "-i" :: b! "--backup" :: v :: b! "-s" :: script :: b! "--" :: files) =
      runEdit { script := script, files := files, inPlace := true, backupSuffix := v } ∧
    editMain help (b! "-i" :: (b! "--backup=" ++ v) :: b! "-s" :: script :: b! "--" :: files) =
      runEdit { script := script, files := files, inPlace := true, backupSuffix := v } ∧
    editMain help (b! "-i" :: b! "-n" :: b! "-s" :: script :: b! "--" :: files) =
      runEdit { script := script, files := files, inPlace := true, dryRun := true } := by
  have hi := (switch_words (f := ⟨b! "in-place", some 105, .bool⟩) (by decide) rfl).2 _ rfl
  have hn := (switch_words (f := ⟨b! "dry-run", some 110, .bool⟩) (by decide) rfl).2 _ rfl
  have hb := value_words (f := ⟨b! "backup", none, .str⟩) (by decide) rfl v
  have hs := (script_ways script).1
  have key : ∀ {ws l}, CommandLine editFlags ws l files → boolSetting l (b! "help") = false → sliceSettings l (b! "expression") = [] →
      editMain help ws = runEdit { editArgs l files with expressions := [] } := by
    intro ws l h1 h2 h3
    rw [editMain, parseWords_complete editFlags_good h1]
    simp only [h2, h3]
    rfl
  exact ⟨key (.option hi (.option hb.1 (.option hs .dashes))) rfl rfl, key (.option hi (.option hb.2.1 (.option hs .dashes))) rfl rfl,
    key (.option hi (.option hn (.option hs .dashes))) rfl rfl⟩

theorem consistent_backup (script v : Bytes) (files : List Bytes) :
    ¬ Contradictory { script := script, files := files, inPlace := true, backupSuffix := v } := by
  rintro (h | h | h | h)
  · exact h (.inl rfl)
  · exact h.1 rfl
  · exact absurd h.2 (by simp)
  · exact h.1 rfl

section
variable (helps : Bytes → Bytes) (others : Bytes → List Bytes → Proc Nat)

/-- **C79**: `texted edit -i --backup SUFFIX -s SCRIPT -- FILES...` (or `--backup=SUFFIX`), from the words to the files, whatever fails and
wherever it crashes. At every moment nothing but the files and their backups is touched, and the original contents of every file are in the file
or in its backup. Exit status 0: every file holds the result of the script and its backup the original. If all files exist, the script succeeds on
each and the system does not fail, the exit status is 0. The names of the files and of the backups must not collide. -/
theorem C79_backup (script v : Bytes) (files : List Bytes) (hs : script ≠ []) (hv : v ≠ []) (hf : files ≠ []) (hnd : files.Nodup)
    (hcol : ∀ f ∈ files, ∀ g ∈ files, f ++ v ≠ g) (words : List Bytes) (hw : words = [b! "--backup", v] ∨ words = [b! "--backup=" ++ v]) (w : World) :
    let command := textedMain helps others (b! "edit" :: b! "-i" :: (words ++ b! "-s" :: script :: b! "--" :: files))
    (∀ w', Sees command w w' →
      (∀ q, q ∉ files → (∀ f ∈ files, q ≠ f ++ v) → w'.files q = w.files q) ∧
      (∀ f ∈ files, ∀ c, w.files f = some c → w'.files f = some c ∨ w'.files (f ++ v) = some c) ∧
      ∀ f ∈ files, InTransit (fun c => executeScriptWithFormat c script (b! "shell")) (w.files f) (w'.files f)) ∧
    (∀ s w', Ends command w s w' → (s = 0 ∨ s = 1) ∧
      (s = 0 → ∀ f ∈ files, ∃ c t, w.files f = some c ∧ executeScriptWithFormat c script (b! "shell") = .ok t ∧
        w'.files f = some t ∧ w'.files (f ++ v) = some c)) ∧
    ((∀ f ∈ files, ∃ c t, w.files f = some c ∧ executeScriptWithFormat c script (b! "shell") = .ok t) →
      ∀ m, (runOk m command w).1 = some 0) := by
  intro command
  have ha : ∀ help, editMain help (b! "-i" :: (words ++ b! "-s" :: script :: b! "--" :: files)) =
      runEdit { script := script, files := files, inPlace := true, backupSuffix := v } := by
    intro help
    rcases hw with rfl | rfl
    · exact (edit_with_two help script v files).1
    · exact (edit_with_two help script v files).2.1
  refine ⟨fun w' h => ?_, fun s w' h => ?_, fun hx m => ?_⟩
  · have h1 := (C76_edit helps others _ w w').2.1 h
    rw [ha] at h1
    refine ⟨?_, ?_, ?_⟩
    · intro q hq hqb
      refine C33_in_place_scope _ rfl w w' h1 q ?_
      rintro g hg
      exact ⟨fun h => hq (h ▸ hg), fun _ h => hqb g hg h⟩
    · intro f hff c hc
      exact C31_original_survives _ rfl hv hnd hcol w w' h1 f c hff hc
    · intro f hff
      rcases C62_every_moment _ rfl hnd (fun _ => hcol) w w' h1 with h2 | ⟨script', hs', done, g, rest, e, h3, h4, h5⟩
      · rw [h2]; exact .same _
      · obtain rfl : script' = script := hs'.1
        have e : files = done ++ g :: rest := e
        rw [e] at hff
        rcases List.mem_append.1 hff with hff | hff
        · obtain ⟨bad, h6⟩ := h3 f hff
          generalize hb : w.files f = before at h6
          generalize ha : w'.files f = after at h6
          cases h6 with
          | skipped c => exact .same _
          | failed c m h7 => exact .same _
          | edited c t h7 =>
            have := InTransit.writing (exec := fun c => executeScriptWithFormat c script' (b! "shell")) c t t.length h7 (Nat.le_refl _)
            rwa [List.take_length] at this
          | cut c t n h7 h8 => exact .writing c t n h7 h8
        · rcases List.mem_cons.1 hff with rfl | hff
          · exact h4
          · rw [h5 f hff]; exact .same _
  · obtain ⟨r, h1, h2⟩ := ((C76_edit helps others _ w w').1 s).1 h
    rw [ha] at h1
    constructor
    · rcases h2 with ⟨_, rfl⟩ | ⟨_, rfl⟩
      · exact .inl rfl
      · exact .inr rfl
    · rintro rfl f hff
      have hr : r = none := by
        rcases h2 with ⟨hr, _⟩ | ⟨_, h⟩
        · exact hr
        · cases h
      subst hr
      obtain ⟨script', hs', h3⟩ := C31_success _ rfl rfl rfl hf hv hnd hcol w w' h1
      obtain rfl : script' = script := hs'.1
      exact h3 f hff
  · have hp : pick (b! "edit" :: b! "-i" :: (words ++ b! "-s" :: script :: b! "--" :: files)) =
        .sub (b! "edit") (b! "-i" :: (words ++ b! "-s" :: script :: b! "--" :: files)) := (C76_exact _ _ _).2 ⟨by decide, [], _, .nil, rfl, rfl⟩
    have : command = (editMain (helps (b! "edit")) (b! "-i" :: (words ++ b! "-s" :: script :: b! "--" :: files))).bind fun e => .ret (exitStatus e) := by
      simp only [command, textedMain, hp, if_true]
    rw [this, ha, runOk_bind]
    have h1 := (C62_happens m { script := script, files := files, inPlace := true, backupSuffix := v } rfl rfl rfl hf hnd (fun _ => hcol)
      (consistent_backup script v files) w script ⟨rfl, hs⟩ hx).1
    revert h1
    rcases runOk m (runEdit { script := script, files := files, inPlace := true, backupSuffix := v }) w with ⟨r, w1⟩
    rintro rfl
    rfl

/-- **C79**: with `-n` in addition no file is touched at any moment, whatever the script and the files. -/
theorem C79_dry_run (script : Bytes) (files : List Bytes) (w w' : World) :
    (Sees (textedMain helps others (b! "edit" :: b! "-i" :: b! "-n" :: b! "-s" :: script :: b! "--" :: files)) w w' → w'.files = w.files) ∧
    (Sees (textedMain helps others (b! "edit" :: b! "-n" :: b! "-s" :: script :: b! "--" :: files)) w w' → w'.files = w.files) := by
  constructor
  · intro h
    have h1 := (C76_edit helps others _ w w').2.1 h
    rw [(edit_with_two _ script [] files).2.2] at h1
    exact C32_dry_run_writes_nothing _ rfl w w' h1
  · intro h
    have h1 := (C76_edit helps others _ w w').2.1 h
    have e := (C71_switches (helps (b! "edit")) script files).2.2.2.1.1
    dsimp only at e
    rw [e] at h1
    exact C32_dry_run_writes_nothing _ rfl w w' h1

/-- **C79**: every accepted command line `texted edit WORDS...`, whatever the order and form of its options: the command does with the files and the
terminal exactly what the run with the arguments these words stand for does, at every moment, and exits with 0 if that ends without an error, with 1
otherwise. (So C29 to C34, C58, C62 and C78, which speak of arguments, are about the words.) -/
theorem C79_words {ws : List Bytes} {l : List (FlagDef × Bytes)} {files : List Bytes} (h : CommandLine editFlags ws l files) (hh : ¬ On l (b! "help"))
    {a : EditArgs} (ha : EditMeaning l files a) (w w' : World) :
    (∀ s, Ends (textedMain helps others (b! "edit" :: ws)) w s w' ↔
      (s = 0 ∧ Ends (runEdit a) w none w') ∨ (s = 1 ∧ ∃ e, Ends (runEdit a) w (some e) w')) ∧
    (Sees (textedMain helps others (b! "edit" :: ws)) w w' ↔ Sees (runEdit a) w w') := by
  have e := C71_meaning (helps (b! "edit")) h hh ha
  obtain ⟨h1, h2⟩ := C76_edit helps others ws w w'
  rw [e] at h1 h2
  refine ⟨fun s => (h1 s).trans ?_, h2⟩
  constructor
  · rintro ⟨r, h3, ⟨rfl, rfl⟩ | ⟨h4, rfl⟩⟩
    · exact .inl ⟨rfl, h3⟩
    · cases r with
      | none => exact absurd rfl h4
      | some e => exact .inr ⟨rfl, e, h3⟩
  · rintro (⟨rfl, h3⟩ | ⟨rfl, e, h3⟩)
    · exact ⟨none, h3, .inl ⟨rfl, rfl⟩⟩
    · exact ⟨some e, h3, .inr ⟨by simp, rfl⟩⟩

end

/-- **C71**: the command lines of the README, word for word, for all scripts and all files whose names do not begin with `-`. -/
theorem C71_readme (help script v : Bytes) (files : List Bytes) (hf : ∀ f ∈ files, Operand f) :
    editMain help [b! "-s", script] = runEdit { script := script } ∧
    editMain help (b! "-s" :: script :: b! "-i" :: files) = runEdit { script := script, files := files, inPlace := true } ∧
    editMain help (b! "--sexp" :: b! "-s" :: script :: files) = runEdit { script := script, files := files, sexp := true } ∧
    editMain help (b! "--json" :: b! "-s" :: script :: b! "-o" :: v :: files) =
      runEdit { script := script, files := files, json := true, outputFile := v } ∧
    editMain help (b! "-s" :: script :: b! "-i" :: b! "--backup" :: v :: files) =
      runEdit { script := script, files := files, inPlace := true, backupSuffix := v } ∧
    editMain help (b! "-f" :: v :: files) = runEdit { scriptFile := v, files := files } ∧
    editMain help (b! "-s" :: script :: b! "-o" :: v :: files) = runEdit { script := script, files := files, outputFile := v } ∧
    editMain help (b! "-s" :: script :: b! "-n" :: b! "-v" :: files) = runEdit { script := script, files := files, dryRun := true, verbose := true } ∧
    editMain help (b! "-s" :: script :: b! "-i" :: b! "-q" :: files) = runEdit { script := script, files := files, inPlace := true, quiet := true } := by
  have hs := (script_ways script).1
  have i := (switch_words (f := ⟨b! "in-place", some 105, .bool⟩) (by decide) rfl).2 _ rfl
  have n := (switch_words (f := ⟨b! "dry-run", some 110, .bool⟩) (by decide) rfl).2 _ rfl
  have vb := (switch_words (f := ⟨b! "verbose", some 118, .bool⟩) (by decide) rfl).2 _ rfl
  have q := (switch_words (f := ⟨b! "quiet", some 113, .bool⟩) (by decide) rfl).2 _ rfl
  have x := (switch_words (f := ⟨b! "sexp", none, .bool⟩) (by decide) rfl).1
  have j := (switch_words (f := ⟨b! "json", none, .bool⟩) (by decide) rfl).1
  have b := (value_words (f := ⟨b! "backup", none, .str⟩) (by decide) rfl v).1
  have o := (value_words (f := ⟨b! "output", some 111, .str⟩) (by decide) rfl v).2.2 _ rfl
  have f := (value_words (f := ⟨b! "file", some 102, .str⟩) (by decide) rfl v).2.2 _ rfl
  have fs := operands_line (defs := editFlags) hf
  have key : ∀ {ws l fs}, CommandLine editFlags ws l fs → boolSetting l (b! "help") = false → sliceSettings l (b! "expression") = [] →
      editMain help ws = runEdit { editArgs l fs with expressions := [] } := by
    intro ws l fs h1 h2 h3
    rw [editMain, parseWords_complete editFlags_good h1]
    simp only [h2, h3]
    rfl
  exact ⟨key (.option hs .nil) rfl rfl, key (.option hs (.option i fs)) rfl rfl, key (.option x (.option hs fs)) rfl rfl,
    key (.option j (.option hs (.option o fs))) rfl rfl, key (.option hs (.option i (.option b fs))) rfl rfl, key (.option f fs) rfl rfl,
    key (.option hs (.option o fs)) rfl rfl, key (.option hs (.option n (.option vb fs))) rfl rfl, key (.option hs (.option i (.option q fs))) rfl rfl⟩

/-- Non-vacuity: the command on two files, with their backups. -/
example : let w : World := ⟨fun q => if q = b! "f" then some (b! "1 a") else if q = b! "g" then some (b! "a") else none, [], []⟩
    let r := @runOk _ (fun _ => []) (@textedMain litExt (fun _ => []) (fun _ _ => .panic)
      [b! "edit", b! "-i", b! "--backup", b! "~", b! "-s", b! "search-forward \"a\"; replace-match \"x\"", b! "--", b! "f", b! "g"]) w
    r.1 = some 0 ∧ r.2.files (b! "f") = some (b! "1 x") ∧ r.2.files (b! "f~") = some (b! "1 a") ∧ r.2.files (b! "g") = some (b! "x") ∧
      r.2.files (b! "g~") = some (b! "a") := by decide +kernel

/-- **C70**, naive claim refuted (README, "use .elsh for shell-like syntax, .el for S-expression syntax, and .json for JSON format"): the name of the
script file does not choose its format. A JSON script in `t.json` fails unless `--json` is given. -/
theorem C70_false_extension : let w : World := ⟨fun q => if q = b! "t.json" then some (b! "[[\"insert\", \"x\"]]") else if q = b! "f" then some (b! "a") else none, [], []⟩
    let run ws := @runOk _ (fun _ => []) (@textedMain litExt (fun _ => []) (fun _ _ => .panic) ws) w
    (run [b! "edit", b! "-i", b! "-f", b! "t.json", b! "f"]).1 = some 1 ∧
    (run [b! "edit", b! "-i", b! "-f", b! "t.json", b! "f"]).2.files (b! "f") = some (b! "a") ∧
    (run [b! "edit", b! "-i", b! "--json", b! "-f", b! "t.json", b! "f"]).1 = some 0 ∧
    (run [b! "edit", b! "-i", b! "--json", b! "-f", b! "t.json", b! "f"]).2.files (b! "f") = some (b! "xa") := by decide +kernel

end Texted
