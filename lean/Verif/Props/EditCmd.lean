import Verif.Model.EditCmd
import Verif.Props.Files
import Verif.Spec.EditCmd
/-
The edit command (/repo/commands/edit.go).
C31 backups, C32 dry run, C33 what is written, C34 contradictory flags, C62 in-place editing of several files.
-/
namespace Texted
open Spec

/-! ### Printing does not change files -/

theorem sees_say {α : Type} {c : Bool} {t : Bytes} {k : Proc α} {w w' : World} (h : Sees (say c t k) w w') :
    ∃ w1, w1.files = w.files ∧ Sees k w1 w' := by
  unfold say at h
  split at h
  · rcases sees_act.1 h with (rfl | h) | ⟨r, w1, h1, h2⟩
    · exact ⟨_, rfl, _, .refl⟩
    · exact h.elim
    · exact ⟨w1, funext fun q => h1.files q (fun _ _ h => (nomatch h)), h2⟩
  · exact ⟨w, rfl, h⟩

theorem ends_say {α : Type} {c : Bool} {t : Bytes} {k : Proc α} {w w' : World} {a : α} (h : Ends (say c t k) w a w') :
    ∃ w1, w1.files = w.files ∧ Ends k w1 a w' := by
  unfold say at h
  split at h
  · obtain ⟨r, w1, h1, h2⟩ := ends_act.1 h
    exact ⟨w1, funext fun q => h1.files q (fun _ _ h => (nomatch h)), h2⟩
  · exact ⟨w, rfl, h⟩

/-- What printing `t` leads to. -/
def World.printed (w : World) (c : Bool) (t : Bytes) : World := if c then { w with out := w.out ++ t } else w

theorem World.printed_files (w : World) (c : Bool) (t : Bytes) : (w.printed c t).files = w.files := by
  unfold World.printed; split <;> rfl

theorem sees_say_of {α : Type} {c : Bool} {t : Bytes} {k : Proc α} {w w' : World} (h : Sees k (w.printed c t) w') :
    Sees (say c t k) w w' := by
  unfold say; unfold World.printed at h
  split
  · rename_i hc
    rw [if_pos hc] at h
    exact sees_act.2 (Or.inr ⟨.ok [], _, Or.inl ⟨rfl, rfl⟩, h⟩)
  · rename_i hc; rwa [if_neg hc] at h

theorem runOk_say {α : Type} (m : Bytes → Bytes) (c : Bool) (t : Bytes) (k : Proc α) (w : World) :
    runOk m (say c t k) w = runOk m k (w.printed c t) := by
  unfold say World.printed; split <;> rfl

/-- The command writes no file. -/
def WritesNothing {α : Type} (p : Proc α) : Prop := WritesOnly (fun _ => False) p

theorem WritesNothing.sees {α : Type} {p : Proc α} (h : WritesNothing p) {w w' : World} (hs : Sees p w w') : w'.files = w.files :=
  funext fun q => WritesOnly.sees h hs q (fun h => h)

theorem writes_complain {S : Bytes → Prop} (a : EditArgs) (t : Bytes) : WritesOnly S (complain a t) := WritesOnly.say trivial

theorem writes_evalExpressions [Ext] (a : EditArgs) (source : Bytes) (es : List Bytes) :
    ∀ (i : Nat) (b : Buffer), WritesNothing (evalExpressions a source i es b) := by
  induction es with
  | nil => intro i b; trivial
  | cons e es ih =>
    intro i b
    unfold evalExpressions
    refine WritesOnly.say ?_
    split
    · trivial
    · exact WritesOnly.say trivial
    · split
      · trivial
      · exact WritesOnly.say trivial
      · split
        · exact ih _ _
        · split
          · trivial
          · exact ⟨trivial, fun _ => ih _ _⟩

theorem writes_expressionsOnFiles [Ext] (a : EditArgs) (many : Bool) (fs : List Bytes) : WritesNothing (expressionsOnFiles a many fs) := by
  induction fs with
  | nil => trivial
  | cons f fs ih =>
    refine ⟨trivial, fun r => ?_⟩
    cases r with
    | error e => exact WritesOnly.say trivial
    | ok c =>
      refine WritesOnly.say (WritesOnly.bind (writes_evalExpressions a f a.expressions 0 _) fun e => ?_)
      cases e with
      | none => exact ih
      | some e => trivial

theorem writes_runExpressions [Ext] (a : EditArgs) : WritesNothing (runExpressions a) := by
  unfold runExpressions
  split
  · refine ⟨trivial, fun r => ?_⟩
    cases r with
    | error e => trivial
    | ok c => exact writes_evalExpressions a _ _ _ _
  · exact writes_expressionsOnFiles _ _ _

theorem writes_returnErr {S : Bytes → Prop} (r : Except Bytes Bytes) : WritesOnly S (returnErr r) := by cases r <;> trivial

/-- The files the command may write. -/
def Writable (a : EditArgs) (q : Bytes) : Prop :=
  a.dryRun = false ∧ a.expressions = [] ∧
    if a.inPlace then ∃ f ∈ a.files, q = f ∨ (a.backupSuffix ≠ [] ∧ q = f ++ a.backupSuffix) else a.outputFile ≠ [] ∧ q = a.outputFile

theorem writes_inPlaceEdit [Ext] (a : EditArgs) (script f : Bytes) : WritesOnly (· = f) (inPlaceEdit a script f) := by
  refine ⟨trivial, fun r => ?_⟩
  cases r with
  | error e => exact writes_complain _ _
  | ok c =>
    simp only
    split
    · trivial
    · exact writes_complain _ _
    · refine ⟨rfl, fun r => ?_⟩
      cases r with
      | error e => exact writes_complain _ _
      | ok c => exact WritesOnly.say trivial

theorem writes_inPlaceOne [Ext] (a : EditArgs) (script f : Bytes) :
    WritesOnly (fun q => a.dryRun = false ∧ (q = f ∨ (a.backupSuffix ≠ [] ∧ q = f ++ a.backupSuffix))) (inPlaceOne a script f) := by
  unfold inPlaceOne
  refine WritesOnly.say ?_
  split
  · exact WritesOnly.say (WritesOnly.say (WritesOnly.say trivial))
  · rename_i hd
    have hd : a.dryRun = false := by simpa using hd
    split
    · rename_i hs
      refine WritesOnly.say ⟨trivial, fun r => ?_⟩
      cases r with
      | error e => exact writes_complain _ _
      | ok c =>
        refine ⟨⟨hd, Or.inr ⟨hs, rfl⟩⟩, fun r => ?_⟩
        cases r with
        | error e => exact writes_complain _ _
        | ok _ => exact (writes_inPlaceEdit a script f).mono fun q hq => ⟨hd, Or.inl hq⟩
    · exact (writes_inPlaceEdit a script f).mono fun q hq => ⟨hd, Or.inl hq⟩

theorem writes_inPlaceLoop [Ext] (a : EditArgs) (script : Bytes) (fs : List Bytes) :
    WritesOnly (fun q => a.dryRun = false ∧ ∃ f ∈ fs, q = f ∨ (a.backupSuffix ≠ [] ∧ q = f ++ a.backupSuffix)) (inPlaceLoop a script fs) := by
  induction fs with
  | nil => trivial
  | cons f fs ih =>
    refine WritesOnly.bind ((writes_inPlaceOne a script f).mono fun q hq => ⟨hq.1, f, List.mem_cons_self, hq.2⟩) fun bad => ?_
    refine WritesOnly.bind (ih.mono ?_) fun _ => trivial
    rintro q ⟨hd, g, hg, hq⟩
    exact ⟨hd, g, List.mem_cons_of_mem _ hg, hq⟩

theorem writes_processSingle [Ext] {S : Bytes → Prop} (a : EditArgs) (script f dest : Bytes) (act : Bytes → Act)
    (h : a.dryRun = false → ∀ d p e, act d = .write p e → S p) : WritesOnly S (processSingle a script f dest act) := by
  unfold processSingle
  refine WritesOnly.say ?_
  split
  · exact WritesOnly.say trivial
  · rename_i hd
    have hd : a.dryRun = false := by simpa using hd
    refine ⟨trivial, fun r => ?_⟩
    cases r with
    | error e => trivial
    | ok c =>
      simp only
      split
      · trivial
      · trivial
      · rename_i t _
        refine ⟨?_, fun r => writes_returnErr r⟩
        cases ha : act t with
        | write p d => exact h hd t p d ha
        | read => trivial
        | print => trivial
        | stdin => trivial

theorem writes_applyScript [Ext] (a : EditArgs) (script : Bytes) (he : a.expressions = []) (ho : ¬ (a.outputFile ≠ [] ∧ a.inPlace))
    (hm : ¬ (a.outputFile ≠ [] ∧ a.files.length > 1)) : WritesOnly (Writable a) (applyScript a script) := by
  have hin : a.inPlace = true → WritesOnly (Writable a) (processFilesInPlace a script) := by
    intro hi
    refine WritesOnly.bind ((writes_inPlaceLoop a script a.files).mono ?_) fun _ => trivial
    rintro q ⟨hd, h⟩
    refine ⟨hd, he, ?_⟩
    rw [if_pos hi]; exact h
  have hout : a.outputFile ≠ [] → a.dryRun = false → Writable a a.outputFile := by
    intro h1 hd
    refine ⟨hd, he, ?_⟩
    rw [if_neg (fun h => ho ⟨h1, h⟩)]; exact ⟨h1, rfl⟩
  unfold applyScript
  split
  · refine ⟨trivial, fun r => ?_⟩
    cases r with
    | error e => trivial
    | ok c =>
      refine WritesOnly.say ?_
      split
      · exact WritesOnly.say trivial
      · rename_i hd
        have hd : a.dryRun = false := by simpa using hd
        split
        · trivial
        · trivial
        · split
          · rename_i h1
            exact WritesOnly.say ⟨hout h1 hd, fun r => writes_returnErr r⟩
          · exact ⟨trivial, fun r => writes_returnErr r⟩
  · rename_i hne
    unfold processFiles
    split
    · split
      · rename_i h1
        refine writes_processSingle a script _ _ _ fun hd d p e h => ?_
        cases h; exact hout h1 hd
      · split
        · rename_i hi; exact hin hi
        · exact writes_processSingle a script _ _ _ fun hd d p e h => (nomatch h)
    · split
      · trivial
      · rename_i h
        cases hi : a.inPlace with
        | true => exact hin hi
        | false =>
          rename_i hsingle
          exfalso
          rw [hi] at h
          have h1 : a.outputFile ≠ [] := by simpa using h
          apply hm
          refine ⟨h1, ?_⟩
          match hf : a.files with
          | [] => rw [hf] at hne; exact absurd rfl hne
          | [f] => exact absurd hf (hsingle f)
          | _ :: _ :: _ => simp

theorem writes_runEdit [Ext] (a : EditArgs) : WritesOnly (Writable a) (runEdit a) := by
  unfold runEdit
  split
  · trivial
  split
  · trivial
  rename_i hm
  split
  · trivial
  split
  · trivial
  rename_i ho
  split
  · exact (writes_runExpressions a).mono fun _ h => h.elim
  · rename_i he
    have he : a.expressions = [] := by
      cases h : a.expressions with
      | nil => rfl
      | cons x y => rw [h] at he; exact absurd (Nat.succ_pos _) he
    unfold runScript
    split
    · refine ⟨trivial, fun r => ?_⟩
      cases r with
      | error e => trivial
      | ok script => exact writes_applyScript a script he ho hm
    · split
      · trivial
      · exact writes_applyScript a _ he ho hm

/-! ### C32, C33 -/

/-- C32. With --dry-run, no file is changed at any moment, whatever the other flags. -/
theorem C32_dry_run_writes_nothing [Ext] (a : EditArgs) (h : a.dryRun = true) (w w' : World) (hs : Sees (runEdit a) w w') :
    w'.files = w.files :=
  WritesNothing.sees ((writes_runEdit a).mono fun q hq => by have := hq.1; rw [h] at this; exact absurd this (by simp)) hs

/-- C33. Without --in-place, no file but the one named by --output is changed at any moment. -/
theorem C33_only_output_written [Ext] (a : EditArgs) (h : a.inPlace = false) (w w' : World) (hs : Sees (runEdit a) w w') (q : Bytes)
    (hq : q ≠ a.outputFile) : w'.files q = w.files q :=
  (writes_runEdit a).sees hs q fun hw => by
    have := hw.2.2
    rw [if_neg (by rw [h]; simp)] at this
    exact hq this.2

/-- C33. Without --in-place and --output no file is changed at any moment. -/
theorem C33_no_output_no_write [Ext] (a : EditArgs) (h : a.inPlace = false) (ho : a.outputFile = []) (w w' : World)
    (hs : Sees (runEdit a) w w') : w'.files = w.files :=
  WritesNothing.sees ((writes_runEdit a).mono fun q hq => by
    have := hq.2.2
    rw [if_neg (by rw [h]; simp)] at this
    exact this.1 ho) hs

/-- C33. In --expression mode no file is changed at any moment, whatever the other flags (not even with --in-place). -/
theorem C33_expressions_write_nothing [Ext] (a : EditArgs) (h : a.expressions ≠ []) (w w' : World) (hs : Sees (runEdit a) w w') :
    w'.files = w.files :=
  WritesNothing.sees ((writes_runEdit a).mono fun _ hq => h hq.2.1) hs

/-- C33. With --in-place only the named files and their backups are changed, at any moment. -/
theorem C33_in_place_scope [Ext] (a : EditArgs) (h : a.inPlace = true) (w w' : World) (hs : Sees (runEdit a) w w') (q : Bytes)
    (hq : ∀ f ∈ a.files, q ≠ f ∧ (a.backupSuffix ≠ [] → q ≠ f ++ a.backupSuffix)) : w'.files q = w.files q :=
  (writes_runEdit a).sees hs q fun hw => by
    have := hw.2.2
    rw [if_pos h] at this
    obtain ⟨f, hf, h1 | ⟨h1, h2⟩⟩ := this
    · exact (hq f hf).1 h1
    · exact (hq f hf).2 h1 h2

theorem ends_returnErr {r : Except Bytes Bytes} {w w' : World} (h : Ends (returnErr r) w none w') : (∃ d, r = .ok d) ∧ w' = w := by
  cases r with
  | ok d => exact ⟨⟨d, rfl⟩, (ends_ret.1 h).2⟩
  | error e => exact absurd (ends_ret.1 h).1 (by simp)

/-- The consistent script-mode command is to get the script and apply it. -/
theorem runEdit_consistent [Ext] (a : EditArgs) (h : ¬ Contradictory a) (he : a.expressions = []) : runEdit a = runScript a := by
  unfold Contradictory at h
  have h1 := fun x => h (Or.inl x)
  have h2 := fun x => h (Or.inr (Or.inl x))
  have h3 := fun x => h (Or.inr (Or.inr (Or.inl x)))
  have h4 := fun x => h (Or.inr (Or.inr (Or.inr x)))
  unfold runEdit
  rw [if_neg, if_neg h2, if_neg, if_neg h4, if_neg]
  · rw [he]; simp
  · intro hx; exact h3 ⟨hx.1, by simpa using hx.2⟩
  · intro hx
    have : isValidFormat a.format = true := (isValidFormat_iff _).2 (Classical.byContradiction h1)
    rw [this] at hx; cases hx

theorem refused_of_contradictory [Ext] (a : EditArgs) (hc : Contradictory a) : ∃ e, runEdit a = .ret (some e) := by
  unfold runEdit
  split
  · exact ⟨_, rfl⟩
  split
  · exact ⟨_, rfl⟩
  split
  · exact ⟨_, rfl⟩
  split
  · exact ⟨_, rfl⟩
  rename_i g1 g2 g3 g4
  exfalso
  rcases hc with hc | hc | hc | hc
  · apply g1
    cases hv : isValidFormat a.format with
    | true => exact absurd ((isValidFormat_iff _).1 hv) hc
    | false => rfl
  · exact g2 hc
  · exact g3 ⟨hc.1, by rw [hc.2]; rfl⟩
  · exact g4 hc

theorem runScript_ends [Ext] {a : EditArgs} {w w' : World} (h : Ends (runScript a) w none w') :
    ∃ script, ScriptOf a w script ∧ Ends (applyScript a script) w none w' := by
  unfold runScript at h
  unfold ScriptOf
  split at h
  · rename_i hs
    obtain ⟨r, w1, ⟨rfl, ⟨d, hd, rfl⟩ | ⟨e, rfl⟩⟩, h2⟩ := ends_act.1 h
    · exact ⟨d, by rw [if_neg hs]; exact hd, h2⟩
    · exact absurd (ends_ret.1 h2).1 (by simp)
  · rename_i hs
    have hs : a.scriptFile = [] := Classical.byContradiction hs
    split at h
    · exact absurd (ends_ret.1 h).1 (by simp)
    · rename_i h0
      exact ⟨a.script, by rw [if_pos hs]; exact ⟨rfl, h0⟩, h⟩

theorem act_print_ends {t : Bytes} {w w' : World} (h : Ends (.act (.print t) returnErr) w none w') : w' = { w with out := w.out ++ t } := by
  obtain ⟨r, w1, h1, h2⟩ := ends_act.1 h
  obtain ⟨⟨d, rfl⟩, rfl⟩ := ends_returnErr h2
  rcases h1 with ⟨_, h1⟩ | ⟨_, _, h1, _⟩
  · exact h1
  · cases h1

theorem act_write_ends {p t : Bytes} {w w' : World} (h : Ends (.act (.write p t) returnErr) w none w') : w' = w.put p t := by
  obtain ⟨r, w1, h1, h2⟩ := ends_act.1 h
  obtain ⟨⟨d, rfl⟩, rfl⟩ := ends_returnErr h2
  rcases h1 with ⟨_, h1⟩ | ⟨_, h1, _⟩
  · exact h1
  · cases h1

theorem processSingle_ends [Ext] {a : EditArgs} {script f dest : Bytes} {act : Bytes → Act} {w w' : World} (hd : a.dryRun = false)
    (hl : a.loud = false) (h : Ends (processSingle a script f dest act) w none w') :
    ∃ c t, w.files f = some c ∧ executeScriptWithFormat c script a.format = .ok t ∧ Ends (.act (act t) returnErr) w none w' := by
  unfold processSingle say at h
  rw [hl, if_neg (by simp), if_neg (by rw [hd]; simp)] at h
  obtain ⟨r, w1, ⟨rfl, ⟨d, hc, rfl⟩ | ⟨e, rfl⟩⟩, h2⟩ := ends_act.1 h
  · simp only at h2
    cases hx : executeScriptWithFormat d script a.format with
    | panic => rw [hx] at h2; exact absurd h2 ends_panic
    | err e => rw [hx] at h2; exact absurd (ends_ret.1 h2).1 (by simp)
    | ok t => rw [hx] at h2; exact ⟨d, t, hc, hx, h2⟩
  · exact absurd (ends_ret.1 h2).1 (by simp)

/-- C33. If the command succeeds on standard input or a single file, then what it delivers (printed, or in the output file) is
exactly the script's output on that text. -/
theorem C33_result_delivered [Ext] (a : EditArgs) (hi : a.inPlace = false) (hf : a.files.length ≤ 1) (he : a.expressions = [])
    (hd : a.dryRun = false) (hl : a.verbose = false) (w w' : World) (h : Ends (runEdit a) w none w') :
    ∃ script c t, ScriptOf a w script ∧ InputOf a w c ∧ executeScriptWithFormat c script a.format = .ok t ∧ Delivered a w w' t := by
  have hl : a.loud = false := by rw [EditArgs.loud, hl]; rfl
  have hc : ¬ Contradictory a := by
    intro hc
    have := refused_of_contradictory a hc
    obtain ⟨e, he⟩ := this
    rw [he] at h
    exact absurd (ends_ret.1 h).1 (by simp)
  rw [runEdit_consistent a hc he] at h
  obtain ⟨script, hs, h⟩ := runScript_ends h
  unfold applyScript at h
  match hfs : a.files with
  | [] =>
    rw [hfs, if_pos (show ([] : List Bytes).isEmpty = true from rfl)] at h
    obtain ⟨r, w1, ⟨rfl, rfl | ⟨e, rfl⟩⟩, h2⟩ := ends_act.1 h
    · simp only [say, hl] at h2
      rw [if_neg (by simp), if_neg (by rw [hd]; simp)] at h2
      cases hx : executeScriptWithFormat w.input script a.format with
      | panic => rw [hx] at h2; exact absurd h2 ends_panic
      | err e => rw [hx] at h2; exact absurd (ends_ret.1 h2).1 (by simp)
      | ok t =>
        rw [hx] at h2
        refine ⟨script, w.input, t, hs, by rw [InputOf, hfs], hx, ?_⟩
        simp only at h2
        unfold Delivered
        split
        · rename_i ho
          rw [if_neg (fun h => h ho)] at h2
          have := act_print_ends h2; subst this
          exact ⟨rfl, rfl⟩
        · rename_i ho
          rw [if_pos ho, if_neg (by simp)] at h2
          have := act_write_ends h2; subst this
          exact ⟨rfl, World.put_same _ _ _, fun q hq => World.put_other _ _ _ _ hq⟩
    · exact absurd (ends_ret.1 h2).1 (by simp)
  | [f] =>
    rw [hfs, if_neg (by simp)] at h
    unfold processFiles at h
    rw [hfs] at h
    simp only at h
    split at h
    · rename_i ho
      obtain ⟨c, t, hc, hx, h2⟩ := processSingle_ends hd hl h
      have := act_write_ends h2; subst this
      refine ⟨script, c, t, hs, by rw [InputOf, hfs]; exact hc, hx, ?_⟩
      rw [Delivered, if_neg ho]
      exact ⟨rfl, World.put_same _ _ _, fun q hq => World.put_other _ _ _ _ hq⟩
    · rename_i ho
      rw [if_neg (by rw [hi]; simp)] at h
      obtain ⟨c, t, hc, hx, h2⟩ := processSingle_ends hd hl h
      have := act_print_ends h2; subst this
      refine ⟨script, c, t, hs, by rw [InputOf, hfs]; exact hc, hx, ?_⟩
      rw [Delivered, if_pos (Classical.byContradiction ho)]
      exact ⟨rfl, rfl⟩
  | _ :: _ :: _ => rw [hfs] at hf; simp at hf

/-- The hypotheses are met, and the result arrives: a file to standard output, standard input to a file. -/
example : let w : World := ⟨fun q => if q = b! "f" then some (b! "hello") else none, b! "abc", []⟩
    let r1 := @runOk _ (fun _ => []) (@runEdit litExt { script := b! "insert \"X\"", files := [b! "f"] }) w
    let r2 := @runOk _ (fun _ => []) (@runEdit litExt { script := b! "insert \"X\"", outputFile := b! "o" }) w
    r1.1 = some none ∧ r1.2.out = b! "Xhello" ∧ r2.1 = some none ∧ r2.2.out = [] ∧ r2.2.files (b! "o") = some (b! "Xabc") := by
  decide +kernel

/-! ### C34 -/

/-- C34. Contradictory flags are refused at once: the command fails without performing any action. -/
theorem C34_refused [Ext] (a : EditArgs) (h : Contradictory a) : ∃ e, runEdit a = .ret (some e) := refused_of_contradictory a h

/-- C34. The reason that is given is true. -/
theorem C34_reason [Ext] (a : EditArgs) (h : Contradictory a) : ∃ e, Refusal a e ∧ runEdit a = .ret (some e) := by
  unfold runEdit
  by_cases h1 : isValidFormat a.format = true
  · rw [if_neg (by rw [h1]; simp)]
    by_cases h2 : a.outputFile ≠ [] ∧ a.files.length > 1
    · rw [if_pos h2]; exact ⟨_, .output h2.1 h2.2, rfl⟩
    · rw [if_neg h2]
      by_cases h3 : a.backupSuffix ≠ [] ∧ a.inPlace = false
      · rw [if_pos ⟨h3.1, by rw [h3.2]; rfl⟩]; exact ⟨_, .backup h3.1 h3.2, rfl⟩
      · rw [if_neg (fun h => h3 ⟨h.1, by simpa using h.2⟩)]
        by_cases h4 : a.outputFile ≠ [] ∧ a.inPlace = true
        · rw [if_pos h4]; exact ⟨_, .both h4.1 h4.2, rfl⟩
        · exfalso
          rcases h with h | h | h | h
          · apply h
            simpa [isValidFormat, or_assoc] using h1
          · exact h2 h
          · exact h3 h
          · exact h4 h
  · rw [if_pos (by simpa using h1)]
    have h1 : ¬ (a.format = b! "shell" ∨ a.format = b! "sexp" ∨ a.format = b! "json") := by simpa [isValidFormat, or_assoc] using h1
    exact ⟨_, .format (fun h => h1 (.inl h)) (fun h => h1 (.inr (.inl h))) (fun h => h1 (.inr (.inr h))), rfl⟩

example [Ext] : runEdit { outputFile := b! "o", files := [b! "f", b! "g"] } = .ret (some (b! "--output can only be used with a single file")) := rfl

/-- C34. In terms of runs: the world is never changed and every run fails. -/
theorem C34_refused_runs [Ext] (a : EditArgs) (h : Contradictory a) (w : World) :
    (∀ w', Sees (runEdit a) w w' → w' = w) ∧ (∀ r w', Ends (runEdit a) w r w' → ∃ e, r = some e) ∧
    ∀ m, ∃ e, runOk m (runEdit a) w = (some (some e), w) := by
  obtain ⟨e, he⟩ := C34_refused a h
  rw [he]
  exact ⟨fun w' hs => sees_ret.1 hs, fun r w' hs => ⟨e, (ends_ret.1 hs).1⟩, fun m => ⟨e, rfl⟩⟩

theorem processFiles_noDestination [Ext] (a : EditArgs) (h : NoDestination a) (script : Bytes) :
    applyScript a script = .ret (some (b! "multiple files require --in-place or --output flag")) := by
  obtain ⟨_, h2, h3, h4⟩ := h
  match hf : a.files with
  | [] => rw [hf] at h2; simp at h2
  | [f] => rw [hf] at h2; simp at h2
  | f :: g :: r =>
    unfold applyScript processFiles
    rw [hf, if_neg (by simp)]
    simp only
    rw [if_pos (by rw [h3, h4]; rfl)]

/-- C34. Several files without a destination: nothing is changed or printed at any moment, and every run fails. -/
theorem C34_no_destination [Ext] (a : EditArgs) (h : NoDestination a) (w : World) :
    (∀ w', Sees (runEdit a) w w' → w' = w) ∧ (∀ r w', Ends (runEdit a) w r w' → ∃ e, r = some e) ∧
    ∀ m, ∃ e, runOk m (runEdit a) w = (some (some e), w) := by
  by_cases hc : Contradictory a
  · exact C34_refused_runs a hc w
  · rw [runEdit_consistent a hc h.1]
    unfold runScript
    simp only [processFiles_noDestination a h]
    split
    · refine ⟨fun w' hs => ?_, fun r w' hs => ?_, fun m => ?_⟩
      · rcases sees_act.1 hs with (rfl | h) | ⟨r, w1, ⟨rfl, ⟨d, _, rfl⟩ | ⟨e, rfl⟩⟩, h2⟩
        · rfl
        · exact h.elim
        · exact sees_ret.1 h2
        · exact sees_ret.1 h2
      · obtain ⟨r, w1, ⟨rfl, ⟨d, _, rfl⟩ | ⟨e, rfl⟩⟩, h2⟩ := ends_act.1 hs
        · exact ⟨_, (ends_ret.1 h2).1⟩
        · exact ⟨_, (ends_ret.1 h2).1⟩
      · cases hf : w.files a.scriptFile with
        | none => simp only [runOk, hf]; exact ⟨_, rfl⟩
        | some d => simp only [runOk, hf]; exact ⟨_, rfl⟩
    · split
      · exact ⟨fun w' hs => sees_ret.1 hs, fun r w' hs => ⟨_, (ends_ret.1 hs).1⟩, fun m => ⟨_, rfl⟩⟩
      · exact ⟨fun w' hs => sees_ret.1 hs, fun r w' hs => ⟨_, (ends_ret.1 hs).1⟩, fun m => ⟨_, rfl⟩⟩

theorem say_ne_ret {α : Type} {c : Bool} {t : Bytes} {k : Proc α} {x : α} (h : say c t k = .ret x) : k = .ret x := by
  unfold say at h; split at h
  · cases h
  · exact h

theorem bind_ret {α β : Type} {p : Proc α} {f : α → Proc β} {x : β} (h : p.bind f = .ret x) : ∃ y, p = .ret y ∧ f y = .ret x := by
  cases p with
  | ret y => exact ⟨y, rfl, h⟩
  | panic => cases h
  | act a k => cases h

theorem inPlaceLoop_ret [Ext] (a : EditArgs) (script : Bytes) (fs : List Bytes) (x : Bool) (h : inPlaceLoop a script fs = .ret x) :
    x = false := by
  induction fs generalizing x with
  | nil => cases h; rfl
  | cons f fs ih =>
    obtain ⟨y, h1, h2⟩ := bind_ret h
    obtain ⟨z, h3, h4⟩ := bind_ret h2
    have hz := ih z h3
    unfold inPlaceOne at h1
    have h1 := say_ne_ret h1
    split at h1
    · have := say_ne_ret (say_ne_ret (say_ne_ret h1))
      cases this; cases hz; cases h4; rfl
    · split at h1
      · cases say_ne_ret h1
      · cases h1

/-- C34. These are the only refusals: the command fails without performing any action exactly if the flags are contradictory,
or there is no script, or there is no destination (with a script file, this is noticed after reading the script). -/
theorem C34_only_refusals [Ext] (a : EditArgs) :
    (∃ e, runEdit a = .ret (some e)) ↔ Contradictory a ∨ NoScript a ∨ (NoDestination a ∧ a.scriptFile = []) := by
  constructor
  · rintro ⟨e, he⟩
    refine Classical.byContradiction fun hn => ?_
    have hc : ¬ Contradictory a := fun h => hn (Or.inl h)
    have hns : ¬ NoScript a := fun h => hn (Or.inr (Or.inl h))
    have hnd : ¬ (NoDestination a ∧ a.scriptFile = []) := fun h => hn (Or.inr (Or.inr h))
    by_cases hx : a.expressions = []
    · rw [runEdit_consistent a hc hx] at he
      unfold runScript at he
      split at he
      · cases he
      rename_i hsf
      have hsf : a.scriptFile = [] := Classical.byContradiction hsf
      split at he
      · rename_i h0; exact hns ⟨hx, hsf, h0⟩
      unfold applyScript at he
      split at he
      · cases he
      rename_i hfe
      unfold processFiles at he
      have single : ∀ script f dest act, processSingle a script f dest act ≠ .ret (some e) := by
        intro script f dest act h
        unfold processSingle at h
        have h := say_ne_ret h
        split at h
        · cases say_ne_ret h
        · cases h
      have inplace : processFilesInPlace a a.script ≠ .ret (some e) := by
        intro h
        obtain ⟨y, h1, h2⟩ := bind_ret h
        have := inPlaceLoop_ret a _ _ _ h1; subst this; cases h2
      split at he
      · split at he
        · exact single _ _ _ _ he
        split at he
        · exact inplace he
        · exact single _ _ _ _ he
      · rename_i hsingle
        split at he
        · rename_i hcond
          apply hnd
          refine ⟨⟨hx, ?_, ?_, ?_⟩, hsf⟩
          · match hf : a.files with
            | [] => rw [hf] at hfe; exact absurd rfl hfe
            | [f] => exact absurd hf (hsingle f)
            | _ :: _ :: _ => simp
          · simp at hcond; exact hcond.1
          · simp at hcond; exact hcond.2
        · exact inplace he
    · -- expression mode
      unfold Contradictory at hc
      have hex : runEdit a = runExpressions a := by
        unfold runEdit
        rw [if_neg, if_neg (fun x => hc (Or.inr (Or.inl x))), if_neg, if_neg (fun x => hc (Or.inr (Or.inr (Or.inr x)))), if_pos]
        · cases h : a.expressions with
          | nil => exact absurd h hx
          | cons x y => simp
        · intro hx; exact hc (Or.inr (Or.inr (Or.inl ⟨hx.1, by simpa using hx.2⟩)))
        · intro hx
          have : isValidFormat a.format = true := (isValidFormat_iff _).2 (Classical.byContradiction fun x => hc (Or.inl x))
          rw [this] at hx; cases hx
      rw [hex] at he
      unfold runExpressions at he
      split at he
      · cases he
      · rename_i hne
        match hf : a.files with
        | [] => rw [hf] at hne; exact absurd rfl hne
        | f :: r => rw [hf] at he; cases he
  · rintro (h | h | h)
    · exact C34_refused a h
    · by_cases hc : Contradictory a
      · exact C34_refused a hc
      · rw [runEdit_consistent a hc h.1]
        unfold runScript
        rw [if_neg (fun hh => hh h.2.1), if_pos h.2.2]
        exact ⟨_, rfl⟩
    · by_cases hc : Contradictory a
      · exact C34_refused a hc
      · rw [runEdit_consistent a hc h.1.1]
        unfold runScript
        rw [if_neg (fun hh => hh h.2)]
        split
        · exact ⟨_, rfl⟩
        · rw [processFiles_noDestination a h.1]; exact ⟨_, rfl⟩

/-- Consistent and contradictory flags exist. -/
example : Contradictory { backupSuffix := b! ".bak", script := b! "x" } ∧ ¬ Contradictory { script := b! "x", inPlace := true, files := [b! "f", b! "g"] } := by
  constructor
  · exact Or.inr (Or.inr (Or.inl ⟨by simp, rfl⟩))
  · rintro (h | h | h | h)
    · exact h (Or.inl rfl)
    · exact absurd rfl h.1
    · exact absurd rfl h.1
    · exact absurd rfl h.1

/-! ### C32: what a dry run does not do -/

/-- C32. A dry run does not look at the script: for every two (non-empty) scripts it behaves the same, so it also succeeds on
scripts that do not even parse. -/
theorem C32_dry_run_ignores_script [Ext] (a : EditArgs) (h : a.dryRun = true) (he : a.expressions = []) (s : Bytes) (h1 : a.script ≠ [])
    (h2 : s ≠ []) : runEdit { a with script := s } = runEdit a := by
  have hsingle : ∀ script f dest act, processSingle { a with script := s } script f dest act = processSingle a a.script f dest act := by
    intro script f dest act; unfold processSingle; simp only [h, if_true]; rfl
  have hloop : ∀ script fs, inPlaceLoop { a with script := s } script fs = inPlaceLoop a a.script fs := by
    intro script fs
    induction fs with
    | nil => rfl
    | cons f fs ih =>
      unfold inPlaceLoop
      rw [ih]
      congr 1
      unfold inPlaceOne; simp only [h, if_true]; rfl
  have happly : ∀ script script', applyScript { a with script := s } script = applyScript a script' := by
    intro script script'
    have hloop' : ∀ fs, inPlaceLoop a a.script fs = inPlaceLoop a script' fs := by
      intro fs
      induction fs with
      | nil => rfl
      | cons f fs ih =>
        unfold inPlaceLoop
        rw [ih]
        congr 1
        unfold inPlaceOne; simp only [h, if_true]
    have hsingle' : ∀ f dest act, processSingle a a.script f dest act = processSingle a script' f dest act := by
      intro f dest act; unfold processSingle; simp only [h, if_true]
    have hstdin : processStdin { a with script := s } script = processStdin a script' := by
      unfold processStdin; simp only [h, if_true]; rfl
    unfold applyScript processFiles processFilesInPlace
    rw [hstdin]
    simp only [hsingle, hloop, hloop', hsingle']
  have f1 : ({ a with script := s } : EditArgs).format = a.format := rfl
  have f2 : ({ a with script := s } : EditArgs).outputFile = a.outputFile := rfl
  have f3 : ({ a with script := s } : EditArgs).files = a.files := rfl
  have f4 : ({ a with script := s } : EditArgs).backupSuffix = a.backupSuffix := rfl
  have f5 : ({ a with script := s } : EditArgs).inPlace = a.inPlace := rfl
  have f6 : ({ a with script := s } : EditArgs).expressions = a.expressions := rfl
  have f7 : ({ a with script := s } : EditArgs).scriptFile = a.scriptFile := rfl
  have f8 : ({ a with script := s } : EditArgs).script ≠ [] := h2
  generalize ({ a with script := s } : EditArgs) = b at happly f1 f2 f3 f4 f5 f6 f7 f8
  have hexp : ¬ a.expressions.length > 0 := by rw [he]; simp
  unfold runEdit runScript
  rw [f1, f2, f3, f4, f5, f6, f7, if_neg hexp, if_neg hexp, if_neg f8, if_neg h1, happly b.script a.script]
  congr 7
  funext r
  cases r with
  | error e => rfl
  | ok c => exact happly c c

/-! ### C31, C62 -/

theorem append_suffix_ne {f s : Bytes} (h : s ≠ []) : f ++ s ≠ f := fun hh => h (List.append_right_eq_self.1 hh)

/-- The backups of the edited files are not themselves edited. -/
def NoCollision (fs : List Bytes) (suffix : Bytes) : Prop := ∀ f ∈ fs, ∀ g ∈ fs, f ++ suffix ≠ g

theorem inPlaceOne_keeps [Ext] (a : EditArgs) (script f c : Bytes) (hs : a.backupSuffix ≠ []) (w w' : World) (hc : w.files f = some c)
    (h : Sees (inPlaceOne a script f) w w') : w'.files f = some c ∨ w'.files (f ++ a.backupSuffix) = some c := by
  unfold inPlaceOne at h
  obtain ⟨w1, hw1, h⟩ := sees_say h
  rw [← hw1] at hc
  split at h
  · obtain ⟨w2, hw2, h⟩ := sees_say h
    obtain ⟨w3, hw3, h⟩ := sees_say h
    obtain ⟨w4, hw4, h⟩ := sees_say h
    rw [sees_ret.1 h, hw4, hw3, hw2]; exact Or.inl hc
  obtain ⟨w2, hw2, h⟩ := sees_say h
  rw [← hw2] at hc
  have hne : f ≠ f ++ a.backupSuffix := fun hh => append_suffix_ne hs hh.symm
  rcases sees_act.1 h with (rfl | h) | ⟨r, w3, ⟨rfl, ⟨d, hd, rfl⟩ | ⟨e, rfl⟩⟩, h⟩
  · exact Or.inl hc
  · exact h.elim
  · rw [hc] at hd; cases hd
    rcases sees_act.1 h with (rfl | ⟨n, _, rfl⟩) | ⟨r, w4, h4, h⟩
    · exact Or.inl hc
    · rw [World.put_other _ _ _ _ hne]; exact Or.inl hc
    · have hf4 : w4.files f = some c := by
        rw [h4.files f]; exact hc
        rintro p d hpd; cases hpd; exact hne
      cases r with
      | error e =>
        obtain ⟨w5, hw5, h⟩ := sees_say h
        rw [sees_ret.1 h, hw5]; exact Or.inl hf4
      | ok x =>
        refine Or.inr ?_
        rw [(writes_inPlaceEdit a script f).sees h _ hne.symm]
        rcases h4 with ⟨_, rfl⟩ | ⟨e, h4, _⟩
        · exact World.put_same _ _ _
        · cases h4
  · obtain ⟨w5, hw5, h⟩ := sees_say h
    rw [sees_ret.1 h, hw5]; exact Or.inl hc

theorem inPlaceLoop_keeps [Ext] (a : EditArgs) (script : Bytes) (hs : a.backupSuffix ≠ []) (fs : List Bytes) (hnd : fs.Nodup)
    (hcol : NoCollision fs a.backupSuffix) (w w' : World) (h : Sees (inPlaceLoop a script fs) w w') (f c : Bytes) (hf : f ∈ fs)
    (hc : w.files f = some c) : w'.files f = some c ∨ w'.files (f ++ a.backupSuffix) = some c := by
  induction fs generalizing w with
  | nil => cases hf
  | cons g fs ih =>
    obtain ⟨hg, hnd'⟩ := List.nodup_cons.1 hnd
    have hcol' : NoCollision fs a.backupSuffix := fun x hx y hy => hcol x (List.mem_cons_of_mem _ hx) y (List.mem_cons_of_mem _ hy)
    -- editing g does not touch f, if f is another one
    have other : f ∈ fs → ∀ {w w'}, Sees (inPlaceOne a script g) w w' → w'.files f = w.files f := by
      intro hfm w w' h
      refine (writes_inPlaceOne a script g).sees h f ?_
      rintro ⟨_, rfl | ⟨_, h⟩⟩
      · exact hg hfm
      · exact hcol g List.mem_cons_self f (List.mem_cons_of_mem _ hfm) h.symm
    rcases List.mem_cons.1 hf with rfl | hf'
    · rcases sees_bind.1 h with h | ⟨bad, w1, h1, h2⟩
      · exact inPlaceOne_keeps a script f c hs w w' hc h
      · have hw1 := inPlaceOne_keeps a script f c hs w w1 hc (ends_sees h1)
        have hrest : Sees (inPlaceLoop a script fs) w1 w' := by
          rcases sees_bind.1 h2 with h | ⟨b, w2, h3, h4⟩
          · exact h
          · rw [sees_ret.1 h4]; exact ends_sees h3
        have h1 : w'.files f = w1.files f := by
          refine (writes_inPlaceLoop a script fs).sees hrest f ?_
          rintro ⟨_, g, hgm, rfl | ⟨_, h⟩⟩
          · exact hg hgm
          · exact hcol g (List.mem_cons_of_mem _ hgm) f List.mem_cons_self h.symm
        have h2 : w'.files (f ++ a.backupSuffix) = w1.files (f ++ a.backupSuffix) := by
          refine (writes_inPlaceLoop a script fs).sees hrest _ ?_
          rintro ⟨_, g, hgm, h | ⟨_, h⟩⟩
          · exact hcol f List.mem_cons_self g (List.mem_cons_of_mem _ hgm) h
          · exact hg (List.append_cancel_right h ▸ hgm)
        rw [h1, h2]; exact hw1
    · rcases sees_bind.1 h with h | ⟨bad, w1, h1, h2⟩
      · rw [other hf' h]; exact Or.inl hc
      · have hrest : Sees (inPlaceLoop a script fs) w1 w' := by
          rcases sees_bind.1 h2 with h | ⟨b, w2, h3, h4⟩
          · exact h
          · rw [sees_ret.1 h4]; exact ends_sees h3
        exact ih hnd' hcol' w1 hrest hf' (by rw [other hf' (ends_sees h1)]; exact hc)

/-- The command does not write, or it is in-place editing. -/
theorem runEdit_sees [Ext] (a : EditArgs) (w w' : World) (hi : a.inPlace = true) (h : Sees (runEdit a) w w') :
    w'.files = w.files ∨ ∃ script, ScriptOf a w script ∧ Sees (inPlaceLoop a script a.files) w w' := by
  by_cases hx : a.expressions = []
  · by_cases hc : Contradictory a
    · exact Or.inl (by rw [(C34_refused_runs a hc w).1 w' h])
    · rw [runEdit_consistent a hc hx] at h
      have ho : a.outputFile = [] := Classical.byContradiction fun ho => hc (Or.inr (Or.inr (Or.inr ⟨ho, hi⟩)))
      have happly : ∀ script w', Sees (applyScript a script) w w' → w'.files = w.files ∨ Sees (inPlaceLoop a script a.files) w w' := by
        intro script w' h
        have inplace : Sees (processFilesInPlace a script) w w' → Sees (inPlaceLoop a script a.files) w w' := by
          intro h
          rcases sees_bind.1 h with h | ⟨b, w2, h3, h4⟩
          · exact h
          · rw [sees_ret.1 h4]; exact ends_sees h3
        unfold applyScript at h
        split at h
        · refine Or.inl (WritesNothing.sees (p := processStdin a script) ?_ h)
          refine ⟨trivial, fun r => ?_⟩
          cases r with
          | error e => trivial
          | ok c =>
            refine WritesOnly.say ?_
            split
            · exact WritesOnly.say trivial
            · split
              · trivial
              · trivial
              · rw [if_neg (fun hh => hh ho)]; exact ⟨trivial, fun r => writes_returnErr r⟩
        · unfold processFiles at h
          split at h
          · rw [if_neg (fun hh => hh ho), if_pos hi] at h
            exact Or.inr (inplace h)
          · rw [if_neg (by rw [hi]; simp)] at h
            exact Or.inr (inplace h)
      unfold runScript at h
      unfold ScriptOf
      split at h
      · rename_i hs
        rcases sees_act.1 h with (rfl | h) | ⟨r, w1, ⟨rfl, ⟨d, hd, rfl⟩ | ⟨e, rfl⟩⟩, h2⟩
        · exact Or.inl rfl
        · exact h.elim
        · exact (happly _ _ h2).imp id fun h => ⟨d, by rw [if_neg hs]; exact hd, h⟩
        · rw [sees_ret.1 h2]; exact Or.inl rfl
      · rename_i hs
        split at h
        · rw [sees_ret.1 h]; exact Or.inl rfl
        · rename_i h0
          exact (happly _ _ h).imp id fun h => ⟨a.script, by rw [if_pos (Classical.byContradiction hs)]; exact ⟨rfl, h0⟩, h⟩
  · exact Or.inl (C33_expressions_write_nothing a hx w w' h)

/-- C31. With --in-place --backup, at every moment of every run, whatever fails and wherever it crashes, the original contents
of every named file are in the file or in its backup. -/
theorem C31_original_survives [Ext] (a : EditArgs) (hi : a.inPlace = true) (hs : a.backupSuffix ≠ []) (hnd : a.files.Nodup)
    (hcol : ∀ f ∈ a.files, ∀ g ∈ a.files, f ++ a.backupSuffix ≠ g) (w w' : World) (h : Sees (runEdit a) w w') (f c : Bytes)
    (hf : f ∈ a.files) (hc : w.files f = some c) : w'.files f = some c ∨ w'.files (f ++ a.backupSuffix) = some c := by
  rcases runEdit_sees a w w' hi h with h | ⟨script, _, h⟩
  · rw [h]; exact Or.inl hc
  · exact inPlaceLoop_keeps a script hs a.files hnd hcol w w' h f c hf hc

theorem inPlaceEdit_ends [Ext] (a : EditArgs) (script f : Bytes) (w w' : World) (bad : Bool) (h : Ends (inPlaceEdit a script f) w bad w') :
    InPlace (fun c => executeScriptWithFormat c script a.format) (w.files f) bad (w'.files f) ∧ ∀ q, q ≠ f → w'.files q = w.files q := by
  have hother : ∀ q, q ≠ f → w'.files q = w.files q := fun q hq => (writes_inPlaceEdit a script f).sees (ends_sees h) q hq
  refine ⟨?_, hother⟩
  obtain ⟨r, w1, ⟨rfl, ⟨c, hc, rfl⟩ | ⟨e, rfl⟩⟩, h⟩ := ends_act.1 h
  · simp only at h
    cases hx : executeScriptWithFormat c script a.format with
    | panic => rw [hx] at h; exact absurd h ends_panic
    | err e =>
      rw [hx] at h
      obtain ⟨w2, hw2, h⟩ := ends_say h
      obtain ⟨rfl, rfl⟩ := ends_ret.1 h
      rw [hw2, hc]; exact .failed c e hx
    | ok t =>
      rw [hx] at h
      obtain ⟨r, w2, h2, h5⟩ := ends_act.1 h
      rcases h2 with ⟨rfl, rfl⟩ | ⟨e, rfl, rfl | ⟨n, hn, rfl⟩⟩
      · obtain ⟨w3, hw3, h6⟩ := ends_say h5
        obtain ⟨rfl, rfl⟩ := ends_ret.1 h6
        rw [hw3, World.put_same, hc]; exact .edited c t hx
      · obtain ⟨w3, hw3, h6⟩ := ends_say h5
        obtain ⟨rfl, rfl⟩ := ends_ret.1 h6
        rw [hw3]; exact .skipped _
      · obtain ⟨w3, hw3, h6⟩ := ends_say h5
        obtain ⟨rfl, rfl⟩ := ends_ret.1 h6
        rw [hw3, World.put_same, hc]; exact .cut c t n hx hn
  · obtain ⟨w2, hw2, h⟩ := ends_say h
    obtain ⟨rfl, rfl⟩ := ends_ret.1 h
    rw [hw2]; exact .skipped _

theorem inPlaceOne_ends [Ext] (a : EditArgs) (script f : Bytes) (hd : a.dryRun = false) (w w' : World) (bad : Bool)
    (h : Ends (inPlaceOne a script f) w bad w') :
    InPlace (fun c => executeScriptWithFormat c script a.format) (w.files f) bad (w'.files f) ∧
    (a.backupSuffix ≠ [] → bad = false → w'.files (f ++ a.backupSuffix) = w.files f) := by
  unfold inPlaceOne at h
  obtain ⟨w1, hw1, h⟩ := ends_say h
  rw [← hw1, if_neg (by rw [hd]; simp)] at *
  split at h
  · rename_i hs
    obtain ⟨w2, hw2, h⟩ := ends_say h
    rw [← hw2] at *
    have hne : f ≠ f ++ a.backupSuffix := fun hh => append_suffix_ne hs hh.symm
    obtain ⟨r, w3, ⟨rfl, ⟨c, hc, rfl⟩ | ⟨e, rfl⟩⟩, h⟩ := ends_act.1 h
    · obtain ⟨r, w4, h4, h⟩ := ends_act.1 h
      have hf4 : w4.files f = w3.files f := by
        apply h4.files f; rintro p d hpd; cases hpd; exact hne
      cases r with
      | error e =>
        obtain ⟨w5, hw5, h⟩ := ends_say h
        obtain ⟨rfl, rfl⟩ := ends_ret.1 h
        rw [hw5, hf4]
        exact ⟨.skipped _, fun _ h => (nomatch h)⟩
      | ok x =>
        obtain ⟨h5, h6⟩ := inPlaceEdit_ends a script f w4 w' bad h
        rw [hf4] at h5
        refine ⟨h5, fun _ _ => ?_⟩
        rw [h6 _ hne.symm]
        rcases h4 with ⟨_, rfl⟩ | ⟨e, h4, _⟩
        · rw [World.put_same, hc]
        · cases h4
    · obtain ⟨w5, hw5, h⟩ := ends_say h
      obtain ⟨rfl, rfl⟩ := ends_ret.1 h
      rw [hw5]
      exact ⟨.skipped _, fun _ h => (nomatch h)⟩
  · rename_i hs
    exact ⟨(inPlaceEdit_ends a script f w1 w' bad h).1, fun h => absurd h hs⟩

theorem inPlaceLoop_ends [Ext] (a : EditArgs) (script : Bytes) (hd : a.dryRun = false) (fs : List Bytes) (hnd : fs.Nodup)
    (hcol : a.backupSuffix ≠ [] → NoCollision fs a.backupSuffix) (w w' : World) (bad : Bool) (h : Ends (inPlaceLoop a script fs) w bad w') :
    ∃ failed : Bytes → Bool, bad = fs.any failed ∧ ∀ f ∈ fs,
      InPlace (fun c => executeScriptWithFormat c script a.format) (w.files f) (failed f) (w'.files f) ∧
      (a.backupSuffix ≠ [] → failed f = false → w'.files (f ++ a.backupSuffix) = w.files f) := by
  induction fs generalizing w bad with
  | nil => obtain ⟨rfl, rfl⟩ := ends_ret.1 h; exact ⟨fun _ => false, rfl, fun _ h => (nomatch h)⟩
  | cons g fs ih =>
    obtain ⟨hg, hnd'⟩ := List.nodup_cons.1 hnd
    have hcol' : a.backupSuffix ≠ [] → NoCollision fs a.backupSuffix :=
      fun hs x hx y hy => hcol hs x (List.mem_cons_of_mem _ hx) y (List.mem_cons_of_mem _ hy)
    obtain ⟨bad1, w1, h1, h2⟩ := ends_bind.1 h
    obtain ⟨bad2, w2, h3, h4⟩ := ends_bind.1 h2
    obtain ⟨rfl, rfl⟩ := ends_ret.1 h4
    obtain ⟨failed, hbad, hall⟩ := ih hnd' hcol' w1 bad2 h3
    obtain ⟨o1, o2⟩ := inPlaceOne_ends a script g hd w w1 bad1 h1
    have hkeep : ∀ f ∈ fs, w1.files f = w.files f := by
      intro f hf
      refine (writes_inPlaceOne a script g).sees (ends_sees h1) f ?_
      rintro ⟨_, rfl | ⟨hs, h⟩⟩
      · exact hg hf
      · exact hcol hs g List.mem_cons_self f (List.mem_cons_of_mem _ hf) h.symm
    have hg1 : w'.files g = w1.files g := by
      refine (writes_inPlaceLoop a script fs).sees (ends_sees h3) g ?_
      rintro ⟨_, f, hf, rfl | ⟨hs, h⟩⟩
      · exact hg hf
      · exact hcol hs f (List.mem_cons_of_mem _ hf) g List.mem_cons_self h.symm
    have hg2 : a.backupSuffix ≠ [] → w'.files (g ++ a.backupSuffix) = w1.files (g ++ a.backupSuffix) := by
      intro hs
      refine (writes_inPlaceLoop a script fs).sees (ends_sees h3) _ ?_
      rintro ⟨_, f, hf, h | ⟨_, h⟩⟩
      · exact hcol hs g List.mem_cons_self f (List.mem_cons_of_mem _ hf) h
      · exact hg (List.append_cancel_right h ▸ hf)
    refine ⟨fun f => if f = g then bad1 else failed f, ?_, ?_⟩
    · rw [List.any_cons, if_pos rfl, hbad]
      congr 1
      rw [Bool.eq_iff_iff, List.any_eq_true, List.any_eq_true]
      have : ∀ f ∈ fs, (if f = g then bad1 else failed f) = failed f := by
        intro f hf; rw [if_neg]; rintro rfl; exact hg hf
      constructor
      · rintro ⟨f, hf, h⟩; exact ⟨f, hf, by rw [this f hf]; exact h⟩
      · rintro ⟨f, hf, h⟩; exact ⟨f, hf, by rw [this f hf] at h; exact h⟩
    · intro f hf
      rcases List.mem_cons.1 hf with rfl | hf'
      · simp only [if_pos]
        rw [hg1]
        exact ⟨o1, fun hs hb => by rw [hg2 hs]; exact o2 hs hb⟩
      · have hne : f ≠ g := by rintro rfl; exact hg hf'
        simp only [if_neg hne]
        have := hall f hf'
        rw [hkeep f hf'] at this
        exact this

theorem runEdit_inPlace_ends [Ext] (a : EditArgs) (hi : a.inPlace = true) (he : a.expressions = []) (hf : a.files ≠ []) (hc : ¬ Contradictory a)
    (w w' : World) (r : Option Bytes) (h : Ends (runEdit a) w r w') :
    (w' = w ∧ ∃ e, r = some e) ∨
    ∃ script bad, ScriptOf a w script ∧ Ends (inPlaceLoop a script a.files) w bad w' ∧
      r = if bad then some (b! "some files could not be edited") else none := by
  have ho : a.outputFile = [] := Classical.byContradiction fun ho => hc (Or.inr (Or.inr (Or.inr ⟨ho, hi⟩)))
  rw [runEdit_consistent a hc he] at h
  have happly : ∀ script, applyScript a script = processFilesInPlace a script := by
    intro script
    unfold applyScript
    rw [if_neg (by simpa using hf)]
    unfold processFiles
    split
    · rw [if_neg (fun hh => hh ho), if_pos hi]
    · rw [if_neg (by rw [hi]; simp)]
  have hin : ∀ script, Ends (applyScript a script) w r w' → ∃ bad, Ends (inPlaceLoop a script a.files) w bad w' ∧
      r = if bad then some (b! "some files could not be edited") else none := by
    intro script h
    rw [happly] at h
    obtain ⟨bad, w1, h1, h2⟩ := ends_bind.1 h
    obtain ⟨rfl, rfl⟩ := ends_ret.1 h2
    exact ⟨bad, h1, rfl⟩
  unfold runScript at h
  unfold ScriptOf
  split at h
  · rename_i hs
    obtain ⟨r', w1, ⟨rfl, ⟨d, hd, rfl⟩ | ⟨e, rfl⟩⟩, h2⟩ := ends_act.1 h
    · obtain ⟨bad, h3⟩ := hin d h2
      exact Or.inr ⟨d, bad, by rw [if_neg hs]; exact hd, h3⟩
    · obtain ⟨rfl, rfl⟩ := ends_ret.1 h2; exact Or.inl ⟨rfl, _, rfl⟩
  · rename_i hs
    have hs : a.scriptFile = [] := Classical.byContradiction hs
    split at h
    · obtain ⟨rfl, rfl⟩ := ends_ret.1 h; exact Or.inl ⟨rfl, _, rfl⟩
    · rename_i h0
      obtain ⟨bad, h3⟩ := hin _ h
      exact Or.inr ⟨a.script, bad, by rw [if_pos hs]; exact ⟨rfl, h0⟩, h3⟩

/-- C62. In-place editing of different files whose backups do not collide, whatever fails: either nothing happened and the
command failed, or every file was treated on its own (its contents at the start edited, or left alone, or a failed write), and
the command reports success exactly if every single file was edited. -/
theorem C62_in_place [Ext] (a : EditArgs) (hi : a.inPlace = true) (he : a.expressions = []) (hd : a.dryRun = false) (hf : a.files ≠ [])
    (hnd : a.files.Nodup) (hcol : a.backupSuffix ≠ [] → ∀ f ∈ a.files, ∀ g ∈ a.files, f ++ a.backupSuffix ≠ g) (hc : ¬ Contradictory a)
    (w w' : World) (r : Option Bytes) (h : Ends (runEdit a) w r w') :
    (w' = w ∧ ∃ e, r = some e) ∨
    ∃ script, ScriptOf a w script ∧ ∃ failed : Bytes → Bool,
      (r = none ↔ ∀ f ∈ a.files, failed f = false) ∧
      ∀ f ∈ a.files, InPlace (fun c => executeScriptWithFormat c script a.format) (w.files f) (failed f) (w'.files f) := by
  rcases runEdit_inPlace_ends a hi he hf hc w w' r h with h | ⟨script, bad, hs, h1, hr⟩
  · exact Or.inl h
  · obtain ⟨failed, hbad, hall⟩ := inPlaceLoop_ends a script hd a.files hnd hcol w w' bad h1
    refine Or.inr ⟨script, hs, failed, ?_, fun f hf => (hall f hf).1⟩
    rw [hr, hbad]
    cases hany : a.files.any failed with
    | true =>
      rw [List.any_eq_true] at hany
      obtain ⟨f, hf, hff⟩ := hany
      constructor
      · intro h; cases h
      · intro h; rw [h f hf] at hff; cases hff
    | false =>
      rw [List.any_eq_false] at hany
      exact ⟨fun _ f hf => by simpa using hany f hf, fun _ => rfl⟩

/-- C31. After a successful run every file holds the output of the script and its backup the original. -/
theorem C31_success [Ext] (a : EditArgs) (hi : a.inPlace = true) (he : a.expressions = []) (hd : a.dryRun = false) (hf : a.files ≠ [])
    (hs : a.backupSuffix ≠ []) (hnd : a.files.Nodup) (hcol : ∀ f ∈ a.files, ∀ g ∈ a.files, f ++ a.backupSuffix ≠ g)
    (w w' : World) (h : Ends (runEdit a) w none w') :
    ∃ script, ScriptOf a w script ∧ ∀ f ∈ a.files, ∃ c t, w.files f = some c ∧ executeScriptWithFormat c script a.format = .ok t ∧
      w'.files f = some t ∧ w'.files (f ++ a.backupSuffix) = some c := by
  have hc : ¬ Contradictory a := by
    intro hc
    obtain ⟨e, he⟩ := (C34_refused_runs a hc w).2.1 _ _ h
    cases he
  rcases runEdit_inPlace_ends a hi he hf hc w w' _ h with ⟨_, _, h⟩ | ⟨script, bad, hsc, h1, hr⟩
  · cases h
  · obtain ⟨failed, hbad, hall⟩ := inPlaceLoop_ends a script hd a.files hnd (fun _ => hcol) w w' bad h1
    have hb : bad = false := by cases bad with | false => rfl | true => cases hr
    rw [hb] at hbad
    have hbad := List.any_eq_false.1 hbad.symm
    refine ⟨script, hsc, fun f hf => ?_⟩
    obtain ⟨o1, o2⟩ := hall f hf
    have hff : failed f = false := by simpa using hbad f hf
    have o2 := o2 hs hff
    rw [hff] at o1
    generalize hb : w.files f = before at o1 o2
    generalize ha : w'.files f = after at o1
    cases o1 with
    | edited c t hx => exact ⟨c, t, rfl, hx, rfl, o2⟩

/-- C31, negative result: without --backup there is a moment at which the contents of the file are gone, whenever the script
succeeds on it. -/
theorem C31_without_backup [Ext] (a : EditArgs) (hi : a.inPlace = true) (he : a.expressions = []) (hd : a.dryRun = false)
    (hs : a.backupSuffix = []) (hc : ¬ Contradictory a) (w : World) (script : Bytes) (hscript : ScriptOf a w script)
    (f : Bytes) (rest : List Bytes) (hf : a.files = f :: rest) (c t : Bytes) (hfc : w.files f = some c)
    (hx : executeScriptWithFormat c script a.format = .ok t) :
    ∃ w', Sees (runEdit a) w w' ∧ w'.files f = some [] := by
  have ho : a.outputFile = [] := Classical.byContradiction fun ho => hc (Or.inr (Or.inr (Or.inr ⟨ho, hi⟩)))
  have hone : ∃ w', Sees (inPlaceOne a script f) w w' ∧ w'.files f = some [] := by
    let w1 := w.printed a.loud (b! "Processing " ++ f ++ b! " in place\n")
    have hw1 : w1.files f = some c := by rw [World.printed_files]; exact hfc
    refine ⟨w1.put f [], ?_, World.put_same _ _ _⟩
    unfold inPlaceOne
    apply sees_say_of
    rw [if_neg (by rw [hd]; simp), if_neg (fun hh => hh hs)]
    refine sees_act.2 (Or.inr ⟨.ok c, w1, ⟨rfl, Or.inl ⟨c, hw1, rfl⟩⟩, ?_⟩)
    simp only [hx]
    exact sees_act.2 (Or.inl (Or.inr ⟨0, Nat.zero_le _, rfl⟩))
  obtain ⟨w', h1, h2⟩ := hone
  refine ⟨w', ?_, h2⟩
  have happly : Sees (applyScript a script) w w' := by
    have h3 : Sees (processFilesInPlace a script) w w' := by
      unfold processFilesInPlace
      rw [hf]
      exact sees_bind.2 (Or.inl (sees_bind.2 (Or.inl h1)))
    unfold applyScript
    rw [if_neg (by rw [hf]; simp)]
    unfold processFiles
    split
    · rw [if_neg (fun hh => hh ho), if_pos hi]; exact h3
    · rw [if_neg (by rw [hi]; simp)]; exact h3
  rw [runEdit_consistent a hc he]
  unfold runScript
  unfold ScriptOf at hscript
  split
  · rename_i hsf
    rw [if_neg hsf] at hscript
    exact sees_act.2 (Or.inr ⟨.ok script, w, ⟨rfl, Or.inl ⟨script, hscript, rfl⟩⟩, happly⟩)
  · rename_i hsf
    rw [if_pos (Classical.byContradiction hsf)] at hscript
    obtain ⟨rfl, h0⟩ := hscript
    rw [if_neg h0]; exact happly

/-- Two files, both on their way to be edited, with a script that succeeds on one and fails on the other. -/
def twoFiles : World := ⟨fun q => if q = b! "f" then some (b! "hello") else if q = b! "g" then some (b! "world") else none, [], []⟩

/-- The hypotheses of `C31_original_survives`, `C31_success` and `C62_in_place` are met. -/
example : let a : EditArgs := { script := b! "search-forward \"l\"; insert \"X\"", files := [b! "f", b! "g"], inPlace := true, backupSuffix := b! "~" }
    ¬ Contradictory a ∧ a.files.Nodup ∧ (∀ f ∈ a.files, ∀ g ∈ a.files, f ++ a.backupSuffix ≠ g) ∧
    let r := @runOk _ (fun _ => []) (@runEdit litExt a) twoFiles
    r.1 = some none ∧ r.2.files (b! "f") = some (b! "helXlo") ∧ r.2.files (b! "f~") = some (b! "hello") ∧
      r.2.files (b! "g") = some (b! "worlXd") ∧ r.2.files (b! "g~") = some (b! "world") := by
  refine ⟨?_, by decide, by decide, by decide +kernel⟩
  rintro (h | h | h | h)
  · exact h (Or.inl rfl)
  · exact absurd rfl h.1
  · exact absurd h.2 (by decide)
  · exact absurd rfl h.1

/-- C31, negative result: a file named twice is lost without any failure: the second round overwrites the backup with the
edited text. -/
theorem C31_false_named_twice : let r := @runOk _ (fun _ => []) (@runEdit litExt
      { script := b! "insert \"X\"", files := [b! "f", b! "f"], inPlace := true, backupSuffix := b! "~" }) twoFiles
    r.1 = some none ∧ r.2.files (b! "f") = some (b! "XXhello") ∧ r.2.files (b! "f~") = some (b! "Xhello") := by
  decide +kernel

/-- C31, negative result: so is a file whose name is the backup name of another one. -/
theorem C31_false_collision :
    let w := twoFiles.put (b! "f~") (b! "precious")
    let r := @runOk _ (fun _ => []) (@runEdit litExt { script := b! "insert \"X\"", files := [b! "f", b! "f~"], inPlace := true, backupSuffix := b! "~" }) w
    r.1 = some none ∧ r.2.files (b! "f") = some (b! "Xhello") ∧ r.2.files (b! "f~") = some (b! "Xhello") ∧
      r.2.files (b! "f~~") = some (b! "hello") := by
  decide +kernel

/-- C62 with a failing file: the other one is edited, and the command fails. -/
example : let r := @runOk _ (fun _ => []) (@runEdit litExt
      { script := b! "search-forward \"h\"; insert \"X\"", files := [b! "g", b! "f"], inPlace := true }) twoFiles
    r.1 = some (some (b! "some files could not be edited")) ∧ r.2.files (b! "f") = some (b! "hXello") ∧
      r.2.files (b! "g") = some (b! "world") := by
  decide +kernel

end Texted
