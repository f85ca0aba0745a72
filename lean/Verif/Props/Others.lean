import Verif.Spec.Others
import Verif.Props.Links
/-
C87: other programs changing files meanwhile.
-/
namespace Texted
open Spec

variable {α β : Type}

/-! ### Others that leave the program's files alone -/

/-- Every name the program still uses is in `S`. -/
def RunMentions (S : Bytes → Prop) : Run α → Prop
  | .at p => Mentions S p
  | .writing p _ _ k => S p ∧ ∀ r, Mentions S (k r)

/-- The two worlds agree on the files in `S`, on standard input and output. -/
def Same (S : Bytes → Prop) (w u : World) : Prop := (∀ q, S q → u.files q = w.files q) ∧ u.input = w.input ∧ u.out = w.out

theorem same_put {S : Bytes → Prop} {w u : World} (h : Same S w u) (p d : Bytes) : Same S (w.put p d) (u.put p d) := by
  refine ⟨fun q hq => ?_, h.2⟩
  simp only [World.put]
  split
  · rfl
  · exact h.1 q hq

theorem step_same {S : Bytes → Prop} {r r' : Run α} {w w' u : World} (hs : Step (r, w) (r', w')) (hm : RunMentions S r) (hu : Same S w u) :
    RunMentions S r' ∧ ∃ u', Step (r, u) (r', u') ∧ Same S w' u' := by
  cases hs with
  | readOk h => exact ⟨hm.2 _, u, .readOk ((hu.1 _ hm.1).trans h), hu⟩
  | readErr => exact ⟨hm.2 _, u, .readErr, hu⟩
  | stdinOk => exact ⟨hm.2 _, { u with input := [] }, (by have := @Step.stdinOk α; rw [← hu.2.1]; exact this), ⟨hu.1, rfl, hu.2.2⟩⟩
  | stdinErr => exact ⟨hm.2 _, _, .stdinErr, ⟨hu.1, rfl, hu.2.2⟩⟩
  | printOk => exact ⟨hm.2 _, _, .printOk, ⟨hu.1, hu.2.1, by simp [hu.2.2]⟩⟩
  | @printErr d n e k w => exact ⟨hm.2 _, _, .printErr (n := n), ⟨hu.1, hu.2.1, by simp [hu.2.2]⟩⟩
  | openErr => exact ⟨hm.2 _, u, .openErr, hu⟩
  | «open» => exact ⟨hm, _, .open, same_put hu _ _⟩
  | piece h1 h2 => exact ⟨hm, _, .piece h1 h2, by rw [hu.1 _ hm.1]; exact same_put hu _ _⟩
  | writeErr => exact ⟨hm.2 _, u, .writeErr, hu⟩
  | close => exact ⟨hm.2 _, u, .close, hu⟩

/-- While the others leave alone the files the program uses, it runs as if alone, as far as these files, input and output are concerned. -/
theorem among_alone {S : Bytes → Prop} {c c' : Run α × World} (h : Among (Leave S) c c') : RunMentions S c.1 → ∀ u, Same S c.2 u →
    ∃ u', Steps (c.1, u) (c'.1, u') ∧ Same S c'.2 u' := by
  induction h with
  | refl => intro _ u hu; exact ⟨u, .refl, hu⟩
  | own s _ ih =>
    intro hm u hu
    obtain ⟨hm', u1, h1, h2⟩ := step_same s hm hu
    obtain ⟨u', h3, h4⟩ := ih hm' u1 h2
    exact ⟨u', .step h1 h3, h4⟩
  | other ho hi hout _ ih =>
    intro hm u hu
    exact ih hm u ⟨fun q hq => (hu.1 q hq).trans (ho q hq).symm, hu.2.1.trans hi.symm, hu.2.2.trans hout.symm⟩

theorem same_refl (S : Bytes → Prop) (w : World) : Same S w w := ⟨fun _ _ => rfl, rfl, rfl⟩

theorem endsAmong_alone {S : Bytes → Prop} {p : Proc α} (hm : Mentions S p) {w w' : World} {a : α} (h : EndsAmong (Leave S) p w a w') :
    ∃ u, Ends p w a u ∧ Same S w' u := among_alone h hm w (same_refl S w)

theorem seesAmong_alone {S : Bytes → Prop} {p : Proc α} (hm : Mentions S p) {w w' : World} (h : SeesAmong (Leave S) p w w') :
    ∃ u, Sees p w u ∧ Same S w' u := by
  obtain ⟨r, h⟩ := h
  obtain ⟨u, h1, h2⟩ := among_alone h hm w (same_refl S w)
  exact ⟨u, ⟨r, h1⟩, h2⟩

theorem mentions_editFileBy (exec : Bytes → Res Bytes Bytes) (f : Bytes) : Mentions (· = f) (editFileBy exec f) := by
  refine ⟨rfl, fun r => ?_⟩
  cases r with
  | error e => trivial
  | ok c =>
    simp only
    cases exec c with
    | err m => trivial
    | panic => trivial
    | ok t => refine ⟨rfl, fun r => ?_⟩; cases r <;> trivial

theorem Mentions.mono {S T : Bytes → Prop} {p : Proc α} (h : Mentions S p) (hST : ∀ q, S q → T q) : Mentions T p := by
  induction p with
  | ret a => trivial
  | panic => trivial
  | act a k ih =>
    refine ⟨?_, fun r => ih r (h.2 r)⟩
    have := h.1
    cases a with
    | write p d => exact hST p this
    | read p => exact hST p this
    | print => trivial
    | stdin => trivial

theorem mentions_editFilesBy (exec : Bytes → Res Bytes Bytes) (fs : List Bytes) : Mentions (· ∈ fs) (editFilesBy (editFileBy exec) fs) := by
  induction fs with
  | nil => trivial
  | cons f fs ih =>
    refine Mentions.bind ((mentions_editFileBy exec f).mono fun q hq => hq ▸ List.mem_cons_self) fun e => ?_
    exact Mentions.bind (ih.mono fun q hq => List.mem_cons_of_mem _ hq) fun _ => trivial

/-- C87. `EditFile`, while others change whatever other files they like: the outcome for the file is as if nobody else were there (C29). -/
theorem C87_edit_file [Ext] (f script : Bytes) (w : World) (e : Option Bytes) (w' : World)
    (h : EndsAmong (Leave (· = f)) (editFile f script) w e w') :
    EditOutcome (fun c => executeScript c script) f (w.files f) e (w'.files f) := by
  obtain ⟨u, h1, h2⟩ := endsAmong_alone (mentions_editFileBy _ f) h
  rw [← h2.1 f rfl]
  exact ((C29_outcomes f script w e u).1 h1).1

/-- C87. `EditFiles` of different files, while others change other files (C30). -/
theorem C87_edit_files [Ext] (fs : List Bytes) (hnd : fs.Nodup) (script : Bytes) (w : World) (rs : List EditResult) (w' : World)
    (h : EndsAmong (Leave (· ∈ fs)) (editFiles fs script) w rs w') :
    rs.map (·.filename) = fs ∧
    ∀ r ∈ rs, EditOutcome (fun c => executeScript c script) r.filename (w.files r.filename) r.error (w'.files r.filename) := by
  obtain ⟨u, h1, h2⟩ := endsAmong_alone (mentions_editFilesBy _ fs) h
  obtain ⟨i1, i2, _⟩ := (C30_independent fs hnd script w rs u).1 h1
  refine ⟨i1, fun r hr => ?_⟩
  have hmem : r.filename ∈ fs := i1 ▸ List.mem_map_of_mem hr
  rw [← h2.1 _ hmem]
  exact i2 r hr

/-- The names a `texted edit` command uses in script mode: the files, their backups, the script file. -/
def usedNames (a : EditArgs) (q : Bytes) : Prop := InPlaceName a q ∨ (a.scriptFile ≠ [] ∧ q = a.scriptFile)

theorem mentions_runEdit [Ext] (a : EditArgs) (hi : a.inPlace = true) (he : a.expressions = []) (hf : a.files ≠ []) (hc : ¬ Contradictory a) :
    Mentions (usedNames a) (runEdit a) := by
  obtain ⟨h1, h2⟩ := inPlace_form a hi he hf hc
  have h3 : ∀ script, Mentions (usedNames a) (applyScript a script) := by
    intro script
    rw [h2]
    exact Mentions.bind ((mentions_all a script).mono fun q hq => .inl hq) fun _ => trivial
  rw [h1]
  unfold runScript
  split
  · rename_i hs
    refine ⟨.inr ⟨hs, rfl⟩, fun r => ?_⟩
    cases r with
    | error e => trivial
    | ok s => exact h3 s
  · split
    · trivial
    · exact h3 _

/-- C87. In-place editing, while others change other files: every file is treated on its own (C62), and what is printed is what would be printed
if nobody else were there. -/
theorem C87_in_place [Ext] (a : EditArgs) (hi : a.inPlace = true) (he : a.expressions = []) (hd : a.dryRun = false) (hf : a.files ≠ [])
    (hnd : a.files.Nodup) (hcol : a.backupSuffix ≠ [] → ∀ f ∈ a.files, ∀ g ∈ a.files, f ++ a.backupSuffix ≠ g) (hc : ¬ Contradictory a)
    (w w' : World) (r : Option Bytes) (h : EndsAmong (Leave (usedNames a)) (runEdit a) w r w') :
    (∃ u, Ends (runEdit a) w r u ∧ u.out = w'.out) ∧
    ((∃ e, r = some e) ∧ (∀ f ∈ a.files, w'.files f = w.files f) ∨
    ∃ script, ScriptOf a w script ∧ ∃ failed : Bytes → Bool,
      (r = none ↔ ∀ f ∈ a.files, failed f = false) ∧
      ∀ f ∈ a.files, InPlace (fun c => executeScriptWithFormat c script a.format) (w.files f) (failed f) (w'.files f)) := by
  obtain ⟨u, h1, h2⟩ := endsAmong_alone (mentions_runEdit a hi he hf hc) h
  refine ⟨⟨u, h1, h2.2.2⟩, ?_⟩
  rcases C62_in_place a hi he hd hf hnd hcol hc w u r h1 with ⟨rfl, h3⟩ | ⟨script, hs, failed, h3, h4⟩
  · exact .inl ⟨h3, fun f hf => (h2.1 f (.inl (.inl hf))).symm⟩
  · exact .inr ⟨script, hs, failed, h3, fun f hf => by rw [← h2.1 f (.inl (.inl hf))]; exact h4 f hf⟩

/-- C87. With --in-place --backup, while others change other files, the original is at every moment in the file or in its backup (C31). -/
theorem C87_original_survives [Ext] (a : EditArgs) (hi : a.inPlace = true) (he : a.expressions = []) (hs : a.backupSuffix ≠ [])
    (hnd : a.files.Nodup) (hcol : ∀ f ∈ a.files, ∀ g ∈ a.files, f ++ a.backupSuffix ≠ g) (hc : ¬ Contradictory a) (w w' : World)
    (h : SeesAmong (Leave (usedNames a)) (runEdit a) w w') (f c : Bytes) (hf : f ∈ a.files) (hfc : w.files f = some c) :
    w'.files f = some c ∨ w'.files (f ++ a.backupSuffix) = some c := by
  have hne : a.files ≠ [] := fun h => by rw [h] at hf; cases hf
  obtain ⟨u, h1, h2⟩ := seesAmong_alone (mentions_runEdit a hi he hne hc) h
  rw [← h2.1 f (.inl (.inl hf)), ← h2.1 _ (.inl (.inr ⟨hs, f, hf, rfl⟩))]
  exact C31_original_survives a hi hs hnd hcol w u h1 f c hf hfc

/-! ### Others that do whatever they like -/

/-- No write is left in the run. -/
def RunSilent : Run α → Prop
  | .at p => WritesNothing p
  | .writing _ _ _ _ => False

theorem among_silent {others : World → World → Prop} {c c' : Run α × World} (h : Among others c c') :
    RunSilent c.1 → Doing others c.2.files c'.2.files := by
  induction h with
  | refl => intro _; exact .nothing _
  | @own a b c s _ ih =>
    intro hm
    cases s with
    | readOk h => exact ih (hm.2 _)
    | readErr => exact ih (hm.2 _)
    | stdinOk => exact ih (hm.2 _)
    | stdinErr => exact ih (hm.2 _)
    | printOk => exact ih (hm.2 _)
    | printErr => exact ih (hm.2 _)
    | openErr => exact hm.1.elim
    | «open» => exact hm.1.elim
    | piece h1 h2 => exact hm.elim
    | writeErr => exact hm.elim
    | close => exact hm.elim
  | other ho _ _ _ ih => intro hm; exact .then ho (ih hm)

/-- C87. With --dry-run, while others do whatever they like: what happens to the files is the others' doing alone. -/
theorem C87_dry_run [Ext] (others : World → World → Prop) (a : EditArgs) (h : a.dryRun = true) (w w' : World)
    (hs : SeesAmong others (runEdit a) w w') : Doing others w.files w'.files := by
  obtain ⟨r, hs⟩ := hs
  exact among_silent hs (show WritesNothing (runEdit a) from
    (writes_runEdit a).mono fun q hq => by have := hq.1; rw [h] at this; cases this)

/-- C87. Without --in-place and --output, while others do whatever they like: what happens to the files is the others' doing alone. -/
theorem C87_no_output [Ext] (others : World → World → Prop) (a : EditArgs) (h : a.inPlace = false) (ho : a.outputFile = []) (w w' : World)
    (hs : SeesAmong others (runEdit a) w w') : Doing others w.files w'.files := by
  obtain ⟨r, hs⟩ := hs
  exact among_silent hs (show WritesNothing (runEdit a) from (writes_runEdit a).mono fun q hq => by
    have := hq.2.2
    rw [if_neg (by rw [h]; simp)] at this
    exact this.1 ho)

theorem among_ret {others : World → World → Prop} {a b : α} {w w' : World} (h : Among others (.at (.ret a), w) (.at (.ret b), w')) : a = b := by
  generalize hx : ((.at (.ret a), w) : Run α × World) = x at h
  generalize hy : ((.at (.ret b), w') : Run α × World) = y at h
  induction h generalizing w with
  | refl => rw [← hx] at hy; cases hy; rfl
  | own s _ _ => rw [← hx] at s; cases s
  | other _ _ _ _ ih => cases hx; exact ih rfl hy

theorem among_panic {others : World → World → Prop} {b : α} {w w' : World} (h : Among others (.at .panic, w) (.at (.ret b), w')) : False := by
  generalize hx : ((.at .panic, w) : Run α × World) = x at h
  generalize hy : ((.at (.ret b), w') : Run α × World) = y at h
  induction h generalizing w with
  | refl => rw [← hx] at hy; cases hy
  | own s _ _ => rw [← hx] at s; cases s
  | other _ _ _ _ ih => cases hx; exact ih rfl hy

theorem among_read {others : World → World → Prop} {p : Bytes} {k : Except Bytes Bytes → Proc α} {b : α} {w w' : World}
    (h : Among others (.at (.act (.read p) k), w) (.at (.ret b), w')) :
    ∃ r w1, Among others (.at (.act (.read p) k), w) (.at (.act (.read p) k), w1) ∧ Among others (.at (.act (.read p) k), w1) (.at (.ret b), w') ∧
      ((∃ d, w1.files p = some d ∧ r = .ok d) ∨ ∃ e, r = .error e) ∧ Among others (.at (k r), w1) (.at (.ret b), w') := by
  generalize hx : ((.at (.act (.read p) k), w) : Run α × World) = x at h
  generalize hy : ((.at (.ret b), w') : Run α × World) = y at h
  induction h generalizing w with
  | refl => rw [← hx] at hy; cases hy
  | own s t _ =>
    subst hx hy
    cases s with
    | readOk h => exact ⟨_, w, .refl, .own (.readOk h) t, .inl ⟨_, h, rfl⟩, t⟩
    | readErr => exact ⟨_, w, .refl, .own .readErr t, .inr ⟨_, rfl⟩, t⟩
  | other h hi ho t ih =>
    cases hx
    obtain ⟨r, w1, h1, h2, h3, h4⟩ := ih rfl hy
    exact ⟨r, w1, .other h hi ho h1, hy ▸ h2, h3, hy ▸ h4⟩

/-- C87. Whatever the others do: if `EditFile` reports success, then there was a moment during the call at which the file held a text on which
the script succeeds (that text was edited). -/
theorem C87_from_a_moment [Ext] (others : World → World → Prop) (f script : Bytes) (w w' : World)
    (h : EndsAmong others (editFile f script) w none w') :
    ∃ r1 w1 c t, Among others (.at (editFile f script), w) (r1, w1) ∧ Among others (r1, w1) (.at (.ret none), w') ∧
      w1.files f = some c ∧ executeScript c script = .ok t := by
  obtain ⟨r, w1, h1, h2, h3, h4⟩ := among_read h
  rcases h3 with ⟨c, hc, rfl⟩ | ⟨e, rfl⟩
  · simp only at h4
    cases hx : executeScript c script with
    | err m => rw [hx] at h4; cases among_ret h4
    | panic => rw [hx] at h4; exact (among_panic h4).elim
    | ok t => exact ⟨_, w1, c, t, h1, h2, hc, hx⟩
  · cases among_ret h4

/-- C87. `EditFile` with a script that succeeds on no text (one that cannot be parsed, say), while others do whatever they like: what happens to
the files is the others' doing alone, and the call does not report success. -/
theorem C87_failing_script [Ext] (others : World → World → Prop) (f script : Bytes) (hx : ∀ c t, executeScript c script ≠ .ok t) (w w' : World) :
    (SeesAmong others (editFile f script) w w' → Doing others w.files w'.files) ∧ ¬ EndsAmong others (editFile f script) w none w' := by
  constructor
  · rintro ⟨r, hs⟩
    refine among_silent hs (show WritesNothing (editFile f script) from ⟨trivial, fun r => ?_⟩)
    cases r with
    | error e => trivial
    | ok c =>
      simp only
      cases h : executeScript c script with
      | err m => trivial
      | panic => trivial
      | ok t => exact absurd h (hx c t)
  · intro h
    obtain ⟨_, _, c, t, _, _, _, h⟩ := C87_from_a_moment others f script w w' h
    exact hx c t h

/-! ### What goes wrong when others change the same files -/

theorem Among.trans {others : World → World → Prop} {a b c : Run α × World} (h1 : Among others a b) (h2 : Among others b c) : Among others a c := by
  induction h1 with
  | refl => exact h2
  | own s _ ih => exact .own s (ih h2)
  | other h hi ho _ ih => exact .other h hi ho (ih h2)

theorem among_of_steps {others : World → World → Prop} {a b : Run α × World} (h : Steps a b) : Among others a b := by
  induction h with
  | refl => exact .refl
  | step s _ ih => exact .own s ih

/-- Run a program, then another one on its result. -/
def Run.then (f : α → Proc β) : Run α → Run β
  | .at p => .at (p.bind f)
  | .writing p d n k => .writing p d n fun r => (k r).bind f

theorem step_then (f : α → Proc β) {r r' : Run α} {w w' : World} (h : Step (r, w) (r', w')) : Step (r.then f, w) (r'.then f, w') := by
  cases h with
  | readOk h => exact .readOk h
  | readErr => exact .readErr
  | stdinOk => exact .stdinOk
  | stdinErr => exact .stdinErr
  | printOk => exact .printOk
  | printErr => exact .printErr
  | openErr => exact .openErr
  | «open» => exact .open
  | piece h1 h2 => exact .piece h1 h2
  | writeErr => exact .writeErr
  | close => exact .close

theorem among_then (f : α → Proc β) {others : World → World → Prop} {c c' : Run α × World} (h : Among others c c') :
    Among others (c.1.then f, c.2) (c'.1.then f, c'.2) := by
  induction h with
  | refl => exact .refl
  | own s _ ih => exact .own (step_then f s) ih
  | other h hi ho _ ih => exact .other h hi ho ih

theorem endsAmong_bind {others : World → World → Prop} {p : Proc α} {f : α → Proc β} {w w1 w' : World} {a : α} {b : β}
    (h1 : EndsAmong others p w a w1) (h2 : EndsAmong others (f a) w1 b w') : EndsAmong others (p.bind f) w b w' :=
  (among_then f h1).trans h2

theorem endsAmong_act {others : World → World → Prop} {a : Act} {k : Except Bytes Bytes → Proc α} {w w1 w' : World} {r : Except Bytes Bytes} {b : α}
    (h1 : ActEnds a w r w1) (h2 : EndsAmong others (k r) w1 b w') : EndsAmong others (.act a k) w b w' :=
  (among_of_steps (act_steps h1)).trans h2

theorem among_say {others : World → World → Prop} (c : Bool) (t : Bytes) (k : Proc α) (w : World) :
    Among others (.at (say c t k), w) (.at k, w.printed c t) := by
  unfold say World.printed
  split
  · exact .own .printOk .refl
  · exact .refl

theorem among_act {others : World → World → Prop} {a : Act} {k : Except Bytes Bytes → Proc α} {w w1 : World} {r : Except Bytes Bytes}
    (h : ActEnds a w r w1) : Among others (.at (.act a k), w) (.at (k r), w1) := among_of_steps (act_steps h)

theorem among_act_then {others : World → World → Prop} {a : Act} {k : Except Bytes Bytes → Proc α} {w w1 : World} {c : Run α × World}
    (r : Except Bytes Bytes) (h2 : Among others (.at (k r), w1) c) (h1 : ActEnds a w r w1) : Among others (.at (.act a k), w) c :=
  (among_act h1).trans h2

/-- Nobody else acts. -/
def Quiet : World → World → Prop := fun _ _ => False

/-- C87, negative result: what another program saves between the reading and the writing of a file is lost without a word: `EditFile` reports
success, and the file holds the output on the older text. -/
theorem C87_false_lost_update [Ext] (f script c t theirs : Bytes) (w : World) (hc : w.files f = some c) (hx : executeScript c script = .ok t) :
    ∃ r, Among (OnlyChange f) (.at (editFile f script), w) (r, w.put f theirs) ∧
      Among Quiet (r, w.put f theirs) (.at (.ret none), w.put f t) := by
  refine ⟨_, (among_of_steps (editFile_read f script c t w hc hx)).trans (.other (w1 := w.put f theirs) (fun q hq => World.put_other _ _ _ _ hq) rfl rfl .refl), ?_⟩
  have := act_steps (a := .write f t) (k := fun r =>
        match r with
        | .error e => Proc.ret (some (b! "failed to write file " ++ f ++ b! ": " ++ e))
        | .ok _ => .ret none) (w := w.put f theirs) (r := .ok []) (w1 := (w.put f theirs).put f t) (Or.inl ⟨rfl, rfl⟩)
  rw [World.put_put] at this
  exact among_of_steps this

/-- C87, negative result: --backup reads the file for the backup, and then again for the editing. What another program saves in between is edited,
but not backed up: the command reports success, the backup holds the older text, and the newer one is nowhere. -/
theorem C87_false_stale_backup [Ext] (a : EditArgs) (hi : a.inPlace = true) (he : a.expressions = []) (hd : a.dryRun = false)
    (hs : a.backupSuffix ≠ []) (hc : ¬ Contradictory a) (w : World) (script : Bytes) (hscript : ScriptOf a w script) (f : Bytes)
    (hf : a.files = [f]) (older newer t : Bytes) (hfc : w.files f = some older) (hx : executeScriptWithFormat newer script a.format = .ok t) :
    ∃ r w1 w', Among (OnlyChange f) (.at (runEdit a), w) (r, w1) ∧ w1.files f = some newer ∧
      Among Quiet (r, w1) (.at (.ret none), w') ∧
      w'.files = ((w.put (f ++ a.backupSuffix) older).put f t).files := by
  obtain ⟨h1, h2⟩ := inPlace_form a hi he (by rw [hf]; simp) hc
  let wa := w.printed a.loud (b! "Processing " ++ f ++ b! " in place\n")
  let wb := wa.printed a.loud (b! "Creating backup " ++ (f ++ a.backupSuffix) ++ [nl])
  let wc := wb.put (f ++ a.backupSuffix) older
  let wd := wc.put f newer
  let we := wd.put f t
  let wf := we.printed (!a.quiet) (b! "✓ Successfully edited " ++ f ++ [nl])
  have hb : wb.files = w.files := by rw [World.printed_files, World.printed_files]
  let k : Bool → Proc (Option Bytes) := fun bad =>
    ((inPlaceLoop a script []).bind fun bad' => .ret (bad || bad')).bind fun bad =>
      .ret (if bad then some (b! "some files could not be edited") else none)
  have hform : applyScript a script = (inPlaceOne a script f).bind k := by
    rw [h2, processFilesInPlace, hf, inPlaceLoop]
    generalize inPlaceOne a script f = p
    induction p with
    | ret b => rfl
    | panic => rfl
    | act x q ih => simp only [Proc.bind]; congr 1; funext r; exact ih r
  -- up to the backup
  have s1 : ∀ {others : World → World → Prop}, Among others (.at (inPlaceOne a script f), w) (.at (inPlaceEdit a script f), wc) := by
    intro others
    unfold inPlaceOne
    refine (among_say _ _ _ _).trans ?_
    rw [if_neg (by rw [hd]; simp), if_pos hs]
    refine (among_say _ _ _ _).trans ?_
    refine among_act_then (w1 := wb) (.ok older) ?_ ⟨rfl, Or.inl ⟨older, by rw [hb]; exact hfc, rfl⟩⟩
    exact among_act (r := .ok []) (w1 := wc) (Or.inl ⟨rfl, rfl⟩)
  -- the editing
  have s2 : ∀ {others : World → World → Prop}, Among others (.at (inPlaceEdit a script f), wd) (.at (.ret false), wf) := by
    intro others
    refine among_act_then (w1 := wd) (.ok newer) ?_ ⟨rfl, Or.inl ⟨newer, World.put_same _ _ _, rfl⟩⟩
    simp only [hx]
    refine among_act_then (w1 := we) (.ok []) ?_ (Or.inl ⟨rfl, rfl⟩)
    exact among_say _ _ _ _
  have s0 : ∀ {others : World → World → Prop}, Among others (.at (runEdit a), w) (.at ((inPlaceOne a script f).bind k), w) := by
    intro others
    rw [h1]
    unfold runScript
    unfold ScriptOf at hscript
    split
    · rename_i hsf
      rw [if_neg hsf] at hscript
      refine among_act_then (w1 := w) (.ok script) ?_ ⟨rfl, Or.inl ⟨script, hscript, rfl⟩⟩
      simp only [hform]
      exact .refl
    · rename_i hsf
      rw [if_pos (Classical.byContradiction hsf)] at hscript
      obtain ⟨rfl, h0⟩ := hscript
      rw [if_neg h0, hform]; exact .refl
  refine ⟨_, wd, wf, (s0.trans (among_then k s1)).trans (.other (w1 := wd) (fun q hq => World.put_other _ _ _ _ hq) rfl rfl .refl),
    World.put_same _ _ _, ?_, ?_⟩
  · exact (among_then k s2).trans .refl
  · rw [World.printed_files]
    funext q
    simp only [we, wd, wc, World.put, hb]
    split <;> rfl

/-! ### Cases -/

/-- The hypotheses of `C87_in_place`, `C87_original_survives` and `C87_false_stale_backup` are met. -/
example : let a : EditArgs := { script := b! "search-forward \"l\"; insert \"X\"", files := [b! "f"], inPlace := true, backupSuffix := b! "~" }
    ¬ Contradictory a ∧ a.files.Nodup ∧ (∀ f ∈ a.files, ∀ g ∈ a.files, f ++ a.backupSuffix ≠ g) ∧ ScriptOf a twoFiles a.script ∧
    twoFiles.files (b! "f") = some (b! "hello") ∧ @executeScriptWithFormat litExt (b! "newer, later") a.script a.format = .ok (b! "newer, lXater") := by
  refine ⟨?_, by decide, by decide, ⟨rfl, by simp⟩, rfl, by decide +kernel⟩
  rintro (h | h | h | h)
  · exact h (Or.inl rfl)
  · exact absurd rfl h.1
  · exact absurd h.2 (by decide)
  · exact absurd rfl h.1

/-- Runs among others exist: `g` is changed while `f` is edited. -/
example : ∃ w', EndsAmong (Leave (· = b! "f")) (@editFile litExt (b! "f") (b! "insert \"X\"")) twoFiles none w' ∧
    w'.files (b! "f") = some (b! "Xhello") ∧ w'.files (b! "g") = some (b! "theirs") := by
  refine ⟨(twoFiles.put (b! "g") (b! "theirs")).put (b! "f") (b! "Xhello"), ?_, rfl, rfl⟩
  refine .other (w1 := twoFiles.put (b! "g") (b! "theirs")) (fun q hq => World.put_other _ _ _ _ (by rw [hq]; decide)) rfl rfl ?_
  exact among_of_steps ((@C29_outcomes litExt _ _ _ _ _).2 ⟨.edited (b! "hello") (b! "Xhello") (by decide +kernel), sameExcept_put _ _ _⟩)

/-- A script as in `C87_failing_script`. -/
example [Ext] : ∀ c t, executeScript c (b! "insert \"X") ≠ .ok t := by
  intro c t h
  have : executeScript c (b! "insert \"X") = executeParsed c (parseString (b! "insert \"X")) := rfl
  have hp : ∃ e, parseString (b! "insert \"X") = .err e := ⟨_, by rfl⟩
  obtain ⟨e, hp⟩ := hp
  rw [this, hp] at h
  cases h

end Texted
