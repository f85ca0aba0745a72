import Verif.Props.Others
import Verif.Spec.Modes
/-
C91: permissions.
-/
namespace Texted
open Spec

variable {α β : Type}

/-! ### Runs with permissions are runs -/

theorem modeStep_step {r r' : Run α} {w w' : World} {m m' : Modes} (h : ModeStep (r, w, m) (r', w', m')) : Step (r, w) (r', w') := by
  cases h with
  | readOk h _ => exact .readOk h
  | readErr => exact .readErr
  | stdinOk => exact .stdinOk
  | stdinErr => exact .stdinErr
  | printOk => exact .printOk
  | printErr => exact .printErr
  | openErr => exact .openErr
  | openOld _ _ => exact .open
  | openNew _ => exact .open
  | piece h1 h2 => exact .piece h1 h2
  | writeErr => exact .writeErr
  | close => exact .close

theorem modeSteps_steps {c c' : Run α × World × Modes} (h : ModeSteps c c') : Steps (c.1, c.2.1) (c'.1, c'.2.1) := by
  induction h with
  | refl => exact .refl
  | step hs _ ih => exact .step (modeStep_step hs) ih

/-- Permissions only take runs away: what holds of all runs of a program (all other properties of files) holds of those with permissions. -/
theorem C91_runs_are_runs (p : Proc α) (w w' : World) (m m' : Modes) :
    (ModeSees p w m w' m' → Sees p w w') ∧ ∀ a, ModeEnds p w m a w' m' → Ends p w a w' :=
  ⟨fun ⟨r, h⟩ => ⟨r, modeSteps_steps h⟩, fun _ h => modeSteps_steps h⟩

/-! ### Permissions of existing and of new files -/

/-- The file that is being written exists. -/
def RunExists (r : Run α) (w : World) : Prop :=
  match r with
  | .at _ => True
  | .writing p _ _ _ => w.files p ≠ none

theorem put_exists {w : World} {p d q : Bytes} (h : w.files q ≠ none) : (w.put p d).files q ≠ none := by
  simp only [World.put]
  split
  · exact nofun
  · exact h

theorem put_exists_self (w : World) (p d : Bytes) : (w.put p d).files p ≠ none := by rw [World.put_same]; exact nofun

/-- What happens to the permissions in a run. -/
structure ModeInv (w : World) (m : Modes) (w' : World) (m' : Modes) : Prop where
  stays : ∀ q, w.files q ≠ none → w'.files q ≠ none
  kept : KeepsModes w m m'
  fresh : NewModes w w' m m'
  super : m'.super = m.super
  umask : m'.umask = m.umask

theorem modeStep_inv {w0 : World} {m0 : Modes} {r r' : Run α} {w w' : World} {m m' : Modes} (hi : ModeInv w0 m0 w m) (he : RunExists r w)
    (h : ModeStep (r, w, m) (r', w', m')) : ModeInv w0 m0 w' m' ∧ RunExists r' w' := by
  cases h with
  | readOk h _ => exact ⟨hi, trivial⟩
  | readErr => exact ⟨hi, trivial⟩
  | stdinOk => exact ⟨⟨hi.stays, hi.kept, hi.fresh, hi.super, hi.umask⟩, trivial⟩
  | stdinErr => exact ⟨⟨hi.stays, hi.kept, hi.fresh, hi.super, hi.umask⟩, trivial⟩
  | printOk => exact ⟨⟨hi.stays, hi.kept, hi.fresh, hi.super, hi.umask⟩, trivial⟩
  | printErr => exact ⟨⟨hi.stays, hi.kept, hi.fresh, hi.super, hi.umask⟩, trivial⟩
  | openErr => exact ⟨hi, trivial⟩
  | @openOld p d old k _ _ hw _ =>
    refine ⟨⟨fun q hq => put_exists (hi.stays q hq), hi.kept, fun q h0 hq => ?_, hi.super, hi.umask⟩, put_exists_self _ _ _⟩
    refine hi.fresh q h0 ?_
    by_cases e : q = p
    · rw [e, hw]; exact nofun
    · rwa [World.put_other _ _ _ _ e] at hq
  | @openNew p d k _ _ hw =>
    refine ⟨⟨fun q hq => put_exists (hi.stays q hq), fun q hq => ?_, fun q h0 hq => ?_, hi.super, hi.umask⟩, put_exists_self _ _ _⟩
    · have : q ≠ p := fun e => hi.stays q hq (e ▸ hw)
      simpa [Modes.created, this] using hi.kept q hq
    · by_cases e : q = p
      · simp [Modes.created, e, hi.umask]
      · rw [World.put_other _ _ _ _ e] at hq
        simpa [Modes.created, e] using hi.fresh q h0 hq
  | @piece p d n i k _ _ h1 h2 =>
    refine ⟨⟨fun q hq => put_exists (hi.stays q hq), hi.kept, fun q h0 hq => ?_, hi.super, hi.umask⟩, put_exists_self _ _ _⟩
    refine hi.fresh q h0 ?_
    by_cases e : q = p
    · rw [e]; exact he
    · rwa [World.put_other _ _ _ _ e] at hq
  | writeErr => exact ⟨hi, trivial⟩
  | close => exact ⟨hi, trivial⟩

theorem modeSteps_inv {w0 : World} {m0 : Modes} {c c' : Run α × World × Modes} (h : ModeSteps c c') :
    ModeInv w0 m0 c.2.1 c.2.2 → RunExists c.1 c.2.1 → ModeInv w0 m0 c'.2.1 c'.2.2 := by
  induction h with
  | refl => exact fun h _ => h
  | step hs _ ih =>
    intro hi he
    have := modeStep_inv hi he hs
    exact ih this.1 this.2

theorem modeSees_inv {p : Proc α} {w w' : World} {m m' : Modes} (h : ModeSees p w m w' m') : ModeInv w m w' m' := by
  obtain ⟨r, h⟩ := h
  exact modeSteps_inv h ⟨fun _ h => h, fun _ _ => ⟨rfl, rfl⟩, fun q h h' => absurd h h', rfl, rfl⟩ trivial

/-- Whatever the program: at every moment, every file that existed is still there, with the permissions and the owner it had. (So a script
that was executable stays executable, and a private file stays private.) -/
theorem C91_modes_kept (p : Proc α) (w w' : World) (m m' : Modes) (h : ModeSees p w m w' m') (q : Bytes) (hq : w.files q ≠ none) :
    w'.files q ≠ none ∧ m'.mode q = m.mode q ∧ m'.whose q = m.whose q :=
  ⟨(modeSees_inv h).stays q hq, (modeSees_inv h).kept q hq⟩

/-- Every file a program makes has the permissions rw-r--r-- without those of the umask: no new file is executable, nobody but the owner may
write it. -/
theorem C91_new_files (p : Proc α) (w w' : World) (m m' : Modes) (h : ModeSees p w m w' m') (q : Bytes) (hq : w.files q = none) (hq' : w'.files q ≠ none) :
    m'.mode q = 0o644#9 &&& ~~~ m.umask ∧ m'.whose q = .owner ∧ (∀ i ∈ [6, 4, 3, 1, 0], (m'.mode q).getLsbD i = false) := by
  obtain ⟨h1, h2⟩ := (modeSees_inv h).fresh q hq hq'
  refine ⟨h1, h2, fun i hi => ?_⟩
  rw [h1, BitVec.getLsbD_and]
  simp only [List.mem_cons, List.not_mem_nil, or_false] at hi
  rcases hi with rfl | rfl | rfl | rfl | rfl <;> rfl

/-! ### Files the user may not write or read -/

/-- The program is not in the middle of writing `q`. -/
def NotWriting (q : Bytes) : Run α → Prop
  | .at _ => True
  | .writing p _ _ _ => p ≠ q

/-- A file that exists and that the user may not write is never changed. -/
theorem C91_write_protected (p : Proc α) (w w' : World) (m m' : Modes) (h : ModeSees p w m w' m') (q : Bytes) (hq : w.files q ≠ none)
    (hm : m.mayWrite q = false) : w'.files q = w.files q := by
  obtain ⟨r, h⟩ := h
  have key : ∀ c c' : Run α × World × Modes, ModeSteps c c' → c.2.1.files q = w.files q → c.2.2.mayWrite q = false → NotWriting q c.1 →
      c'.2.1.files q = w.files q := by
    intro c c' h
    induction h with
    | refl => exact fun h _ _ => h
    | step hs _ ih =>
      intro h1 h2 h3
      cases hs with
      | readOk h _ => exact ih h1 h2 trivial
      | readErr => exact ih h1 h2 trivial
      | stdinOk => exact ih h1 h2 trivial
      | stdinErr => exact ih h1 h2 trivial
      | printOk => exact ih h1 h2 trivial
      | printErr => exact ih h1 h2 trivial
      | openErr => exact ih h1 h2 trivial
      | @openOld p d old k w1 m1 hw hg =>
        have hne : p ≠ q := by rintro rfl; exact absurd hg (by rw [h2]; exact nofun)
        exact ih ((World.put_other _ _ _ _ fun e => hne e.symm).trans h1) h2 hne
      | @openNew p d k w1 m1 hw =>
        have hne : p ≠ q := by rintro rfl; exact hq (h1.symm.trans hw)
        have hne' : q ≠ p := fun e => hne e.symm
        refine ih ((World.put_other _ _ _ _ hne').trans h1) ?_ hne
        simpa [Modes.mayWrite, Modes.created, hne'] using h2
      | @piece p d n i k w1 m1 h5 h6 =>
        exact ih ((World.put_other _ _ _ _ fun e => h3 e.symm).trans h1) h2 h3
      | writeErr => exact ih h1 h2 trivial
      | close => exact ih h1 h2 trivial
  exact key _ _ h rfl hm trivial

/-- Every way to a result in `good` passes through an action in `X` that succeeds. -/
def Demands (X : Act → Prop) (good : α → Prop) : Proc α → Prop
  | .ret a => ¬ good a
  | .panic => True
  | .act a k => (∀ e, Demands X good (k (.error e))) ∧ (¬ X a → ∀ d, Demands X good (k (.ok d)))

/-- The same for a program in the middle of its execution. -/
def RunDemands (X : Act → Prop) (good : α → Prop) : Run α → Prop
  | .at p => Demands X good p
  | .writing p d _ k => (∀ e, Demands X good (k (.error e))) ∧ (¬ X (.write p d) → ∀ d, Demands X good (k (.ok d)))

theorem Demands.bind {X : Act → Prop} {good : α → Prop} {good' : β → Prop} {p : Proc α} {f : α → Proc β} (h : Demands X good p)
    (hf : ∀ a, ¬ good a → Demands X good' (f a)) : Demands X good' (p.bind f) := by
  induction p with
  | ret a => exact hf a h
  | panic => trivial
  | act a k ih => exact ⟨fun e => ih _ (h.1 e), fun hx d => ih _ (h.2 hx d)⟩

theorem Demands.behind {X : Act → Prop} {good : β → Prop} (p : Proc α) {f : α → Proc β} (hf : ∀ a, Demands X good (f a)) :
    Demands X good (p.bind f) := by
  induction p with
  | ret a => exact hf a
  | panic => trivial
  | act a k ih => exact ⟨fun e => ih _, fun _ d => ih _⟩

theorem Demands.say {X : Act → Prop} {good : α → Prop} {c : Bool} {t : Bytes} {p : Proc α} (h : Demands X good p) : Demands X good (say c t p) := by
  unfold Texted.say
  split
  · exact ⟨fun _ => h, fun _ _ => h⟩
  · exact h

/-- What the user may not do does not succeed. -/
def Forbidden (w : World) (m : Modes) : Act → Prop
  | .read p => w.files p ≠ none ∧ m.mayRead p = false
  | .write p _ => w.files p ≠ none ∧ m.mayWrite p = false
  | _ => False

theorem demands_fails {X : Act → Prop} {good : α → Prop} {w : World} {m : Modes} (hX : ∀ a, X a → Forbidden w m a) {p : Proc α} {a : α}
    {w' : World} {m' : Modes} (h : ModeEnds p w m a w' m') (hd : Demands X good p) : ¬ good a := by
  have key : ∀ c c' : Run α × World × Modes, ModeSteps c c' → (∀ a, X a → Forbidden c.2.1 c.2.2 a) → RunDemands X good c.1 →
      (∀ p d n k, c.1 = .writing p d n k → ¬ X (.write p d)) → ∀ a, c'.1 = .at (.ret a) → ¬ good a := by
    clear h hd hX
    intro c c' h
    induction h with
    | refl =>
      rename_i c
      intro _ hd _ a hr
      rw [hr] at hd
      exact hd
    | step hs _ ih =>
      intro hX hd hw
      cases hs with
      | @readOk p d k w1 m1 hf hg =>
        refine ih hX (hd.2 (fun hx => ?_) _) (fun _ _ _ _ e => nomatch e)
        have := (hX _ hx).2
        rw [hg] at this
        cases this
      | readErr => exact ih hX (hd.1 _) (fun _ _ _ _ e => nomatch e)
      | stdinOk =>
        refine ih (fun a ha => ?_) (hd.2 (fun hx => hX _ hx) _) (fun _ _ _ _ e => nomatch e)
        have := hX a ha
        cases a <;> exact this
      | stdinErr =>
        refine ih (fun a ha => ?_) (hd.1 _) (fun _ _ _ _ e => nomatch e)
        have := hX a ha
        cases a <;> exact this
      | printOk =>
        refine ih (fun a ha => ?_) (hd.2 (fun hx => hX _ hx) _) (fun _ _ _ _ e => nomatch e)
        have := hX a ha
        cases a <;> exact this
      | printErr =>
        refine ih (fun a ha => ?_) (hd.1 _) (fun _ _ _ _ e => nomatch e)
        have := hX a ha
        cases a <;> exact this
      | openErr => exact ih hX (hd.1 _) (fun _ _ _ _ e => nomatch e)
      | @openOld p d old k w1 m1 hf hg =>
        refine ih (fun a ha => ?_) hd ?_
        · have := hX a ha
          cases a with
          | read q => exact ⟨put_exists this.1, this.2⟩
          | write q d => exact ⟨put_exists this.1, this.2⟩
          | _ => exact this
        · intro p' d' n' k' e hx
          cases e
          have := (hX _ hx).2
          rw [hg] at this
          cases this
      | @openNew p d k w1 m1 hf =>
        refine ih (fun a ha => ?_) hd ?_
        · have := hX a ha
          have hne : ∀ q, w1.files q ≠ none → q ≠ p := fun q hq e => hq (e ▸ hf)
          cases a with
          | read q =>
            refine ⟨put_exists this.1, ?_⟩
            simpa [Modes.mayRead, Modes.created, hne q this.1] using this.2
          | write q d =>
            refine ⟨put_exists this.1, ?_⟩
            simpa [Modes.mayWrite, Modes.created, hne q this.1] using this.2
          | _ => exact this
        · intro p' d' n' k' e hx
          cases e
          exact (hX _ hx).1 hf
      | @piece p d n i k w1 m1 h1 h2 =>
        refine ih (fun a ha => ?_) hd ?_
        · have := hX a ha
          cases a with
          | read q => exact ⟨put_exists this.1, this.2⟩
          | write q d => exact ⟨put_exists this.1, this.2⟩
          | _ => exact this
        · intro p' d' n' k' e
          cases e
          exact hw _ _ _ _ rfl
      | writeErr => exact ih hX (hd.1 _) (fun _ _ _ _ e => nomatch e)
      | close => exact ih hX (hd.2 (hw _ _ _ _ rfl) _) (fun _ _ _ _ e => nomatch e)
  exact key _ _ h hX hd (fun _ _ _ _ e => nomatch e) a rfl


/-! ### What the commands need -/

theorem demands_editFileBy (exec : Bytes → Res Bytes Bytes) (f : Bytes) :
    Demands (· = .read f) (· = none) (editFileBy exec f) ∧ Demands (fun a => ∃ d, a = .write f d) (· = none) (editFileBy exec f) := by
  constructor
  · exact ⟨fun e => nofun, fun hx => absurd rfl hx⟩
  · refine ⟨fun e => nofun, fun _ d => ?_⟩
    dsimp only
    split
    · exact nofun
    · trivial
    · exact ⟨fun e => nofun, fun hx => absurd ⟨_, rfl⟩ hx⟩

/-- The user may not read the file, or may not write it. -/
def Denied (w : World) (m : Modes) (f : Bytes) : Prop := w.files f ≠ none ∧ (m.mayRead f = false ∨ m.mayWrite f = false)

theorem forbidden_of_denied {w : World} {m : Modes} {f : Bytes} (h : Denied w m f) :
    (∀ a, a = .read f → Forbidden w m a) ∨ ∀ a, (∃ d, a = .write f d) → Forbidden w m a := by
  rcases h with ⟨h, hr | hw⟩
  · exact .inl (by rintro a rfl; exact ⟨h, hr⟩)
  · exact .inr (by rintro a ⟨d, rfl⟩; exact ⟨h, hw⟩)

/-- EditFile reports a failure for a file the user may not read or may not write. -/
theorem C91_edit_file [Ext] (f script : Bytes) (w w' : World) (m m' : Modes) (e : Option Bytes) (h : ModeEnds (editFile f script) w m e w' m')
    (hf : w.files f ≠ none) (hd : m.mayRead f = false ∨ m.mayWrite f = false) : e ≠ none ∧ w'.files f = w.files f := by
  have hne : e ≠ none := by
    rcases forbidden_of_denied (f := f) ⟨hf, hd⟩ with hX | hX
    · exact demands_fails (good := (· = none)) hX h (demands_editFileBy _ f).1
    · exact demands_fails (good := (· = none)) hX h (demands_editFileBy _ f).2
  refine ⟨hne, ?_⟩
  cases hw : m.mayWrite f with
  | false => exact C91_write_protected _ _ _ _ _ ⟨_, h⟩ f hf hw
  | true =>
    have hr : m.mayRead f = false := hd.resolve_right (by rw [hw]; exact nofun)
    -- reading fails, and nothing else happens
    cases h with
    | step hs t =>
      cases hs with
      | readOk _ hg => rw [hr] at hg; cases hg
      | readErr =>
        cases t with
        | refl => rfl
        | step hs _ => cases hs

/-- EditFiles reports a failure for every file the user may not read or may not write. -/
theorem C91_edit_files [Ext] (fs : List Bytes) (script : Bytes) (w w' : World) (m m' : Modes) (rs : List EditResult)
    (h : ModeEnds (editFiles fs script) w m rs w' m') (f : Bytes) (hf : w.files f ≠ none) (hd : m.mayRead f = false ∨ m.mayWrite f = false) :
    ∀ r ∈ rs, r.filename = f → r.error ≠ none := by
  have key : ∀ X : Act → Prop, (∀ g, g = f → Demands X (· = none) (editFile g script)) →
      ∀ fs, Demands X (fun rs => ∃ r ∈ rs, r.filename = f ∧ r.error = none) (editFilesBy (fun g => editFile g script) fs) := by
    intro X hX fs
    induction fs with
    | nil => exact fun ⟨_, h, _⟩ => (nomatch h)
    | cons g gs ih =>
      by_cases hg : g = f
      · refine (hX g hg).bind fun e he => ih.bind fun rs hrs => ?_
        rintro ⟨r, hr, h1, h2⟩
        rcases List.mem_cons.mp hr with rfl | hr
        · exact he h2
        · exact hrs ⟨r, hr, h1, h2⟩
      · refine Demands.behind _ fun e => ih.bind fun rs hrs => ?_
        rintro ⟨r, hr, h1, h2⟩
        rcases List.mem_cons.mp hr with rfl | hr
        · exact hg h1
        · exact hrs ⟨r, hr, h1, h2⟩
  have hne : ¬ ∃ r ∈ rs, r.filename = f ∧ r.error = none := by
    rcases forbidden_of_denied (f := f) ⟨hf, hd⟩ with hX | hX
    · exact demands_fails (good := fun rs => ∃ r ∈ rs, r.filename = f ∧ r.error = none) hX h (key _ (by rintro g rfl; exact (demands_editFileBy _ g).1) fs)
    · exact demands_fails (good := fun rs => ∃ r ∈ rs, r.filename = f ∧ r.error = none) hX h (key _ (by rintro g rfl; exact (demands_editFileBy _ g).2) fs)
  exact fun r hr h1 h2 => hne ⟨r, hr, h1, h2⟩

theorem demands_complain (X : Act → Prop) (a : EditArgs) (t : Bytes) : Demands X (· = false) (complain a t) := Demands.say nofun

/-- In-place editing of `f` counts as successful only behind successful reading and writing of `f`, and writing of its backup. -/
theorem demands_inPlaceOne [Ext] (a : EditArgs) (hd : a.dryRun = false) (script f : Bytes) :
    Demands (· = .read f) (· = false) (inPlaceOne a script f) ∧ Demands (fun x => ∃ d, x = .write f d) (· = false) (inPlaceOne a script f) ∧
    (a.backupSuffix ≠ [] → Demands (fun x => ∃ d, x = .write (f ++ a.backupSuffix) d) (· = false) (inPlaceOne a script f)) := by
  have e1 : Demands (· = .read f) (· = false) (inPlaceEdit a script f) := ⟨fun e => demands_complain _ _ _, fun hx => absurd rfl hx⟩
  have e2 : Demands (fun x => ∃ d, x = .write f d) (· = false) (inPlaceEdit a script f) := by
    refine ⟨fun e => demands_complain _ _ _, fun _ d => ?_⟩
    dsimp only
    split
    · trivial
    · exact demands_complain _ _ _
    · exact ⟨fun e => demands_complain _ _ _, fun hx => absurd ⟨_, rfl⟩ hx⟩
  unfold inPlaceOne
  rw [hd]
  refine ⟨Demands.say ?_, Demands.say ?_, fun hb => Demands.say ?_⟩
  · rw [if_neg nofun]
    split
    · exact Demands.say ⟨fun e => demands_complain _ _ _, fun hx => absurd rfl hx⟩
    · exact e1
  · rw [if_neg nofun]
    split
    · exact Demands.say ⟨fun e => demands_complain _ _ _, fun _ d => ⟨fun e => demands_complain _ _ _, fun _ _ => e2⟩⟩
    · exact e2
  · rw [if_neg nofun, if_pos hb]
    exact Demands.say ⟨fun e => demands_complain _ _ _, fun _ d => ⟨fun e => demands_complain _ _ _, fun hx => absurd ⟨_, rfl⟩ hx⟩⟩

theorem demands_inPlaceLoop [Ext] {X : Act → Prop} (a : EditArgs) (script : Bytes) (f : Bytes) (h : Demands X (· = false) (inPlaceOne a script f))
    (fs : List Bytes) (hf : f ∈ fs) : Demands X (· = false) (inPlaceLoop a script fs) := by
  induction fs with
  | nil => cases hf
  | cons g gs ih =>
    unfold inPlaceLoop
    by_cases hg : f = g
    · subst hg
      refine h.bind fun bad hb => Demands.behind _ fun bad' hb' => hb ?_
      cases bad <;> simp_all
    · refine Demands.behind _ fun bad => (ih ((List.mem_cons.mp hf).resolve_left hg)).bind fun bad' hb hb' => hb ?_
      cases bad <;> simp_all

/-- What the whole command needs. -/
theorem demands_runEdit [Ext] {X : Act → Prop} (a : EditArgs) (hi : a.inPlace = true) (he : a.expressions = []) (hf : a.files ≠ [])
    (h : ∀ script, Demands X (· = false) (inPlaceLoop a script a.files)) : Demands X (· = none) (runEdit a) := by
  by_cases hc : Contradictory a
  · obtain ⟨e, hr⟩ := refused_of_contradictory a hc
    rw [hr]; exact nofun
  · obtain ⟨h1, h2⟩ := inPlace_form a hi he hf hc
    have h3 : ∀ script, Demands X (· = none) (applyScript a script) := by
      intro script
      rw [h2]
      refine (h script).bind fun bad hb => ?_
      cases bad with
      | false => exact absurd rfl hb
      | true => exact nofun
    rw [h1]
    unfold runScript
    split
    · exact ⟨fun e => nofun, fun _ d => h3 d⟩
    · split
      · exact nofun
      · exact h3 _

/-- In-place editing does not report success if there is a file the user may not read or may not write, or an existing backup file the user
may not write. -/
theorem C91_in_place [Ext] (a : EditArgs) (hi : a.inPlace = true) (he : a.expressions = []) (hd : a.dryRun = false)
    (w w' : World) (m m' : Modes) (r : Option Bytes) (h : ModeEnds (runEdit a) w m r w' m') (f : Bytes) (hf : f ∈ a.files)
    (hden : (w.files f ≠ none ∧ (m.mayRead f = false ∨ m.mayWrite f = false)) ∨
      (a.backupSuffix ≠ [] ∧ w.files (f ++ a.backupSuffix) ≠ none ∧ m.mayWrite (f ++ a.backupSuffix) = false)) : r ≠ none := by
  have hne : a.files ≠ [] := fun e => by rw [e] at hf; cases hf
  rcases hden with hden | ⟨hb, he', hw⟩
  · rcases forbidden_of_denied hden with hX | hX
    · exact demands_fails (good := (· = none)) hX h (demands_runEdit a hi he hne fun script => demands_inPlaceLoop a script f (demands_inPlaceOne a hd script f).1 _ hf)
    · exact demands_fails (good := (· = none)) hX h (demands_runEdit a hi he hne fun script => demands_inPlaceLoop a script f (demands_inPlaceOne a hd script f).2.1 _ hf)
  · refine demands_fails (good := (· = none)) (X := fun x => ∃ d, x = .write (f ++ a.backupSuffix) d) ?_ h
      (demands_runEdit a hi he hne fun script => demands_inPlaceLoop a script f ((demands_inPlaceOne a hd script f).2.2 hb) _ hf)
    rintro x ⟨d, rfl⟩
    exact ⟨he', hw⟩

/-- A backup that cannot be made keeps the file from being edited: if the backup file exists and the user may not write it, neither it nor the
file changes. -/
theorem C91_no_backup_no_edit [Ext] (a : EditArgs) (hi : a.inPlace = true) (hb : a.backupSuffix ≠ [])
    (hnd : a.files.Nodup) (hcol : ∀ f ∈ a.files, ∀ g ∈ a.files, f ++ a.backupSuffix ≠ g)
    (w w' : World) (m m' : Modes) (h : ModeSees (runEdit a) w m w' m') (f : Bytes) (hf : f ∈ a.files) (c : Bytes) (hc : w.files f = some c)
    (hx : w.files (f ++ a.backupSuffix) ≠ none) (hne : w.files (f ++ a.backupSuffix) ≠ some c) (hw : m.mayWrite (f ++ a.backupSuffix) = false) :
    w'.files f = some c ∧ w'.files (f ++ a.backupSuffix) = w.files (f ++ a.backupSuffix) := by
  have h1 := C91_write_protected _ _ _ _ _ h _ hx hw
  refine ⟨?_, h1⟩
  rcases C31_original_survives a hi hb hnd hcol w w' ((C91_runs_are_runs _ _ _ _ _).1 h) f c hf hc with h2 | h2
  · exact h2
  · exact absurd (h1.symm.trans h2) hne

/-- Editing one file without --in-place does not report success if the user may not read the file, or if the file given with --output exists
and the user may not write it. -/
theorem C91_single_file [Ext] (a : EditArgs) (f : Bytes) (hf : a.files = [f]) (hi : a.inPlace = false) (he : a.expressions = []) (hd : a.dryRun = false)
    (w w' : World) (m m' : Modes) (r : Option Bytes) (h : ModeEnds (runEdit a) w m r w' m')
    (hden : (w.files f ≠ none ∧ m.mayRead f = false) ∨ (a.outputFile ≠ [] ∧ w.files a.outputFile ≠ none ∧ m.mayWrite a.outputFile = false)) : r ≠ none := by
  by_cases hc : Contradictory a
  · obtain ⟨e, hr⟩ := refused_of_contradictory a hc
    rw [hr] at h
    have := (C91_runs_are_runs _ _ _ _ _).2 _ h
    rw [ends_ret] at this
    rw [this.1]; exact nofun
  · have hform : ∀ script, applyScript a script = if a.outputFile ≠ [] then processSingle a script f a.outputFile (.write a.outputFile)
        else processSingle a script f (b! "stdout") .print := by
      intro script
      unfold applyScript
      rw [if_neg (by simp [hf])]
      unfold processFiles
      rw [hf]
      simp only [hi, if_false, Bool.false_eq_true]
    have hscript : ∀ X : Act → Prop, (∀ script, Demands X (· = none) (applyScript a script)) → Demands X (· = none) (runEdit a) := by
      intro X hX
      rw [runEdit_consistent a hc he]
      unfold runScript
      split
      · exact ⟨fun e => nofun, fun _ d => hX d⟩
      · split
        · exact nofun
        · exact hX _
    have hret : ∀ (X : Act → Prop) (x : Act), X x → Demands X (· = none) (.act x returnErr) := fun X x hx => ⟨fun e => nofun, fun hn => absurd hx hn⟩
    rcases hden with ⟨hx, hr⟩ | ⟨ho, hx, hw⟩
    · refine demands_fails (good := (· = none)) (X := (· = .read f)) (by rintro x rfl; exact ⟨hx, hr⟩) h (hscript _ fun script => ?_)
      rw [hform]
      have hp : ∀ dest act, Demands (· = .read f) (· = none) (processSingle a script f dest act) := by
        intro dest act
        unfold processSingle
        rw [hd]
        exact Demands.say ⟨fun e => nofun, fun hn => absurd rfl hn⟩
      split
      · exact hp _ _
      · exact hp _ _
    · refine demands_fails (good := (· = none)) (X := fun x => ∃ d, x = .write a.outputFile d) (by rintro x ⟨d, rfl⟩; exact ⟨hx, hw⟩) h (hscript _ fun script => ?_)
      rw [hform, if_pos ho]
      unfold processSingle
      rw [hd]
      refine Demands.say ⟨fun e => nofun, fun _ d => ?_⟩
      dsimp only
      split
      · trivial
      · exact nofun
      · exact hret _ _ ⟨_, rfl⟩

/-! ### With the permissions, all goes as without -/

theorem permitted_put {S : Bytes → Prop} {w : World} {m : Modes} (h : Permitted S w m) {p old d : Bytes} (hp : w.files p = some old) :
    Permitted S (w.put p d) m := by
  intro q hq hne
  refine h q hq ?_
  by_cases e : q = p
  · rw [e, hp]; exact nofun
  · rwa [World.put_other _ _ _ _ e] at hne

theorem permitted_created {S : Bytes → Prop} {w : World} {m : Modes} (h : Permitted S w m) (hu : UsualUmask m) (p d : Bytes) :
    Permitted S (w.put p d) (m.created p) := by
  intro q hq hne
  by_cases e : q = p
  · subst e
    simp only [Modes.mayRead, Modes.mayWrite, Modes.created, if_true, readBit, writeBit, BitVec.getLsbD_and, BitVec.getLsbD_not, hu.1, hu.2]
    simp
  · rw [World.put_other _ _ _ _ e] at hne
    simpa [Modes.mayRead, Modes.mayWrite, Modes.created, e] using h q hq hne

theorem lift_step {S : Bytes → Prop} {r r' : Run α} {w w' : World} {m : Modes} (hs : Step (r, w) (r', w')) (hm : RunMentions S r) (hx : RunExists r w)
    (hp : Permitted S w m) (hu : UsualUmask m) :
    ∃ m', ModeStep (r, w, m) (r', w', m') ∧ RunMentions S r' ∧ RunExists r' w' ∧ Permitted S w' m' ∧ UsualUmask m' := by
  cases hs with
  | readOk h => exact ⟨m, .readOk h (hp _ hm.1 (by rw [h]; exact nofun)).1, hm.2 _, trivial, hp, hu⟩
  | readErr => exact ⟨m, .readErr, hm.2 _, trivial, hp, hu⟩
  | stdinOk => exact ⟨m, .stdinOk, hm.2 _, trivial, hp, hu⟩
  | stdinErr => exact ⟨m, .stdinErr, hm.2 _, trivial, hp, hu⟩
  | printOk => exact ⟨m, .printOk, hm.2 _, trivial, hp, hu⟩
  | printErr => exact ⟨m, .printErr, hm.2 _, trivial, hp, hu⟩
  | openErr => exact ⟨m, .openErr, hm.2 _, trivial, hp, hu⟩
  | @«open» p d k _ =>
    cases hf : w.files p with
    | none => exact ⟨_, .openNew hf, hm, put_exists_self _ _ _, permitted_created hp hu _ _, hu⟩
    | some old => exact ⟨m, .openOld hf (hp _ hm.1 (by rw [hf]; exact nofun)).2, hm, put_exists_self _ _ _, permitted_put hp hf, hu⟩
  | @piece p d n i k _ h1 h2 =>
    obtain ⟨old, ho⟩ := Option.ne_none_iff_exists'.mp hx
    exact ⟨m, .piece h1 h2, hm, put_exists_self _ _ _, permitted_put hp ho, hu⟩
  | writeErr => exact ⟨m, .writeErr, hm.2 _, trivial, hp, hu⟩
  | close => exact ⟨m, .close, hm.2 _, trivial, hp, hu⟩

theorem lift_steps {S : Bytes → Prop} {c c' : Run α × World} (h : Steps c c') : RunMentions S c.1 → RunExists c.1 c.2 → ∀ m, Permitted S c.2 m →
    UsualUmask m → ∃ m', ModeSteps (c.1, c.2, m) (c'.1, c'.2, m') := by
  induction h with
  | refl => exact fun _ _ m _ _ => ⟨m, .refl⟩
  | step hs _ ih =>
    intro hm hx m hp hu
    obtain ⟨m1, h1, h2, h3, h4, h5⟩ := lift_step hs hm hx hp hu
    obtain ⟨m', h6⟩ := ih h2 h3 m1 h4 h5
    exact ⟨m', .step h1 h6⟩

/-- If the user may read and write the files a program uses, and the umask leaves the owner's permissions, then everything the program can do
without permissions it can do with them. -/
theorem C91_permitted {S : Bytes → Prop} (p : Proc α) (hm : Mentions S p) (w w' : World) (m : Modes) (hp : Permitted S w m) (hu : UsualUmask m) :
    (Sees p w w' → ∃ m', ModeSees p w m w' m') ∧ ∀ a, Ends p w a w' → ∃ m', ModeEnds p w m a w' m' := by
  constructor
  · rintro ⟨r, h⟩
    obtain ⟨m', h'⟩ := lift_steps h hm trivial m hp hu
    exact ⟨m', r, h'⟩
  · intro a h
    obtain ⟨m', h'⟩ := lift_steps h hm trivial m hp hu
    exact ⟨m', h'⟩

/-! ### Backups -/

/-- After successful in-place editing with --backup every file has the permissions it had. A backup file that existed has kept its own
permissions; a new one has those of any new file, not those of the file it is a copy of. -/
theorem C91_backup [Ext] (a : EditArgs) (hi : a.inPlace = true) (he : a.expressions = []) (hd : a.dryRun = false) (hf : a.files ≠ [])
    (hs : a.backupSuffix ≠ []) (hnd : a.files.Nodup) (hcol : ∀ f ∈ a.files, ∀ g ∈ a.files, f ++ a.backupSuffix ≠ g)
    (w w' : World) (m m' : Modes) (h : ModeEnds (runEdit a) w m none w' m') (f : Bytes) (hff : f ∈ a.files) :
    ∃ c, w.files f = some c ∧ w'.files (f ++ a.backupSuffix) = some c ∧ m'.mode f = m.mode f ∧
      m'.mode (f ++ a.backupSuffix) = if w.files (f ++ a.backupSuffix) = none then 0o644#9 &&& ~~~ m.umask else m.mode (f ++ a.backupSuffix) := by
  obtain ⟨script, -, h1⟩ := C31_success a hi he hd hf hs hnd hcol w w' ((C91_runs_are_runs _ _ _ _ _).2 _ h)
  obtain ⟨c, t, h2, -, -, h3⟩ := h1 f hff
  refine ⟨c, h2, h3, (C91_modes_kept _ _ _ _ _ ⟨_, h⟩ f (by rw [h2]; exact nofun)).2.1, ?_⟩
  split
  · rename_i hn
    exact (C91_new_files _ _ _ _ _ ⟨_, h⟩ _ hn (by rw [h3]; exact nofun)).1
  · rename_i hn
    exact (C91_modes_kept _ _ _ _ _ ⟨_, h⟩ _ hn).2.1

/-- Negative result: the backup of a private file is public. Under the usual umask (one that lets everybody read new files) in-place editing
with --backup leaves a copy of the original that everybody may read, although nobody but the owner may read the file itself. -/
theorem C91_false_private_backup [Ext] (a : EditArgs) (hi : a.inPlace = true) (he : a.expressions = []) (hd : a.dryRun = false) (hf : a.files ≠ [])
    (hs : a.backupSuffix ≠ []) (hnd : a.files.Nodup) (hcol : ∀ f ∈ a.files, ∀ g ∈ a.files, f ++ a.backupSuffix ≠ g)
    (w w' : World) (h : Ends (runEdit a) w none w') (m : Modes) (hp : Permitted (usedNames a) w m) (hu : UsualUmask m)
    (hu' : m.umask.getLsbD 5 = false ∧ m.umask.getLsbD 2 = false) (f c : Bytes) (hff : f ∈ a.files) (hc : w.files f = some c)
    (hpriv : Private m f) (hnew : w.files (f ++ a.backupSuffix) = none) :
    ∃ m', ModeEnds (runEdit a) w m none w' m' ∧ Private m' f ∧ w'.files (f ++ a.backupSuffix) = some c ∧ Public m' (f ++ a.backupSuffix) := by
  have hcon : ¬ Contradictory a := by
    intro hcon
    obtain ⟨e, he⟩ := (C34_refused_runs a hcon w).2.1 _ _ h
    cases he
  obtain ⟨m', h'⟩ := (C91_permitted (runEdit a) (mentions_runEdit a hi he hf hcon) w w' m hp hu).2 _ h
  obtain ⟨c', h1, h2, h3, h4⟩ := C91_backup a hi he hd hf hs hnd hcol w w' m m' h' f hff
  obtain rfl : c = c' := Option.some.inj (hc.symm.trans h1)
  rw [if_pos hnew] at h4
  refine ⟨m', h', by unfold Private; rw [h3]; exact hpriv, h2, ?_⟩
  unfold Public
  rw [h4]
  simp only [BitVec.getLsbD_and, BitVec.getLsbD_not, hu'.1, hu'.2]
  simp

theorem digit_read (mode : BitVec 9) (u : Whose) : mode.getLsbD (readBit u) = true ↔ ReadDigit (octalDigit mode.toNat u) := by
  unfold ReadDigit
  revert mode
  cases u <;> decide

theorem digit_write (mode : BitVec 9) (u : Whose) : mode.getLsbD (writeBit u) = true ↔ WriteDigit (octalDigit mode.toNat u) := by
  unfold WriteDigit
  revert mode
  cases u <;> decide

/-- Who may read and write a file, in terms of the octal digits `ls` and `chmod` show: the superuser everything, the others by the digit that is theirs (owner, group, everybody else, in this
order): 4 to 7 to read, 2, 3, 6 and 7 to write. -/
theorem C91_digits (m : Modes) (q : Bytes) :
    (m.mayRead q = true ↔ m.super = true ∨ ReadDigit (octalDigit (m.mode q).toNat (m.whose q))) ∧
    (m.mayWrite q = true ↔ m.super = true ∨ WriteDigit (octalDigit (m.mode q).toNat (m.whose q))) := by
  rw [← digit_read, ← digit_write]
  unfold Modes.mayRead Modes.mayWrite
  simp only [Bool.or_eq_true, and_self]

/-! ### Cases -/

/-- The user's own files, all of mode 0600 (rw for the owner only), umask 022. -/
def privateModes : Modes := { mode := fun _ => 0o600#9, whose := fun _ => .owner, super := false, umask := 0o022#9 }

/-- The case of `C91_false_private_backup`: the file `secret`, `texted edit -i --backup .bak -s 'insert "X"' secret`. -/
example : let a : EditArgs := { script := b! "insert \"X\"", files := [b! "secret"], inPlace := true, backupSuffix := b! ".bak", quiet := true }
    let w : World := { files := fun q => if q = b! "secret" then some (b! "key") else none, input := [], out := [] }
    ∃ w' m', ModeEnds (@runEdit litExt a) w privateModes none w' m' ∧ w'.files (b! "secret") = some (b! "Xkey") ∧ Private m' (b! "secret") ∧
      w'.files (b! "secret.bak") = some (b! "key") ∧ Public m' (b! "secret.bak") := by
  intro a w
  letI := litExt
  have hrun : Ends (runEdit a) w none (runOk (fun _ => []) (runEdit a) w).2 := by
    have := runOk_ends (fun _ => []) (runEdit a) w
    have hr : (runOk (fun _ => []) (runEdit a) w).1 = some none := by decide +kernel
    rw [hr] at this
    exact this.1 _ rfl
  obtain ⟨m', h1, h2, h3, h4⟩ := C91_false_private_backup a rfl rfl rfl (by decide) (by decide) (by decide) (by decide) w _ hrun privateModes
    (fun _ _ _ => ⟨show (false || (0o600#9).getLsbD 8) = true by decide, show (false || (0o600#9).getLsbD 7) = true by decide⟩) (by unfold UsualUmask; decide) (by decide) (b! "secret") (b! "key") (by decide) rfl (by unfold Private; decide) rfl
  exact ⟨_, m', h1, by decide +kernel, h2, h3, h4⟩

/-- A file of mode 0444 that belongs to someone else may be read but not written. -/
example : let m : Modes := { mode := fun _ => 0o444#9, whose := fun _ => .other, super := false, umask := 0o022#9 }
    m.mayRead (b! "f") = true ∧ m.mayWrite (b! "f") = false := by decide

/-- The umask 077 keeps new files private. -/
example : 0o644#9 &&& ~~~ 0o077#9 = 0o600#9 ∧ 0o644#9 &&& ~~~ 0o022#9 = 0o644#9 := by decide

end Texted
