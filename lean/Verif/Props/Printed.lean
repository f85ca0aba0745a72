import Verif.Lemmas.Prints
import Verif.Props.EditCmd
/- C78: what `texted edit` prints, and that `--verbose` and `--quiet` change nothing else. -/
namespace Texted
open Spec

variable [Ext]

/-! ### `--verbose` and `--quiet` only change what is printed -/

theorem alike_returnErr (r : Except Bytes Bytes) : Alike (returnErr r) (returnErr r) := .refl _

theorem alike_stdin (a : EditArgs) (verbose quiet : Bool) (script : Bytes) :
    Alike (processStdin a script) (processStdin { a with verbose, quiet } script) := by
  refine .act fun r => ?_
  cases r with
  | error e => exact .ret
  | ok c =>
    refine Alike.say ?_ _ _ _ _
    show Alike (if a.dryRun then _ else _) (if a.dryRun then _ else _)
    split
    · exact Alike.say .ret _ _ _ _
    · simp only [show EditArgs.format { a with verbose, quiet } = a.format from rfl]
      cases executeScriptWithFormat c script a.format with
      | panic => exact .panic
      | err e => exact .ret
      | ok t =>
        show Alike (if a.outputFile ≠ [] then _ else _) (if a.outputFile ≠ [] then _ else _)
        split
        · exact Alike.say (.refl _) _ _ _ _
        · exact .refl _

theorem alike_single (a : EditArgs) (verbose quiet : Bool) (script f dest : Bytes) (act : Bytes → Act) :
    Alike (processSingle a script f dest act) (processSingle { a with verbose, quiet } script f dest act) := by
  refine Alike.say ?_ _ _ _ _
  show Alike (if a.dryRun then _ else _) (if a.dryRun then _ else _)
  split
  · exact Alike.say .ret _ _ _ _
  · exact .refl _

theorem alike_complain (a : EditArgs) (verbose quiet : Bool) (t : Bytes) : Alike (complain a t) (complain { a with verbose, quiet } t) :=
  Alike.say .ret _ _ _ _

theorem alike_inPlaceEdit (a : EditArgs) (verbose quiet : Bool) (script f : Bytes) :
    Alike (inPlaceEdit a script f) (inPlaceEdit { a with verbose, quiet } script f) := by
  refine .act fun r => ?_
  cases r with
  | error e => exact alike_complain a verbose quiet _
  | ok c =>
    simp only [show EditArgs.format { a with verbose, quiet } = a.format from rfl]
    cases executeScriptWithFormat c script a.format with
    | panic => exact .panic
    | err e => exact alike_complain a verbose quiet _
    | ok t =>
      refine .act fun r => ?_
      cases r with
      | error e => exact alike_complain a verbose quiet _
      | ok _ => exact Alike.say .ret _ _ _ _

theorem alike_inPlaceOne (a : EditArgs) (verbose quiet : Bool) (script f : Bytes) :
    Alike (inPlaceOne a script f) (inPlaceOne { a with verbose, quiet } script f) := by
  refine Alike.say ?_ _ _ _ _
  show Alike (if a.dryRun then _ else _) (if a.dryRun then _ else _)
  split
  · exact Alike.say (Alike.say (Alike.say .ret _ _ _ _) _ _ _ _) _ _ _ _
  · show Alike (if a.backupSuffix ≠ [] then _ else _) (if a.backupSuffix ≠ [] then _ else _)
    split
    · refine Alike.say ?_ _ _ _ _
      refine .act fun r => ?_
      cases r with
      | error e => exact alike_complain a verbose quiet _
      | ok c =>
        refine .act fun r => ?_
        cases r with
        | error e => exact alike_complain a verbose quiet _
        | ok _ => exact alike_inPlaceEdit a verbose quiet script f
    · exact alike_inPlaceEdit a verbose quiet script f

theorem alike_inPlaceLoop (a : EditArgs) (verbose quiet : Bool) (script : Bytes) (fs : List Bytes) :
    Alike (inPlaceLoop a script fs) (inPlaceLoop { a with verbose, quiet } script fs) := by
  induction fs with
  | nil => exact .ret
  | cons f fs ih => exact (alike_inPlaceOne a verbose quiet script f).bind fun _ => ih.bind fun _ => .ret

theorem alike_runScript (a : EditArgs) (verbose quiet : Bool) : Alike (runScript a) (runScript { a with verbose, quiet }) := by
  have hp : ∀ script, Alike (processFilesInPlace a script) (processFilesInPlace { a with verbose, quiet } script) :=
    fun script => (alike_inPlaceLoop a verbose quiet script a.files).bind fun _ => .refl _
  have happ : ∀ script, Alike (applyScript a script) (applyScript { a with verbose, quiet } script) := by
    intro script
    show Alike (if a.files.isEmpty then _ else _) (if a.files.isEmpty then _ else _)
    split
    · exact alike_stdin a verbose quiet script
    · unfold processFiles
      dsimp only
      split
      · show Alike (if a.outputFile ≠ [] then _ else _) (if a.outputFile ≠ [] then _ else _)
        split
        · exact alike_single a verbose quiet script _ _ _
        · show Alike (if a.inPlace then _ else _) (if a.inPlace then _ else _)
          split
          · exact hp script
          · exact alike_single a verbose quiet script _ _ _
      · show Alike (if !a.inPlace && a.outputFile = [] then _ else _) (if !a.inPlace && a.outputFile = [] then _ else _)
        split
        · exact .ret
        · exact hp script
  show Alike (if a.scriptFile ≠ [] then _ else _) (if a.scriptFile ≠ [] then _ else _)
  split
  · refine .act fun r => ?_
    cases r with
    | error e => exact .ret
    | ok s => exact happ s
  · show Alike (if a.script = [] then _ else _) (if a.script = [] then _ else _)
    split
    · exact .ret
    · exact happ _

theorem alike_expressions (a : EditArgs) (verbose : Bool) (source : Bytes) (es : List Bytes) (i : Nat) (b : Buffer) :
    Alike (evalExpressions a source i es b) (evalExpressions { a with verbose } source i es b) := by
  induction es generalizing i b with
  | nil => exact .ret
  | cons e es ih =>
    simp only [evalExpressions]
    refine Alike.say ?_ _ _ _ _
    simp only [show EditArgs.format { a with verbose } = a.format from rfl]
    cases parseScript a.format e with
    | panic => exact .panic
    | err m => exact Alike.say .ret _ _ _ _
    | ok p =>
      dsimp only
      rcases eval defaultEnv p b with ⟨r, b'⟩
      cases r with
      | panic => exact .panic
      | err m => exact Alike.say .ret _ _ _ _
      | ok v =>
        dsimp only
        split
        · exact ih _ _
        · split
          · exact .ret
          · exact .act fun _ => ih _ _

theorem alike_runExpressions (a : EditArgs) (verbose : Bool) : Alike (runExpressions a) (runExpressions { a with verbose }) := by
  have hfs : ∀ (many : Bool) (fs : List Bytes), Alike (expressionsOnFiles a many fs) (expressionsOnFiles { a with verbose } many fs) := by
    intro many fs
    induction fs with
    | nil => exact .ret
    | cons f fs ih =>
      simp only [expressionsOnFiles]
      refine .act fun r => ?_
      cases r with
      | error e => exact Alike.say .ret _ _ _ _
      | ok c =>
        refine Alike.say ?_ _ _ _ _
        refine (alike_expressions a verbose f a.expressions 0 (newBuffer c)).bind fun r => ?_
        cases r with
        | some e => exact .ret
        | none => exact ih
  unfold runExpressions
  dsimp only
  split
  · refine .act fun r => ?_
    cases r with
    | error e => exact .ret
    | ok c => exact alike_expressions a verbose _ a.expressions 0 _
  · exact hfs _ _

theorem alike_runEdit (a : EditArgs) (verbose quiet : Bool) (h : quiet = a.quiet ∨ a.expressions = []) :
    Alike (runEdit a) (runEdit { a with verbose, quiet }) := by
  unfold runEdit
  simp only [show EditArgs.format { a with verbose, quiet } = a.format from rfl]
  split
  · exact .ret
  split
  · exact .ret
  split
  · exact .ret
  split
  · exact .ret
  split
  · rename_i he
    rcases h with rfl | h
    · exact alike_runExpressions a verbose
    · rw [h] at he; exact absurd he (by simp)
  · exact alike_runScript a verbose quiet

/-- **C78**: `--verbose` changes nothing but what is printed: whatever run is possible with it is possible without it and the other way round (the
statement is for any two values of the flag), with the same error or success and the same files, at the end and at every moment in between. -/
theorem C78_verbose (a : EditArgs) (verbose : Bool) (w w' : World) :
    (∀ r, Ends (runEdit a) w r w' → ∃ v', Ends (runEdit { a with verbose }) w r v' ∧ SameFiles w' v') ∧
    (Sees (runEdit a) w w' → ∃ v', Sees (runEdit { a with verbose }) w v' ∧ SameFiles w' v') :=
  have h := alike_runEdit a verbose a.quiet (.inl rfl)
  ⟨fun _ he => h.ends ⟨rfl, rfl⟩ he, fun hs => h.sees ⟨rfl, rfl⟩ hs⟩

/-- **C78**: neither does `--quiet` when a script is applied. (With `-e` it does: see C58.) -/
theorem C78_quiet (a : EditArgs) (he : a.expressions = []) (verbose quiet : Bool) (w w' : World) :
    (∀ r, Ends (runEdit a) w r w' → ∃ v', Ends (runEdit { a with verbose, quiet }) w r v' ∧ SameFiles w' v') ∧
    (Sees (runEdit a) w w' → ∃ v', Sees (runEdit { a with verbose, quiet }) w v' ∧ SameFiles w' v') :=
  have h := alike_runEdit a verbose quiet (.inr he)
  ⟨fun _ he => h.ends ⟨rfl, rfl⟩ he, fun hs => h.sees ⟨rfl, rfl⟩ hs⟩

/-! ### What is printed -/

/-- No text is printed. -/
def Wordless {α : Type} : Proc α → Prop
  | .ret _ => True
  | .panic => True
  | .act a k => (∀ t, a ≠ .print t) ∧ ∀ r, Wordless (k r)

omit [Ext] in
theorem Wordless.sees {α : Type} {p : Proc α} (h : Wordless p) {w w' : World} (hs : Sees p w w') : w'.out = w.out := by
  induction p generalizing w with
  | ret a => cases sees_ret.1 hs; rfl
  | panic => cases sees_panic.1 hs; rfl
  | act a k ih =>
    have hw : ∀ r w1, ActEnds a w r w1 → w1.out = w.out := by
      intro r w1 h1
      cases a with
      | read p => obtain ⟨rfl, _⟩ := h1; rfl
      | stdin => obtain ⟨rfl, _⟩ := h1; rfl
      | print t => exact absurd rfl (h.1 t)
      | write p d => rcases h1 with ⟨_, rfl⟩ | ⟨_, _, rfl | ⟨_, _, rfl⟩⟩ <;> rfl
    rcases sees_act.1 hs with (rfl | h1) | ⟨r, w1, h1, h2⟩
    · rfl
    · cases a with
      | write p d => obtain ⟨n, _, rfl⟩ := h1; rfl
      | read p => exact h1.elim
      | stdin => exact h1.elim
      | print t => exact h1.elim
    · rw [ih r (h.2 r) h2, hw r w1 h1]

omit [Ext] in
theorem Wordless.say {α : Type} {p : Proc α} (h : Wordless p) {c : Bool} (hc : c = false) (t : Bytes) : Wordless (Texted.say c t p) := by
  subst hc; exact h

omit [Ext] in
theorem Wordless.bind {α β : Type} {p : Proc α} (h : Wordless p) {f : α → Proc β} (hf : ∀ a, Wordless (f a)) : Wordless (p.bind f) := by
  induction p with
  | ret a => exact hf a
  | panic => trivial
  | act a k ih => exact ⟨h.1, fun r => ih r (h.2 r)⟩

omit [Ext] in
theorem wordless_ret {α : Type} (x : α) : Wordless (.ret x) := trivial

omit [Ext] in
theorem wordless_act {α : Type} {a : Act} {k : Except Bytes Bytes → Proc α} (h : ∀ t, a ≠ .print t) (hk : ∀ r, Wordless (k r)) : Wordless (.act a k) := ⟨h, hk⟩

omit [Ext] in
theorem wordless_returnErr (r : Except Bytes Bytes) : Wordless (returnErr r) := by cases r <;> trivial

theorem wordless_inPlaceEdit (a : EditArgs) (hq : a.quiet = true) (script f : Bytes) : Wordless (inPlaceEdit a script f) := by
  have hc : ∀ t, Wordless (complain a t) := fun t => Wordless.say (p := .ret true) trivial (by rw [hq]; rfl) t
  refine ⟨fun _ h => (nomatch h), fun r => ?_⟩
  cases r with
  | error e => exact hc _
  | ok c =>
    dsimp only
    cases executeScriptWithFormat c script a.format with
    | panic => trivial
    | err e => exact hc _
    | ok t =>
      refine ⟨fun _ h => (nomatch h), fun r => ?_⟩
      cases r with
      | error e => exact hc _
      | ok _ => exact Wordless.say (p := .ret false) trivial (by rw [hq]; rfl) _

theorem wordless_inPlaceOne (a : EditArgs) (hq : a.quiet = true) (script f : Bytes) : Wordless (inPlaceOne a script f) := by
  have hl : a.loud = false := by simp [EditArgs.loud, hq]
  have hn : (!a.quiet) = false := by rw [hq]; rfl
  have hc : ∀ t, Wordless (complain a t) := fun t => Wordless.say (p := .ret true) trivial hn t
  refine Wordless.say ?_ hl _
  split
  · exact Wordless.say (Wordless.say (Wordless.say (wordless_ret _) hn _) (by rw [hn]; rfl) _) hn _
  · split
    · refine Wordless.say (wordless_act (by intro _ h; cases h) fun r => ?_) hl _
      cases r with
      | error e => exact hc _
      | ok c =>
        refine ⟨fun _ h => (nomatch h), fun r => ?_⟩
        cases r with
        | error e => exact hc _
        | ok _ => exact wordless_inPlaceEdit a hq script f
    · exact wordless_inPlaceEdit a hq script f

/-- **C78**: with `--quiet` nothing is ever printed, except the result itself where that goes to standard output. -/
theorem C78_quiet_is_silent (a : EditArgs) (hq : a.quiet = true) (he : a.expressions = [])
    (h : a.dryRun = true ∨ (a.inPlace = true ∧ a.files ≠ []) ∨ a.outputFile ≠ []) (w w' : World) (hs : Sees (runEdit a) w w') : w'.out = w.out := by
  refine Wordless.sees (p := runEdit a) ?_ hs
  have hl : a.loud = false := by simp [EditArgs.loud, hq]
  have hn : (!a.quiet) = false := by rw [hq]; rfl
  have hin : ∀ script, Wordless (processFilesInPlace a script) := by
    intro script
    refine Wordless.bind ?_ fun _ => trivial
    have : ∀ fs, Wordless (inPlaceLoop a script fs) := by
      intro fs
      induction fs with
      | nil => trivial
      | cons f fs ih => exact (wordless_inPlaceOne a hq script f).bind fun _ => ih.bind fun _ => trivial
    exact this _
  have hsingle : ∀ script f dest act, (a.dryRun = true ∨ ∀ d t, act d ≠ .print t) → Wordless (processSingle a script f dest act) := by
    intro script f dest act hd
    refine Wordless.say ?_ hl _
    split
    · exact Wordless.say (wordless_ret _) hn _
    · rename_i hnd
      have hd := hd.resolve_left hnd
      refine ⟨fun _ h => (nomatch h), fun r => ?_⟩
      cases r with
      | error e => trivial
      | ok c =>
        dsimp only
        cases executeScriptWithFormat c script a.format with
        | panic => trivial
        | err e => trivial
        | ok t => exact ⟨hd t, wordless_returnErr⟩
  have happ : ∀ script, Wordless (applyScript a script) := by
    intro script
    unfold applyScript
    split
    · rename_i hf
      have hf : a.files = [] := by simpa using hf
      refine ⟨fun _ h => (nomatch h), fun r => ?_⟩
      cases r with
      | error e => trivial
      | ok c =>
        refine Wordless.say ?_ hl _
        split
        · exact Wordless.say (wordless_ret _) hn _
        · rename_i hnd
          cases executeScriptWithFormat c script a.format with
          | panic => trivial
          | err e => trivial
          | ok t =>
            have ho : a.outputFile ≠ [] := by
              rcases h with h | h | h
              · exact absurd h hnd
              · exact absurd hf h.2
              · exact h
            dsimp only
            rw [if_pos ho]
            exact Wordless.say (wordless_act (by intro _ h; cases h) wordless_returnErr) hl _
    · unfold processFiles
      split
      · split
        · exact hsingle _ _ _ _ (.inr fun _ _ h => (nomatch h))
        · rename_i ho
          split
          · exact hin _
          · rename_i hni
            refine hsingle _ _ _ _ (.inl ?_)
            rcases h with h | h | h
            · exact h
            · exact absurd h.1 hni
            · exact absurd h ho
      · split
        · trivial
        · exact hin _
  unfold runEdit
  split
  · trivial
  split
  · trivial
  split
  · trivial
  split
  · trivial
  split
  · rename_i hx; rw [he] at hx; exact absurd hx (by simp)
  · unfold runScript
    split
    · refine ⟨fun _ h => (nomatch h), fun r => ?_⟩
      cases r with
      | error e => trivial
      | ok s => exact happ s
    · split
      · trivial
      · exact happ _

omit [Ext] in
theorem Spec.PrintedOn.append {l l' : List Bytes} {o o1 o2 : Bytes} (h : PrintedOn l o o1) (h' : PrintedOn l' o1 o2) : PrintedOn (l ++ l') o o2 := by
  induction h with
  | nil => exact h'
  | cons hp _ ih => exact .cons hp (ih h')

omit [Ext] in
theorem ends_say_out {α : Type} {c : Bool} {t : Bytes} {k : Proc α} {w w' : World} {a : α} (h : Ends (say c t k) w a w') :
    ∃ w1, SameFiles w w1 ∧ PrintedOn (if c then [t] else []) w.out w1.out ∧ Ends k w1 a w' := by
  unfold say at h
  split at h
  · rename_i hc
    obtain ⟨r, w1, h1, h2⟩ := ends_act.1 h
    refine ⟨w1, print_ends h1, ?_, h2⟩
    rw [if_pos hc]
    rcases h1 with ⟨_, rfl⟩ | ⟨n, e, _, rfl⟩
    · exact .cons (List.prefix_refl _) .nil
    · exact .cons (List.take_prefix _ _) .nil
  · rename_i hc
    exact ⟨w, ⟨rfl, rfl⟩, by rw [if_neg hc]; exact .nil, h⟩

omit [Ext] in
theorem ends_complain {a : EditArgs} {t : Bytes} {w w' : World} {bad : Bool} (h : Ends (complain a t) w bad w') :
    bad = true ∧ SameFiles w w' ∧ PrintedOn (if a.quiet then [] else [t]) w.out w'.out := by
  obtain ⟨w1, h1, h2, h3⟩ := ends_say_out h
  obtain ⟨rfl, rfl⟩ := ends_ret.1 h3
  refine ⟨rfl, h1, ?_⟩
  cases hq : a.quiet <;> simpa [hq] using h2

theorem inPlaceEdit_report (a : EditArgs) (script f : Bytes) (w w' : World) (bad : Bool) (h : Ends (inPlaceEdit a script f) w bad w') :
    ∃ line, Report a (fun c => executeScriptWithFormat c script a.format) f (w.files f) line (w'.files f) bad ∧
      PrintedOn (if a.quiet then [] else [line]) w.out w'.out := by
  obtain ⟨r, w1, ⟨rfl, ⟨c, hc, rfl⟩ | ⟨e, rfl⟩⟩, h⟩ := ends_act.1 h
  · simp only at h
    cases hx : executeScriptWithFormat c script a.format with
    | panic => rw [hx] at h; exact absurd h ends_panic
    | err e =>
      rw [hx] at h
      obtain ⟨rfl, ⟨hf, _⟩, hp⟩ := ends_complain h
      exact ⟨_, by rw [hf, hc]; exact .script (c := c) (e := e) hx, hp⟩
    | ok t =>
      rw [hx] at h
      obtain ⟨r, w2, h2, h5⟩ := ends_act.1 h
      rcases h2 with ⟨rfl, rfl⟩ | ⟨e, rfl, rfl | ⟨n, hn, rfl⟩⟩
      · obtain ⟨w3, ⟨hf, _⟩, hp, h6⟩ := ends_say_out h5
        obtain ⟨rfl, rfl⟩ := ends_ret.1 h6
        refine ⟨_, by rw [hf, World.put_same, hc]; exact .edited (c := c) (t := t) hx, ?_⟩
        cases hq : a.quiet
        · simpa [hq, World.put, nl] using hp
        · simpa [hq, World.put] using hp
      · obtain ⟨rfl, ⟨hf, _⟩, hp⟩ := ends_complain h5
        exact ⟨_, by rw [hf, hc]; exact .notOpened (c := c) (t := t) (e := e) hx, hp⟩
      · obtain ⟨rfl, ⟨hf, _⟩, hp⟩ := ends_complain h5
        exact ⟨_, by rw [hf, World.put_same, hc]; exact .cut (c := c) (t := t) (e := e) hx hn, hp⟩
  · obtain ⟨rfl, ⟨hf, _⟩, hp⟩ := ends_complain h
    exact ⟨_, by rw [hf]; exact .unread (e := e), hp⟩

omit [Ext] in
theorem loud_iff (a : EditArgs) : a.loud = true ↔ a.verbose = true ∧ a.quiet = false := by
  simp [EditArgs.loud]

theorem inPlaceOne_report (a : EditArgs) (script f : Bytes) (hd : a.dryRun = false) (w w' : World) (bad : Bool)
    (h : Ends (inPlaceOne a script f) w bad w') :
    ∃ line, Report a (fun c => executeScriptWithFormat c script a.format) f (w.files f) line (w'.files f) bad ∧
      PrintedOn (Announced a f ++ if a.quiet then [] else [line]) w.out w'.out := by
  unfold inPlaceOne at h
  obtain ⟨w1, ⟨hf1, _⟩, hp1, h⟩ := ends_say_out h
  rw [if_neg (by rw [hd]; simp)] at h
  rw [← hf1]
  split at h
  · rename_i hs
    obtain ⟨w2, ⟨hf2, _⟩, hp2, h⟩ := ends_say_out h
    rw [← hf2]
    have hann : PrintedOn (Announced a f) w.out w2.out := by
      have := hp1.append hp2
      unfold Announced
      by_cases hl : a.loud = true
      · rw [if_pos ((loud_iff a).1 hl), if_neg hs]
        rw [if_pos hl, if_pos hl] at this
        simpa [List.append_assoc, nl] using this
      · rw [if_neg fun h => hl ((loud_iff a).2 h)]
        rw [if_neg hl, if_neg hl] at this
        exact this
    have hne : f ≠ f ++ a.backupSuffix := fun hh => append_suffix_ne hs hh.symm
    obtain ⟨r, w3, ⟨rfl, ⟨c, hc, rfl⟩ | ⟨e, rfl⟩⟩, h⟩ := ends_act.1 h
    · obtain ⟨r, w4, h4, h⟩ := ends_act.1 h
      have hf4 : w4.files f = w3.files f := by
        apply h4.files f; rintro p d hpd; cases hpd; exact hne
      have ho4 : w4.out = w3.out := by rcases h4 with ⟨_, rfl⟩ | ⟨_, _, rfl | ⟨_, _, rfl⟩⟩ <;> rfl
      rw [← hf4]
      rw [← ho4] at hann
      cases r with
      | error e =>
        obtain ⟨rfl, ⟨hf, _⟩, hp⟩ := ends_complain h
        refine ⟨_, ?_, hann.append hp⟩
        rw [hf]
        have := Report.noBackup (exec := fun c => executeScriptWithFormat c script a.format) (f := f) (c := w4.files f) (e := e) hs
        simpa [List.append_assoc, nl] using this
      | ok x =>
        obtain ⟨line, h1, h2⟩ := inPlaceEdit_report a script f w4 w' bad h
        exact ⟨line, h1, hann.append h2⟩
    · obtain ⟨rfl, ⟨hf, _⟩, hp⟩ := ends_complain h
      exact ⟨_, by rw [hf]; exact .unreadForBackup (e := e) hs, hann.append hp⟩
  · rename_i hs
    have hs : a.backupSuffix = [] := Classical.byContradiction hs
    obtain ⟨line, h1, h2⟩ := inPlaceEdit_report a script f w1 w' bad h
    refine ⟨line, h1, ?_⟩
    have : PrintedOn (Announced a f) w.out w1.out := by
      unfold Announced
      by_cases hl : a.loud = true
      · rw [if_pos ((loud_iff a).1 hl), if_pos hs]
        rw [if_pos hl] at hp1
        exact hp1
      · rw [if_neg fun h => hl ((loud_iff a).2 h)]
        rw [if_neg hl] at hp1
        exact hp1
    exact this.append h2

theorem inPlaceLoop_report (a : EditArgs) (script : Bytes) (hd : a.dryRun = false) (fs : List Bytes) (hnd : fs.Nodup)
    (hcol : a.backupSuffix ≠ [] → NoCollision fs a.backupSuffix) (w w' : World) (bad : Bool) (h : Ends (inPlaceLoop a script fs) w bad w') :
    ∃ lines : List Bytes, ∃ failed : List Bool, lines.length = fs.length ∧ failed.length = fs.length ∧ bad = failed.any id ∧
      PrintedOn (InPlaceTexts a fs lines) w.out w'.out ∧
      ∀ (i : Nat) (f : Bytes), fs[i]? = some f → ∃ line bad, lines[i]? = some line ∧ failed[i]? = some bad ∧
        Report a (fun c => executeScriptWithFormat c script a.format) f (w.files f) line (w'.files f) bad := by
  induction fs generalizing w bad with
  | nil =>
    obtain ⟨rfl, rfl⟩ := ends_ret.1 h
    exact ⟨[], [], rfl, rfl, rfl, .nil, fun i f h => by simp at h⟩
  | cons g fs ih =>
    obtain ⟨hg, hnd'⟩ := List.nodup_cons.1 hnd
    have hcol' : a.backupSuffix ≠ [] → NoCollision fs a.backupSuffix :=
      fun hs x hx y hy => hcol hs x (List.mem_cons_of_mem _ hx) y (List.mem_cons_of_mem _ hy)
    obtain ⟨bad1, w1, h1, h2⟩ := ends_bind.1 h
    obtain ⟨bad2, w2, h3, h4⟩ := ends_bind.1 h2
    obtain ⟨rfl, rfl⟩ := ends_ret.1 h4
    obtain ⟨lines, failed, hl1, hl2, hbad, hp, hall⟩ := ih hnd' hcol' w1 bad2 h3
    obtain ⟨line, o1, o2⟩ := inPlaceOne_report a script g hd w w1 bad1 h1
    have hkeep : ∀ f ∈ fs, w1.files f = w.files f := by
      intro f hf
      refine (writes_inPlaceOne a script g).sees (ends_sees h1) f ?_
      rintro ⟨_, rfl | ⟨hs, h⟩⟩
      · exact hg hf
      · exact hcol hs g List.mem_cons_self f (List.mem_cons_of_mem _ hf) h.symm
    have hg1 : w'.files g = w1.files g := by
      refine (writes_inPlaceLoop a script fs).sees (ends_sees h3) g ?_
      rintro ⟨_, f, hf, rfl | ⟨hs, h⟩⟩
      · exact hg hf
      · exact hcol hs f (List.mem_cons_of_mem _ hf) g List.mem_cons_self h.symm
    refine ⟨line :: lines, bad1 :: failed, by simp [hl1], by simp [hl2], by simp [hbad], ?_, ?_⟩
    · have := o2.append hp
      simpa [InPlaceTexts] using this
    · intro i f hf
      cases i with
      | zero =>
        simp only [List.getElem?_cons_zero, Option.some.injEq] at hf
        subst hf
        exact ⟨line, bad1, rfl, rfl, by rw [hg1]; exact o1⟩
      | succ i =>
        simp only [List.getElem?_cons_succ] at hf
        obtain ⟨l, b, e1, e2, e3⟩ := hall i f hf
        rw [hkeep f (List.mem_of_getElem? hf)] at e3
        exact ⟨l, b, by simpa using e1, by simpa using e2, e3⟩

/-- **C78**: what editing in place prints, whatever fails: for each file in order, the announcements of `--verbose`, then one line that says truly
what became of the file; with `--quiet` nothing. The command fails exactly if one of the lines reports a failure. -/
theorem C78_in_place (a : EditArgs) (hi : a.inPlace = true) (he : a.expressions = []) (hd : a.dryRun = false) (hf : a.files ≠ [])
    (hnd : a.files.Nodup) (hcol : a.backupSuffix ≠ [] → ∀ f ∈ a.files, ∀ g ∈ a.files, f ++ a.backupSuffix ≠ g) (hc : ¬ Contradictory a)
    (w w' : World) (r : Option Bytes) (h : Ends (runEdit a) w r w') :
    (w' = w ∧ ∃ e, r = some e) ∨
    ∃ (script : Bytes) (lines : List Bytes) (failed : List Bool), ScriptOf a w script ∧ lines.length = a.files.length ∧ failed.length = a.files.length ∧
      PrintedOn (InPlaceTexts a a.files lines) w.out w'.out ∧ (r = none ↔ true ∉ failed) ∧
      ∀ (i : Nat) (f : Bytes), a.files[i]? = some f → ∃ line bad, lines[i]? = some line ∧ failed[i]? = some bad ∧
        Report a (fun c => executeScriptWithFormat c script a.format) f (w.files f) line (w'.files f) bad := by
  rcases runEdit_inPlace_ends a hi he hf hc w w' r h with h | ⟨script, bad, hs, h1, hr⟩
  · exact .inl h
  · obtain ⟨lines, failed, l1, l2, hb, hp, hall⟩ := inPlaceLoop_report a script hd a.files hnd hcol w w' bad h1
    refine .inr ⟨script, lines, failed, hs, l1, l2, hp, ?_, hall⟩
    rw [hr, hb]
    cases hx : failed.any id with
    | true =>
      rw [List.any_eq_true] at hx
      obtain ⟨x, hm, hx⟩ := hx
      have : x = true := hx
      subst this
      exact ⟨fun h => (nomatch h), fun h => absurd hm h⟩
    | false =>
      rw [List.any_eq_false] at hx
      exact ⟨fun _ hm => by have := hx true hm; simp at this, fun _ => rfl⟩

/-- **C78**: what a dry run in place prints: for each file that it would be edited, and where its backup would go. -/
theorem C78_dry_run_in_place (a : EditArgs) (hi : a.inPlace = true) (he : a.expressions = []) (hd : a.dryRun = true) (hf : a.files ≠ [])
    (hc : ¬ Contradictory a) (w w' : World) (r : Option Bytes) (h : Ends (runEdit a) w r w') :
    (w' = w ∧ ∃ e, r = some e) ∨ (r = none ∧ SameFiles w w' ∧ PrintedOn (DryTexts a) w.out w'.out) := by
  rcases runEdit_inPlace_ends a hi he hf hc w w' r h with h | ⟨script, bad, hs, h1, hr⟩
  · exact .inl h
  · have key : ∀ fs : List Bytes, ∀ (w w' : World) (bad : Bool), Ends (inPlaceLoop a script fs) w bad w' →
        bad = false ∧ SameFiles w w' ∧ PrintedOn (fs.flatMap fun f =>
          (if a.verbose = true ∧ a.quiet = false then [b! "Processing " ++ f ++ b! " in place\n"] else []) ++
          (if a.quiet then [] else [b! "Would edit " ++ f ++ b! " in place"] ++
            (if a.backupSuffix = [] then [] else [b! " (backup to " ++ f ++ a.backupSuffix ++ b! ")"]) ++ [b! "\n"])) w.out w'.out := by
      intro fs
      induction fs with
      | nil =>
        intro w w' bad h
        obtain ⟨rfl, rfl⟩ := ends_ret.1 h
        exact ⟨rfl, ⟨rfl, rfl⟩, .nil⟩
      | cons f fs ih =>
        intro w w' bad h
        obtain ⟨bad1, w1, h1, h2⟩ := ends_bind.1 h
        obtain ⟨bad2, w2, h3, h4⟩ := ends_bind.1 h2
        obtain ⟨rfl, rfl⟩ := ends_ret.1 h4
        obtain ⟨e1, e2, e3⟩ := ih _ _ _ h3
        unfold inPlaceOne at h1
        obtain ⟨v1, s1, p1, h1⟩ := ends_say_out h1
        rw [if_pos hd] at h1
        obtain ⟨v2, s2, p2, h1⟩ := ends_say_out h1
        obtain ⟨v3, s3, p3, h1⟩ := ends_say_out h1
        obtain ⟨v4, s4, p4, h1⟩ := ends_say_out h1
        obtain ⟨rfl, rfl⟩ := ends_ret.1 h1
        refine ⟨by rw [e1]; rfl, ⟨e2.1.trans (s4.1.trans (s3.1.trans (s2.1.trans s1.1))), e2.2.trans (s4.2.trans (s3.2.trans (s2.2.trans s1.2)))⟩, ?_⟩
        rw [List.flatMap_cons]
        refine Spec.PrintedOn.append (Spec.PrintedOn.append (o1 := v1.out) ?_ ?_) e3
        · by_cases hl : a.loud = true
          · rw [if_pos ((loud_iff a).1 hl)]
            rw [if_pos hl] at p1
            exact p1
          · rw [if_neg fun h => hl ((loud_iff a).2 h)]
            rw [if_neg hl] at p1
            exact p1
        · have := p2.append (p3.append p4)
          cases hq : a.quiet
          · by_cases hb : a.backupSuffix = []
            · simpa [hq, hb, nl] using this
            · simpa [hq, hb, nl] using this
          · simpa [hq] using this
    obtain ⟨rfl, h2, h3⟩ := key _ _ _ _ h1
    exact .inr ⟨hr, h2, h3⟩

omit [Ext] in
theorem returnErr_ends {w w' : World} {t : Bytes} (h : Ends (.act (.print t) returnErr) w none w') : w' = { w with out := w.out ++ t } := by
  obtain ⟨r, w1, h1, h2⟩ := ends_act.1 h
  rcases h1 with ⟨rfl, rfl⟩ | ⟨n, e, rfl, rfl⟩
  · exact (ends_ret.1 h2).2
  · exact absurd (ends_ret.1 h2).1 (by simp)

omit [Ext] in
theorem returnErr_writes {w w' : World} {f t : Bytes} (h : Ends (.act (.write f t) returnErr) w none w') : w' = w.put f t := by
  obtain ⟨r, w1, h1, h2⟩ := ends_act.1 h
  rcases h1 with ⟨rfl, rfl⟩ | ⟨e, rfl, _⟩
  · exact (ends_ret.1 h2).2
  · exact absurd (ends_ret.1 h2).1 (by simp)

/-- **C78**: a successful run on standard input or a single file: the announcements of `--verbose` (on standard output too), then the result. -/
theorem C78_result (a : EditArgs) (hi : a.inPlace = false) (hf : a.files.length ≤ 1) (he : a.expressions = [])
    (hd : a.dryRun = false) (w w' : World) (h : Ends (runEdit a) w none w') :
    ∃ script c t, ScriptOf a w script ∧ InputOf a w c ∧ executeScriptWithFormat c script a.format = .ok t ∧ DeliveredAfter a w w' t := by
  have hc : ¬ Contradictory a := by
    intro hc
    obtain ⟨e, he⟩ := refused_of_contradictory a hc
    rw [he] at h
    exact absurd (ends_ret.1 h).1 (by simp)
  rw [runEdit_consistent a hc he] at h
  obtain ⟨script, hs, h⟩ := runScript_ends h
  have hopen : ∀ (t : Bytes) (o o' : Bytes), PrintedOn (if a.loud = true then [t] else []) o o' →
      PrintedOn (if a.verbose = true ∧ a.quiet = false then [t] else []) o o' := by
    intro t o o' h
    by_cases hl : a.loud = true
    · rw [if_pos ((loud_iff a).1 hl)]; rw [if_pos hl] at h; exact h
    · rw [if_neg fun h => hl ((loud_iff a).2 h)]; rw [if_neg hl] at h; exact h
  unfold applyScript at h
  match hfs : a.files with
  | [] =>
    rw [hfs, if_pos (show ([] : List Bytes).isEmpty = true from rfl)] at h
    obtain ⟨r, w1, ⟨rfl, rfl | ⟨e, rfl⟩⟩, h2⟩ := ends_act.1 h
    · obtain ⟨w2, s2, p2, h2⟩ := ends_say_out h2
      rw [if_neg (by rw [hd]; simp)] at h2
      have p2 := hopen _ _ _ p2
      cases hx : executeScriptWithFormat w.input script a.format with
      | panic => rw [hx] at h2; exact absurd h2 ends_panic
      | err e => rw [hx] at h2; exact absurd (ends_ret.1 h2).1 (by simp)
      | ok t =>
        rw [hx] at h2
        refine ⟨script, w.input, t, hs, by rw [InputOf, hfs], hx, ?_⟩
        unfold DeliveredAfter Opening
        rw [hfs]
        dsimp only at h2 ⊢
        by_cases ho : a.outputFile = []
        · rw [if_neg (fun h => h ho)] at h2
          rw [returnErr_ends h2]
          refine ⟨w2.out, ?_, ?_⟩
          · rw [if_pos (Or.inl ho), List.append_nil]; exact p2
          · rw [if_pos ho]; exact ⟨rfl, s2.1⟩
        · rw [if_pos ho] at h2
          obtain ⟨w3, s3, p3, h2⟩ := ends_say_out h2
          have p3 := hopen _ _ _ p3
          rw [returnErr_writes h2]
          refine ⟨w3.out, ?_, ?_⟩
          · rw [if_neg (show ¬ (a.outputFile = [] ∨ a.dryRun = true) by rw [hd]; simp [ho])]
            have := p2.append p3
            by_cases hl : a.verbose = true ∧ a.quiet = false
            · rw [if_pos hl, if_pos hl] at this
              rw [if_pos hl]
              exact this
            · rw [if_neg hl, if_neg hl] at this
              rw [if_neg hl]
              exact this
          · rw [if_neg ho]
            refine ⟨rfl, World.put_same _ _ _, fun q hq => ?_⟩
            rw [World.put_other _ _ _ _ hq, s3.1, s2.1]
    · exact absurd (ends_ret.1 h2).1 (by simp)
  | [f] =>
    rw [hfs, if_neg (by simp)] at h
    unfold processFiles at h
    rw [hfs] at h
    dsimp only at h
    have single : ∀ dest act, Ends (processSingle a script f dest act) w none w' → ∃ c t o, w.files f = some c ∧
        executeScriptWithFormat c script a.format = .ok t ∧
        PrintedOn (if a.verbose = true ∧ a.quiet = false then [b! "Processing " ++ f ++ b! " -> " ++ dest ++ b! "\n"] else []) w.out o ∧
        Ends (.act (act t) returnErr) { w with out := o } none w' := by
      intro dest act h
      obtain ⟨w1, s1, p1, h⟩ := ends_say_out h
      rw [if_neg (by rw [hd]; simp)] at h
      have p1 := hopen _ _ _ p1
      obtain ⟨r, w2, ⟨rfl, ⟨c, hc, rfl⟩ | ⟨e, rfl⟩⟩, h2⟩ := ends_act.1 h
      · cases hx : executeScriptWithFormat c script a.format with
        | panic => simp only [hx] at h2; exact absurd h2 ends_panic
        | err e => simp only [hx] at h2; exact absurd (ends_ret.1 h2).1 (by simp)
        | ok t =>
          simp only [hx] at h2
          refine ⟨c, t, w2.out, by rw [← s1.1]; exact hc, hx, p1, ?_⟩
          have : ({ w with out := w2.out } : World) = w2 := by
            cases w; cases w2
            obtain ⟨e1, e2⟩ := s1
            simp only at e1 e2
            rw [e1, e2]
          rw [this]; exact h2
      · exact absurd (ends_ret.1 h2).1 (by simp)
    by_cases ho : a.outputFile = []
    · rw [if_neg (fun h => h ho), if_neg (by rw [hi]; simp)] at h
      obtain ⟨c, t, o, h1, h2, h3, h4⟩ := single _ _ h
      refine ⟨script, c, t, hs, by rw [InputOf, hfs]; exact h1, h2, o, ?_, ?_⟩
      · unfold Opening; rw [hfs]; dsimp only; rw [if_pos ho]; exact h3
      · rw [if_pos ho, returnErr_ends h4]; exact ⟨rfl, rfl⟩
    · rw [if_pos ho] at h
      obtain ⟨c, t, o, h1, h2, h3, h4⟩ := single _ _ h
      refine ⟨script, c, t, hs, by rw [InputOf, hfs]; exact h1, h2, o, ?_, ?_⟩
      · unfold Opening; rw [hfs]; dsimp only; rw [if_neg ho]; exact h3
      · rw [if_neg ho, returnErr_writes h4]
        exact ⟨rfl, World.put_same _ _ _, fun q hq => World.put_other _ _ _ _ hq⟩
  | f :: g :: r => rw [hfs] at hf; simp at hf

/-- **C78**: what a dry run on standard input or a single file prints. Standard input is read to the end to count its bytes; the file is not even
read, so a dry run succeeds also if there is no such file. -/
theorem C78_dry_run (a : EditArgs) (hi : a.inPlace = false) (hf : a.files.length ≤ 1) (he : a.expressions = []) (hd : a.dryRun = true)
    (w w' : World) (h : Ends (runEdit a) w none w') :
    w'.files = w.files ∧ PrintedOn (Opening a ++ (if a.quiet then [] else match a.files with
      | [] => [b! "Would process " ++ natDec w.input.length ++ b! " bytes from stdin\n"]
      | f :: _ => [b! "Would process " ++ f ++ b! " and write to " ++ (if a.outputFile = [] then b! "stdout" else a.outputFile) ++ b! "\n"])) w.out w'.out := by
  have hc : ¬ Contradictory a := by
    intro hc
    obtain ⟨e, he⟩ := refused_of_contradictory a hc
    rw [he] at h
    exact absurd (ends_ret.1 h).1 (by simp)
  rw [runEdit_consistent a hc he] at h
  obtain ⟨script, hs, h⟩ := runScript_ends h
  have hopen : ∀ (t : Bytes) (o o' : Bytes), PrintedOn (if a.loud = true then [t] else []) o o' →
      PrintedOn (if a.verbose = true ∧ a.quiet = false then [t] else []) o o' := by
    intro t o o' h
    by_cases hl : a.loud = true
    · rw [if_pos ((loud_iff a).1 hl)]; rw [if_pos hl] at h; exact h
    · rw [if_neg fun h => hl ((loud_iff a).2 h)]; rw [if_neg hl] at h; exact h
  have hquiet : ∀ (t : Bytes) (o o' : Bytes), PrintedOn (if (!a.quiet) = true then [t] else []) o o' → PrintedOn (if a.quiet = true then [] else [t]) o o' := by
    intro t o o' h
    cases hq : a.quiet <;> simpa [hq] using h
  unfold applyScript at h
  match hfs : a.files with
  | [] =>
    rw [hfs, if_pos (show ([] : List Bytes).isEmpty = true from rfl)] at h
    obtain ⟨r, w1, ⟨rfl, rfl | ⟨e, rfl⟩⟩, h2⟩ := ends_act.1 h
    · obtain ⟨w2, s2, p2, h2⟩ := ends_say_out h2
      rw [if_pos hd] at h2
      obtain ⟨w3, s3, p3, h2⟩ := ends_say_out h2
      obtain ⟨_, rfl⟩ := ends_ret.1 h2
      refine ⟨s3.1.trans s2.1, ?_⟩
      refine Spec.PrintedOn.append (o1 := w2.out) ?_ (hquiet _ _ _ p3)
      unfold Opening
      rw [hfs]
      dsimp only
      rw [if_pos (Or.inr hd), List.append_nil]
      exact hopen _ _ _ p2
    · exact absurd (ends_ret.1 h2).1 (by simp)
  | [f] =>
    rw [hfs, if_neg (by simp)] at h
    unfold processFiles at h
    rw [hfs] at h
    dsimp only at h
    have single : ∀ dest act, Ends (processSingle a script f dest act) w none w' → w'.files = w.files ∧
        PrintedOn ((if a.verbose = true ∧ a.quiet = false then [b! "Processing " ++ f ++ b! " -> " ++ dest ++ b! "\n"] else []) ++
          (if a.quiet then [] else [b! "Would process " ++ f ++ b! " and write to " ++ dest ++ b! "\n"])) w.out w'.out := by
      intro dest act h
      obtain ⟨w1, s1, p1, h⟩ := ends_say_out h
      rw [if_pos hd] at h
      obtain ⟨w3, s3, p3, h2⟩ := ends_say_out h
      obtain ⟨_, rfl⟩ := ends_ret.1 h2
      exact ⟨s3.1.trans s1.1, Spec.PrintedOn.append (hopen _ _ _ p1) (hquiet _ _ _ p3)⟩
    unfold Opening
    rw [hfs]
    dsimp only
    by_cases ho : a.outputFile = []
    · rw [if_neg (fun h => h ho), if_neg (by rw [hi]; simp)] at h
      rw [if_pos ho]
      exact single _ _ h
    · rw [if_pos ho] at h
      rw [if_neg ho]
      exact single _ _ h
  | f :: g :: r => rw [hfs] at hf; simp at hf

/-- **C78**: what a run says when it fails on standard input or a single file: the error names the file that could not be read or edited, a failing
script's error is passed on, and nothing was changed unless writing the result itself broke off. -/
theorem C78_error (a : EditArgs) (hi : a.inPlace = false) (hf : a.files.length ≤ 1) (he : a.expressions = []) (hc : ¬ Contradictory a)
    (w w' : World) (e : Bytes) (h : Ends (runEdit a) w (some e) w') : Failure a w e w'.files := by
  rw [runEdit_consistent a hc he] at h
  have main : ∀ script, ScriptOf a w script → Ends (applyScript a script) w (some e) w' → Failure a w e w'.files := by
    intro script hs h
    have fin : ∀ (c t : Bytes) (v : World), v.files = w.files → InputOf a w c → executeScriptWithFormat c script a.format = .ok t →
        Ends (.act (if a.outputFile = [] then .print t else .write a.outputFile t) returnErr) v (some e) w' → Failure a w e w'.files := by
      intro c t v hv hin hx h
      obtain ⟨r, w1, h1, h2⟩ := ends_act.1 h
      have hw : w1 = w' ∧ r = .error e := by
        cases r with
        | ok _ => exact absurd (ends_ret.1 h2).1 (by simp)
        | error e' => obtain ⟨h3, h4⟩ := ends_ret.1 h2; cases h3; exact ⟨h4.symm, rfl⟩
      obtain ⟨rfl, rfl⟩ := hw
      by_cases ho : a.outputFile = []
      · rw [if_pos ho] at h1
        have : w1.files = v.files := by
          rcases h1 with ⟨h1, _⟩ | ⟨_, _, _, h1⟩
          · cases h1
          · rw [h1]
        rw [this, hv]
        exact .notDelivered hs hin hx
      · rw [if_neg ho] at h1
        rcases h1 with ⟨h1, _⟩ | ⟨_, _, h1⟩
        · cases h1
        · rcases h1 with h1 | ⟨n, hn, h1⟩
          · rw [h1, hv]; exact .notDelivered hs hin hx
          · have : w1.files = fun q => if q = a.outputFile then some (t.take n) else w.files q := by
              rw [h1]; funext q; simp only [World.put, hv]
            rw [this]
            exact .cut hs hin hx ho hn
    unfold applyScript at h
    match hfs : a.files with
    | [] =>
      rw [hfs, if_pos (show ([] : List Bytes).isEmpty = true from rfl)] at h
      obtain ⟨r, w1, ⟨rfl, rfl | ⟨e', rfl⟩⟩, h2⟩ := ends_act.1 h
      · obtain ⟨w2, s2, p2, h2⟩ := ends_say_out h2
        by_cases hd : a.dryRun = true
        · rw [if_pos hd] at h2
          obtain ⟨w3, _, _, h2⟩ := ends_say_out h2
          exact absurd (ends_ret.1 h2).1 (by simp)
        · rw [if_neg hd] at h2
          cases hx : executeScriptWithFormat w.input script a.format with
          | panic => rw [hx] at h2; exact absurd h2 ends_panic
          | err e' =>
            rw [hx] at h2
            obtain ⟨h3, rfl⟩ := ends_ret.1 h2
            cases h3
            rw [s2.1]
            exact .onStdin hfs hs hx
          | ok t =>
            rw [hx] at h2
            dsimp only at h2
            by_cases ho : a.outputFile = []
            · rw [if_neg (fun h => h ho)] at h2
              exact fin _ t w2 s2.1 (by rw [InputOf, hfs]) hx (by rw [if_pos ho]; exact h2)
            · rw [if_pos ho] at h2
              obtain ⟨w3, s3, p3, h2⟩ := ends_say_out h2
              exact fin _ t w3 (s3.1.trans s2.1) (by rw [InputOf, hfs]) hx (by rw [if_neg ho]; exact h2)
      · obtain ⟨h3, rfl⟩ := ends_ret.1 h2
        cases h3
        exact .stdin hfs
    | [f] =>
      rw [hfs, if_neg (by simp)] at h
      unfold processFiles at h
      rw [hfs] at h
      dsimp only at h
      have single : ∀ dest (act : Bytes → Act), (∀ t, act t = if a.outputFile = [] then .print t else .write a.outputFile t) →
          Ends (processSingle a script f dest act) w (some e) w' → Failure a w e w'.files := by
        intro dest act hact h
        obtain ⟨w1, s1, p1, h⟩ := ends_say_out h
        by_cases hd : a.dryRun = true
        · rw [if_pos hd] at h
          obtain ⟨w3, _, _, h2⟩ := ends_say_out h
          exact absurd (ends_ret.1 h2).1 (by simp)
        · rw [if_neg hd] at h
          obtain ⟨r, w2, ⟨rfl, ⟨c, hc, rfl⟩ | ⟨e', rfl⟩⟩, h2⟩ := ends_act.1 h
          · have hc' : w.files f = some c := by rw [← s1.1]; exact hc
            cases hx : executeScriptWithFormat c script a.format with
            | panic => simp only [hx] at h2; exact absurd h2 ends_panic
            | err e' =>
              simp only [hx] at h2
              obtain ⟨h3, rfl⟩ := ends_ret.1 h2
              cases h3
              rw [s1.1]
              exact .onFile hfs hs hc' hx
            | ok t =>
              simp only [hx] at h2
              exact fin c t w2 s1.1 (by rw [InputOf, hfs]; exact hc') hx (by rw [← hact t]; exact h2)
          · obtain ⟨h3, rfl⟩ := ends_ret.1 h2
            cases h3
            rw [s1.1]
            exact .unread hfs
      by_cases ho : a.outputFile = []
      · rw [if_neg (fun h => h ho), if_neg (by rw [hi]; simp)] at h
        exact single _ _ (fun t => by rw [if_pos ho]) h
      · rw [if_pos ho] at h
        exact single _ _ (fun t => by rw [if_neg ho]) h
    | f :: g :: r => rw [hfs] at hf; simp at hf
  unfold runScript at h
  split at h
  · rename_i hs
    obtain ⟨r, w1, ⟨rfl, ⟨d, hd, rfl⟩ | ⟨e', rfl⟩⟩, h2⟩ := ends_act.1 h
    · exact main d (by rw [ScriptOf, if_neg hs]; exact hd) h2
    · obtain ⟨h3, rfl⟩ := ends_ret.1 h2
      cases h3
      exact .scriptFile hs
  · rename_i hs
    have hs : a.scriptFile = [] := Classical.byContradiction hs
    split at h
    · rename_i h0
      obtain ⟨h3, rfl⟩ := ends_ret.1 h
      cases h3
      exact .noScript ⟨he, hs, h0⟩
    · rename_i h0
      exact main a.script (by rw [ScriptOf, if_pos hs]; exact ⟨rfl, h0⟩) h

/-- A failing run: the error of the script, with the file's name. -/
example : letI := litExt
    (runOk (fun _ => []) (runEdit { script := b! "search-forward \"z\"", files := [b! "f"], outputFile := b! "o" })
      { files := fun q => if q = b! "f" then some (b! "abc") else none, input := [], out := [] }).1 =
    some (some (b! "processing f: script execution failed: search failed (at instruction 0: (search-forward \"z\"), point=1, mark=1)")) := by
  decide +kernel

/-- Finding: `--quiet` ("suppress all output except errors") also hides which file could not be edited and why: of two runs that failed on
different files nothing different is shown. -/
theorem C78_quiet_hides_reasons : ∃ (a : EditArgs) (w v : World), a.quiet = true ∧
    runOk (fun _ => b! "no such file") (runEdit a) w = (some (some (b! "some files could not be edited")), w) ∧
    runOk (fun _ => b! "no such file") (runEdit a) v = (some (some (b! "some files could not be edited")), v) ∧
    w.files (b! "x") = none ∧ v.files (b! "x") ≠ none ∧ w.out = v.out := by
  refine ⟨{ script := b! "(", inPlace := true, quiet := true, files := [b! "x"] },
    { files := fun _ => none, input := [], out := [] }, { files := fun q => if q = b! "x" then some (b! "a") else none, input := [], out := [] }, rfl, ?_, ?_, rfl, ?_, rfl⟩
  · rfl
  · rfl
  · simp

/-- Finding: with `--verbose` the announcements stand in front of the result, on standard output: the output is not the edited text. -/
theorem C78_verbose_mixes : ∃ (a : EditArgs) (w : World), a.verbose = true ∧ a.script = b! "insert \"X\"" ∧ w.input = b! "abc" ∧
    ∀ m, (runOk m (runEdit a) w).2.out = b! "Processing stdin with script in shell format\nXabc" :=
  ⟨{ script := b! "insert \"X\"", verbose := true }, { files := fun _ => none, input := b! "abc", out := [] }, rfl, rfl, rfl, fun _ => rfl⟩

/-- A run that meets the hypotheses, with what it prints: one file edited, one failed. -/
example : letI := litExt
    let a : EditArgs := { script := b! "search-forward \"b\"\ninsert \"!\"", inPlace := true, verbose := true, backupSuffix := b! "~", files := [b! "x", b! "y"] }
    let w : World := { files := fun q => if q = b! "x" then some (b! "abc") else if q = b! "y" then some (b! "c") else none, input := [], out := [] }
    a.files.Nodup ∧ (∀ f ∈ a.files, ∀ g ∈ a.files, f ++ a.backupSuffix ≠ g) ∧
    (runOk (fun _ => []) (runEdit a) w).1 = some (some (b! "some files could not be edited")) ∧
    (runOk (fun _ => []) (runEdit a) w).2.out = b! "Processing x in place\nCreating backup x~\n✓ Successfully edited x\nProcessing y in place\nCreating backup y~\n✗ Failed to process y: script execution failed: search failed (at instruction 0: (search-forward \"b\"), point=1, mark=1)\n" := by
  decide +kernel

example : letI := litExt
    let a : EditArgs := { script := b! "x", inPlace := true, dryRun := true, backupSuffix := b! "~", files := [b! "x", b! "y"] }
    let w : World := { files := fun _ => none, input := [], out := [] }
    (runOk (fun _ => []) (runEdit a) w).2.out = b! "Would edit x in place (backup to x~)\nWould edit y in place (backup to y~)\n" := by
  decide +kernel

end Texted
