import Verif.Props.EndToEnd
import Verif.Props.EditCmd
import Verif.Props.CommandLine
import Verif.Props.Main
/- C62 at every moment of a run, and C79 from the words of the command line to the contents of the files. -/
namespace Texted
open Spec
variable [Ext]

/-! ### At every moment -/

theorem inPlaceEdit_sees (a : EditArgs) (script f : Bytes) (w w' : World) (h : Sees (inPlaceEdit a script f) w w') :
    InTransit (fun c => executeScriptWithFormat c script a.format) (w.files f) (w'.files f) := by
  rcases sees_act.1 h with (rfl | h) | ⟨r, w1, ⟨rfl, ⟨c, hc, rfl⟩ | ⟨e, rfl⟩⟩, h⟩
  · exact .same _
  · exact h.elim
  · simp only at h
    cases hx : executeScriptWithFormat c script a.format with
    | panic => rw [hx] at h; rw [sees_panic.1 h]; exact .same _
    | err e =>
      rw [hx] at h
      obtain ⟨w2, hw2, h⟩ := sees_say h
      rw [sees_ret.1 h, hw2]; exact .same _
    | ok t =>
      rw [hx] at h
      rcases sees_act.1 h with (rfl | ⟨n, hn, rfl⟩) | ⟨r, w2, h2, h⟩
      · exact .same _
      · rw [World.put_same, hc]; exact .writing c t n hx hn
      · have hkeep : w'.files f = w2.files f := by
          cases r with
          | error e => obtain ⟨w3, hw3, h⟩ := sees_say h; rw [sees_ret.1 h, hw3]
          | ok x => obtain ⟨w3, hw3, h⟩ := sees_say h; rw [sees_ret.1 h, hw3]
        rw [hkeep]
        rcases h2 with ⟨_, rfl⟩ | ⟨e, _, rfl | ⟨n, hn, rfl⟩⟩
        · rw [World.put_same, hc]
          have := InTransit.writing (exec := fun c => executeScriptWithFormat c script a.format) c t t.length hx (Nat.le_refl _)
          rwa [List.take_length] at this
        · exact .same _
        · rw [World.put_same, hc]; exact .writing c t n hx hn
  · obtain ⟨w2, hw2, h⟩ := sees_say h
    rw [sees_ret.1 h, hw2]; exact .same _

theorem inPlaceOne_sees (a : EditArgs) (script f : Bytes) (w w' : World) (h : Sees (inPlaceOne a script f) w w') :
    InTransit (fun c => executeScriptWithFormat c script a.format) (w.files f) (w'.files f) := by
  unfold inPlaceOne at h
  obtain ⟨w1, hw1, h⟩ := sees_say h
  rw [← hw1] at *
  split at h
  · obtain ⟨w2, hw2, h⟩ := sees_say h
    obtain ⟨w3, hw3, h⟩ := sees_say h
    obtain ⟨w4, hw4, h⟩ := sees_say h
    rw [sees_ret.1 h, hw4, hw3, hw2]; exact .same _
  split at h
  · rename_i hs
    obtain ⟨w2, hw2, h⟩ := sees_say h
    rw [← hw2] at *
    have hne : f ≠ f ++ a.backupSuffix := fun hh => append_suffix_ne hs hh.symm
    rcases sees_act.1 h with (rfl | h) | ⟨r, w3, ⟨rfl, ⟨c, hc, rfl⟩ | ⟨e, rfl⟩⟩, h⟩
    · exact .same _
    · exact h.elim
    · rcases sees_act.1 h with (rfl | ⟨n, _, rfl⟩) | ⟨r, w4, h4, h⟩
      · exact .same _
      · rw [World.put_other _ _ _ _ hne]; exact .same _
      · have hf4 : w4.files f = w3.files f := by
          apply h4.files f; rintro p d hpd; cases hpd; exact hne
        cases r with
        | error e =>
          obtain ⟨w5, hw5, h⟩ := sees_say h
          rw [sees_ret.1 h, hw5, hf4]; exact .same _
        | ok x => rw [← hf4]; exact inPlaceEdit_sees a script f w4 w' h
    · obtain ⟨w5, hw5, h⟩ := sees_say h
      rw [sees_ret.1 h, hw5]; exact .same _
  · exact inPlaceEdit_sees a script f w1 w' h

theorem inPlaceLoop_sees (a : EditArgs) (hd : a.dryRun = false) (script : Bytes) (fs : List Bytes) (hnd : fs.Nodup)
    (hcol : a.backupSuffix ≠ [] → NoCollision fs a.backupSuffix) (w w' : World) (h : Sees (inPlaceLoop a script fs) w w') :
    w' = w ∨ ∃ done f rest, fs = done ++ f :: rest ∧
      (∀ g ∈ done, ∃ bad, InPlace (fun c => executeScriptWithFormat c script a.format) (w.files g) bad (w'.files g)) ∧
      InTransit (fun c => executeScriptWithFormat c script a.format) (w.files f) (w'.files f) ∧ ∀ g ∈ rest, w'.files g = w.files g := by
  induction fs generalizing w with
  | nil => exact .inl (sees_ret.1 h)
  | cons g fs ih =>
    obtain ⟨hg, hnd'⟩ := List.nodup_cons.1 hnd
    have hcol' : a.backupSuffix ≠ [] → NoCollision fs a.backupSuffix :=
      fun hs x hx y hy => hcol hs x (List.mem_cons_of_mem _ hx) y (List.mem_cons_of_mem _ hy)
    have hkeep : ∀ {w1}, Sees (inPlaceOne a script g) w w1 → ∀ f ∈ fs, w1.files f = w.files f := by
      intro w1 h1 f hf
      refine (writes_inPlaceOne a script g).sees h1 f ?_
      rintro ⟨_, rfl | ⟨hs, h⟩⟩
      · exact hg hf
      · exact hcol hs g List.mem_cons_self f (List.mem_cons_of_mem _ hf) h.symm
    right
    rcases sees_bind.1 h with h | ⟨bad1, w1, h1, h2⟩
    · exact ⟨[], g, fs, rfl, (by simp), inPlaceOne_sees a script g w w' h, fun f hf => hkeep h f hf⟩
    · have hrest : Sees (inPlaceLoop a script fs) w1 w' := by
        rcases sees_bind.1 h2 with h | ⟨b, w2, h3, h4⟩
        · exact h
        · rw [sees_ret.1 h4]; exact ends_sees h3
      have hg1 : w'.files g = w1.files g := by
        refine (writes_inPlaceLoop a script fs).sees hrest g ?_
        rintro ⟨_, f, hf, rfl | ⟨hs, h⟩⟩
        · exact hg hf
        · exact hcol hs f (List.mem_cons_of_mem _ hf) g List.mem_cons_self h.symm
      rcases ih hnd' hcol' w1 hrest with rfl | ⟨done, f, rest, rfl, hdone, hf, hr⟩
      · exact ⟨[], g, fs, rfl, (by simp), inPlaceOne_sees a script g w _ (ends_sees h1), fun f hf => hkeep (ends_sees h1) f hf⟩
      · refine ⟨g :: done, f, rest, rfl, ?_, ?_, ?_⟩
        · intro q hq
          rcases List.mem_cons.1 hq with rfl | hq
          · exact ⟨bad1, by rw [hg1]; exact (inPlaceOne_ends a script q hd w w1 bad1 h1).1⟩
          · rw [← hkeep (ends_sees h1) q (List.mem_append.2 (.inl hq))]; exact hdone q hq
        · rw [← hkeep (ends_sees h1) f (by simp)]; exact hf
        · intro q hq; rw [hr q hq, hkeep (ends_sees h1) q (by simp [hq])]

/-- C62, at every moment of every run, whatever fails and wherever it crashes: either no file is changed, or the files of the command line are
those that are finished (each edited, left alone, or a failed write), then one that may be half written, then those that are as they were. -/
theorem C62_every_moment (a : EditArgs) (hi : a.inPlace = true) (hnd : a.files.Nodup)
    (hcol : a.backupSuffix ≠ [] → ∀ f ∈ a.files, ∀ g ∈ a.files, f ++ a.backupSuffix ≠ g) (w w' : World) (h : Sees (runEdit a) w w') :
    w'.files = w.files ∨ ∃ script, ScriptOf a w script ∧ ∃ done f rest, a.files = done ++ f :: rest ∧
      (∀ g ∈ done, ∃ bad, InPlace (fun c => executeScriptWithFormat c script a.format) (w.files g) bad (w'.files g)) ∧
      InTransit (fun c => executeScriptWithFormat c script a.format) (w.files f) (w'.files f) ∧ ∀ g ∈ rest, w'.files g = w.files g := by
  by_cases hd : a.dryRun = true
  · exact .inl (C32_dry_run_writes_nothing a hd w w' h)
  rcases runEdit_sees a w w' hi h with h | ⟨script, hs, h⟩
  · exact .inl h
  · rcases inPlaceLoop_sees a (by simpa using hd) script a.files hnd hcol w w' h with rfl | h
    · exact .inl rfl
    · exact .inr ⟨script, hs, h⟩

/-! ### What happens if nothing fails -/

theorem inPlaceEdit_ok (m : Bytes → Bytes) (a : EditArgs) (script f c t : Bytes) (w : World) (hc : w.files f = some c)
    (hx : executeScriptWithFormat c script a.format = .ok t) :
    ∃ w1, runOk m (inPlaceEdit a script f) w = (some false, w1) ∧ w1.files = (w.put f t).files := by
  rw [inPlaceEdit, runOk, hc]
  simp only [hx]
  rw [runOk]
  simp only
  rw [runOk_say, runOk]
  exact ⟨_, rfl, World.printed_files _ _ _⟩

theorem inPlaceOne_ok (m : Bytes → Bytes) (a : EditArgs) (hd : a.dryRun = false) (script f c t : Bytes) (w : World) (hc : w.files f = some c)
    (hx : executeScriptWithFormat c script a.format = .ok t) : ∃ w1, runOk m (inPlaceOne a script f) w = (some false, w1) := by
  rw [inPlaceOne, runOk_say, if_neg (by rw [hd]; simp)]
  by_cases hs : a.backupSuffix ≠ []
  · have hne : f ≠ f ++ a.backupSuffix := fun hh => append_suffix_ne hs hh.symm
    rw [if_pos hs, runOk_say, runOk]
    rw [World.printed_files, World.printed_files, hc]
    simp only
    rw [runOk]
    simp only
    refine (inPlaceEdit_ok m a script f c t _ ?_ hx).imp fun _ h => h.1
    rw [World.put_other _ _ _ _ hne, World.printed_files, World.printed_files]; exact hc
  · rw [if_neg hs]
    refine (inPlaceEdit_ok m a script f c t _ ?_ hx).imp fun _ h => h.1
    rw [World.printed_files]; exact hc

theorem inPlaceLoop_ok (m : Bytes → Bytes) (a : EditArgs) (hd : a.dryRun = false) (script : Bytes) (fs : List Bytes) (hnd : fs.Nodup)
    (hcol : a.backupSuffix ≠ [] → NoCollision fs a.backupSuffix) (w : World)
    (hx : ∀ f ∈ fs, ∃ c t, w.files f = some c ∧ executeScriptWithFormat c script a.format = .ok t) :
    ∃ w1, runOk m (inPlaceLoop a script fs) w = (some false, w1) := by
  induction fs generalizing w with
  | nil => exact ⟨w, rfl⟩
  | cons g fs ih =>
    obtain ⟨hg, hnd'⟩ := List.nodup_cons.1 hnd
    obtain ⟨c, t, hc, ht⟩ := hx g List.mem_cons_self
    obtain ⟨w1, h1⟩ := inPlaceOne_ok m a hd script g c t w hc ht
    have hs : Sees (inPlaceOne a script g) w w1 := by
      have := (runOk_ends m (inPlaceOne a script g) w).2
      rwa [h1] at this
    have hkeep : ∀ f ∈ fs, w1.files f = w.files f := by
      intro f hf
      refine (writes_inPlaceOne a script g).sees hs f ?_
      rintro ⟨_, rfl | ⟨hs, h⟩⟩
      · exact hg hf
      · exact hcol hs g List.mem_cons_self f (List.mem_cons_of_mem _ hf) h.symm
    obtain ⟨w2, h2⟩ := ih hnd' (fun hs x hx y hy => hcol hs x (List.mem_cons_of_mem _ hx) y (List.mem_cons_of_mem _ hy)) w1 (by
      intro f hf; rw [hkeep f hf]; exact hx f (List.mem_cons_of_mem _ hf))
    refine ⟨w2, ?_⟩
    rw [inPlaceLoop, runOk_bind, h1]
    simp only
    rw [runOk_bind, h2]
    rfl

/-- C62, progress: if every file exists, the script succeeds on every file, and the system does not fail, then the command succeeds and every file
holds the result of the script on its contents. -/
theorem C62_happens (m : Bytes → Bytes) (a : EditArgs) (hi : a.inPlace = true) (he : a.expressions = []) (hd : a.dryRun = false) (hf : a.files ≠ [])
    (hnd : a.files.Nodup) (hcol : a.backupSuffix ≠ [] → ∀ f ∈ a.files, ∀ g ∈ a.files, f ++ a.backupSuffix ≠ g) (hc : ¬ Contradictory a)
    (w : World) (script : Bytes) (hs : ScriptOf a w script)
    (hx : ∀ f ∈ a.files, ∃ c t, w.files f = some c ∧ executeScriptWithFormat c script a.format = .ok t) :
    (runOk m (runEdit a) w).1 = some none ∧
    ∀ f ∈ a.files, ∃ c t, w.files f = some c ∧ executeScriptWithFormat c script a.format = .ok t ∧ (runOk m (runEdit a) w).2.files f = some t := by
  have ho : a.outputFile = [] := Classical.byContradiction fun ho => hc (Or.inr (Or.inr (Or.inr ⟨ho, hi⟩)))
  have happly : ∀ script, applyScript a script = processFilesInPlace a script := by
    intro script
    unfold applyScript
    rw [if_neg (by simpa using hf)]
    unfold processFiles
    split
    · rw [if_neg (fun hh => hh ho), if_pos hi]
    · rw [if_neg (by rw [hi]; simp)]
  have h1 : (runOk m (runEdit a) w).1 = some none := by
    obtain ⟨w1, h1⟩ := inPlaceLoop_ok m a hd script a.files hnd hcol w hx
    rw [runEdit_consistent a hc he]
    have hrun : runOk m (applyScript a script) w = (some none, w1) := by
      rw [happly, processFilesInPlace, runOk_bind, h1]; rfl
    unfold runScript
    unfold ScriptOf at hs
    split at hs
    · rename_i h0
      rw [if_neg (fun hh => hh h0), if_neg (by rw [← hs.1]; exact hs.2), ← hs.1, hrun]
    · rename_i h0
      rw [if_pos h0, runOk, hs]
      simp only
      rw [hrun]
  refine ⟨h1, ?_⟩
  rcases C62_in_place a hi he hd hf hnd hcol hc w _ none ((runOk_ends m _ w).1 none h1) with ⟨_, e, h⟩ | ⟨script', hs', failed, h2, h3⟩
  · cases h
  · have : script' = script := by
      unfold ScriptOf at hs hs'
      split at hs
      · rename_i h0; rw [if_pos h0] at hs'; rw [hs.1, hs'.1]
      · rename_i h0; rw [if_neg h0] at hs'; rw [hs] at hs'; exact (Option.some.inj hs').symm
    subst this
    intro f hf
    obtain ⟨c, t, hc1, ht⟩ := hx f hf
    refine ⟨c, t, hc1, ht, ?_⟩
    have h4 := h3 f hf
    rw [h2.1 rfl f hf, hc1] at h4
    generalize hb : (some c : Option Bytes) = before at h4
    generalize ha : (runOk m (runEdit a) w).2.files f = after at h4
    cases h4 with
    | edited c' t' h5 =>
      have hcc : c = c' := Option.some.inj hb
      subst hcc
      have : executeScriptWithFormat c script' a.format = .ok t' := h5
      rw [ht] at this
      cases this; rfl

/-! ### From the words of the command line -/

theorem consistent_in_place (script : Bytes) (files : List Bytes) : ¬ Contradictory { script := script, files := files, inPlace := true } := by
  rintro (h | h | h | h)
  · exact h (.inl rfl)
  · exact h.1 rfl
  · exact h.1 rfl
  · exact h.1 rfl

section
variable (helps : Bytes → Bytes) (others : Bytes → List Bytes → Proc Nat)

/-- **C79**: `texted edit -i -s SCRIPT -- FILES...`, from the words to the files, whatever fails: no other file is touched; the exit status is 0 or 1;
if it is 0, every file existed, the script succeeds on its contents, and the file holds the result; if it is 1, every file was still treated on its
own. -/
theorem C79_command_line (script : Bytes) (files : List Bytes) (hs : script ≠ []) (hf : files ≠ []) (hnd : files.Nodup) (w w' : World) (s : Nat)
    (h : Ends (textedMain helps others (b! "edit" :: b! "-i" :: b! "-s" :: script :: b! "--" :: files)) w s w') :
    (s = 0 ∨ s = 1) ∧ (∀ q, q ∉ files → w'.files q = w.files q) ∧
    (s = 0 → ∀ f ∈ files, ∃ c t, w.files f = some c ∧ executeScriptWithFormat c script (b! "shell") = .ok t ∧ w'.files f = some t) ∧
    (∀ f ∈ files, ∃ failed, InPlace (fun c => executeScriptWithFormat c script (b! "shell")) (w.files f) failed (w'.files f)) := by
  obtain ⟨r, h1, h2⟩ := ((C76_edit helps others _ w w').1 s).1 h
  rw [(C71_everyday _ script files).2.1] at h1
  have hq : ∀ q, q ∉ files → w'.files q = w.files q := by
    intro q hq
    refine C33_in_place_scope _ rfl w w' (ends_sees h1) q ?_
    rintro g hg
    exact ⟨fun h => hq (h ▸ hg), fun h => absurd rfl h⟩
  have h3 := C62_in_place _ rfl rfl rfl hf hnd (fun h => absurd rfl h) (consistent_in_place script files) w w' r h1
  refine ⟨?_, hq, ?_, ?_⟩
  · rcases h2 with ⟨_, rfl⟩ | ⟨_, rfl⟩
    · exact .inl rfl
    · exact .inr rfl
  · rintro rfl f hf
    have hr : r = none := by
      rcases h2 with ⟨hr, _⟩ | ⟨_, h⟩
      · exact hr
      · cases h
    subst hr
    rcases h3 with ⟨_, e, h⟩ | ⟨script', hs', failed, h4, h5⟩
    · cases h
    · obtain rfl : script' = script := hs'.1
      have h6 := h5 f hf
      rw [h4.1 rfl f hf] at h6
      generalize hb : w.files f = before at h6
      generalize ha : w'.files f = after at h6
      cases h6 with
      | edited c t h7 => exact ⟨c, t, rfl, h7, rfl⟩
  · intro f hf
    rcases h3 with ⟨rfl, _⟩ | ⟨script', hs', failed, h4, h5⟩
    · exact ⟨true, .skipped _⟩
    · obtain rfl : script' = script := hs'.1
      exact ⟨_, h5 f hf⟩

/-- **C79**, at every moment of the command, whatever fails and wherever it crashes: no other file is touched, and every file holds what it held, or
a beginning of the result of the script (or all of it). -/
theorem C79_any_moment (script : Bytes) (files : List Bytes) (hnd : files.Nodup) (w w' : World)
    (h : Sees (textedMain helps others (b! "edit" :: b! "-i" :: b! "-s" :: script :: b! "--" :: files)) w w') :
    (∀ q, q ∉ files → w'.files q = w.files q) ∧
    ∀ f ∈ files, InTransit (fun c => executeScriptWithFormat c script (b! "shell")) (w.files f) (w'.files f) := by
  have h1 := (C76_edit helps others _ w w').2.1 h
  rw [(C71_everyday _ script files).2.1] at h1
  constructor
  · intro q hq
    refine C33_in_place_scope _ rfl w w' h1 q ?_
    rintro g hg
    exact ⟨fun h => hq (h ▸ hg), fun h => absurd rfl h⟩
  · intro f hf
    rcases C62_every_moment _ rfl hnd (fun h => absurd rfl h) w w' h1 with h2 | ⟨script', hs', done, g, rest, e, h3, h4, h5⟩
    · rw [h2]; exact .same _
    · obtain rfl : script' = script := hs'.1
      have e : files = done ++ g :: rest := e
      rw [e] at hf
      rcases List.mem_append.1 hf with hf | hf
      · obtain ⟨bad, h6⟩ := h3 f hf
        generalize hb : w.files f = before at h6
        generalize ha : w'.files f = after at h6
        cases h6 with
        | skipped c => exact .same _
        | failed c m h7 => exact .same _
        | edited c t h7 =>
          have := InTransit.writing (exec := fun c => executeScriptWithFormat c script' (b! "shell")) c t t.length h7 (Nat.le_refl _)
          rwa [List.take_length] at this
        | cut c t n h7 h8 => exact .writing c t n h7 h8
      · rcases List.mem_cons.1 hf with rfl | hf
        · exact h4
        · rw [h5 f hf]; exact .same _

/-- **C79**, progress: if all files exist, the script succeeds on each of them, and the system does not fail, the exit status is 0. -/
theorem C79_happens (m : Bytes → Bytes) (script : Bytes) (files : List Bytes) (hs : script ≠ []) (hf : files ≠ []) (hnd : files.Nodup) (w : World)
    (hx : ∀ f ∈ files, ∃ c t, w.files f = some c ∧ executeScriptWithFormat c script (b! "shell") = .ok t) :
    (runOk m (textedMain helps others (b! "edit" :: b! "-i" :: b! "-s" :: script :: b! "--" :: files)) w).1 = some 0 := by
  have hp : pick (b! "edit" :: b! "-i" :: b! "-s" :: script :: b! "--" :: files) = .sub (b! "edit") (b! "-i" :: b! "-s" :: script :: b! "--" :: files) :=
    (C76_exact _ _ _).2 ⟨by decide, [], _, .nil, rfl, rfl⟩
  have : textedMain helps others (b! "edit" :: b! "-i" :: b! "-s" :: script :: b! "--" :: files) =
      (editMain (helps (b! "edit")) (b! "-i" :: b! "-s" :: script :: b! "--" :: files)).bind fun e => .ret (exitStatus e) := by
    simp only [textedMain, hp, if_true]
  rw [this, (C71_everyday _ script files).2.1, runOk_bind]
  have h1 := (C62_happens m { script := script, files := files, inPlace := true } rfl rfl rfl hf hnd (fun h => absurd rfl h)
    (consistent_in_place script files) w script ⟨rfl, hs⟩ hx).1
  revert h1
  rcases runOk m (runEdit { script := script, files := files, inPlace := true }) w with ⟨r, w1⟩
  rintro rfl
  rfl

/-- **C79**: `texted edit -s SCRIPT -- FILE` prints the result and changes no file. -/
theorem C79_to_stdout (script f : Bytes) (w w' : World) (s : Nat)
    (h : Ends (textedMain helps others [b! "edit", b! "-s", script, b! "--", f]) w s w') :
    w'.files = w.files ∧ (s = 0 → ∃ c t, w.files f = some c ∧ executeScriptWithFormat c script (b! "shell") = .ok t ∧ w'.out = w.out ++ t) := by
  obtain ⟨r, h1, h2⟩ := ((C76_edit helps others _ w w').1 s).1 h
  rw [(C71_everyday _ script [f]).1] at h1
  refine ⟨C33_no_output_no_write _ rfl rfl w w' (ends_sees h1), ?_⟩
  rintro rfl
  rcases h2 with ⟨rfl, _⟩ | ⟨_, h⟩
  · obtain ⟨script', c, t, h3, h4, h5, h6⟩ := C33_result_delivered { script := script, files := [f] } rfl (Nat.le_refl 1) rfl rfl rfl w w' h1
    obtain rfl : script' = script := h3.1
    exact ⟨c, t, h4, h5, h6.1⟩
  · cases h

end

/-! ### Search and replace -/

omit [Ext] in
theorem plain_literal {cs : List Char} (h : ∀ c ∈ cs, PlainChar c) : StringLit ('"' :: (cs ++ ['"'])) (encodeAll cs) := by
  refine ⟨cs, rfl, ?_⟩
  induction cs with
  | nil => exact .nil
  | cons c cs ih =>
    obtain ⟨h1, h2, h3⟩ := h c (by simp)
    exact .char c cs _ h1 h2 h3 (ih fun d hd => h d (by simp [hd]))

omit [Ext] in
theorem encodeAll_nonempty {cs : List Char} (h : cs ≠ []) : encodeAll cs ≠ [] := by
  cases cs with
  | nil => exact absurd rfl h
  | cons c cs =>
    intro h
    have := congrArg List.length h
    rw [encodeAll_cons, List.length_append, List.length_nil] at this
    have := (encodeRune_length c).1
    omega

omit [Ext] in
theorem not_number {t : Bytes} (h : parseFloat t = none) (x : F64) : ¬ NumberText t x := by
  rw [← parseFloat_iff, h]; simp

omit [Ext] in
/-- The script means what it says. -/
theorem replaceScript_written {old new : List Char} (ho : ∀ c ∈ old, PlainChar c) (hn : ∀ c ∈ new, PlainChar c) :
    ScriptWritten (replaceScript old new)
      [.list [.sym (b! "search-forward"), .str (encodeAll old)], .list [.sym (b! "replace-match"), .str (encodeAll new)]] := by
  have h1 := CommandWritten.mk (name := "search-forward".toList) (by decide) (by unfold nameChar; decide) (not_number (by decide))
    (.str (n := 0) (plain_literal ho) .none)
  have h2 := CommandWritten.mk (name := "replace-match".toList) (by decide) (by unfold nameChar; decide) (not_number (by decide))
    (.str (n := 0) (plain_literal hn) .none)
  have h3 := ScriptWritten.next h1 (.inl rfl) (.blank (.last h2))
  have e : replaceScript old new = ("search-forward".toList ++ (List.replicate (0 + 1) ' ' ++ ('"' :: (old ++ ['"']) ++ []))) ++
      ';' :: ' ' :: ("replace-match".toList ++ (List.replicate (0 + 1) ' ' ++ ('"' :: (new ++ ['"']) ++ []))) := by
    have s1 : "search-forward \"".toList = "search-forward".toList ++ [' ', '"'] := by decide
    have s2 : "\"; replace-match \"".toList = '"' :: ';' :: ' ' :: ("replace-match".toList ++ [' ', '"']) := by decide
    have s3 : "\"".toList = ['"'] := by decide
    unfold replaceScript
    generalize "search-forward \"".toList = x1 at s1
    generalize "\"; replace-match \"".toList = x2 at s2
    generalize "\"".toList = x3 at s3
    generalize "search-forward".toList = l1 at s1
    generalize "replace-match".toList = l2 at s2
    subst s1 s2 s3
    simp [List.replicate]
  rw [e]
  exact h3

section
variable (helps : Bytes → Bytes) (others : Bytes → List Bytes → Proc Nat)

/-- **C79**: `texted edit -i -s 'search-forward "OLD"; replace-match "NEW"' -- FILES...`, for all texts OLD and NEW that need no escapes, all files and
whatever fails. Exit status 0: in every file, the first OLD was replaced by NEW and nothing else changed. In any case a file that does not
contain OLD is unchanged, and so is every file that is not named. If every file contains OLD and the system does not fail, the exit status is 0. -/
theorem C79_search_and_replace {old new : List Char} (ho : ∀ c ∈ old, PlainChar c) (hn : ∀ c ∈ new, PlainChar c) (hne : old ≠ [])
    (hlen : (encodeAll (replaceScript old new)).length < 65536) (files : List Bytes) (hf : files ≠ []) (hnd : files.Nodup) (w : World) :
    let command := textedMain helps others (b! "edit" :: b! "-i" :: b! "-s" :: encodeAll (replaceScript old new) :: b! "--" :: files)
    (∀ s w', Ends command w s w' →
      (s = 0 → ∀ f ∈ files, ∃ u v, w.files f = some (u ++ encodeAll old ++ v) ∧ FirstOccurrence (encodeAll old) (u ++ encodeAll old ++ v) u v ∧
        w'.files f = some (u ++ encodeAll new ++ v)) ∧
      (∀ f c, w.files f = some c → (∀ u v, c ≠ u ++ encodeAll old ++ v) → w'.files f = some c) ∧
      ∀ q, q ∉ files → w'.files q = w.files q) ∧
    ((∀ f ∈ files, ∃ u v, w.files f = some (u ++ encodeAll old ++ v)) → ∀ m, (runOk m command w).1 = some 0) := by
  have hbe : encodeAll old ≠ [] := encodeAll_nonempty hne
  have key := fun c => C79_replace c hlen hbe (replaceScript_written ho hn)
  have hs : encodeAll (replaceScript old new) ≠ [] := by
    refine encodeAll_nonempty fun h => ?_
    have h := List.append_eq_nil_iff.1 h
    exact absurd h.2 (by decide)
  have first : ∀ u v, ∃ u' v', u ++ encodeAll old ++ v = u' ++ encodeAll old ++ v' ∧ FirstOccurrence (encodeAll old) (u ++ encodeAll old ++ v) u' v' := by
    intro u v
    generalize hc : u ++ encodeAll old ++ v = c
    induction hu : u.length using Nat.strongRecOn generalizing u v with
    | _ n ih =>
      by_cases h : ∀ u' v', c = u' ++ encodeAll old ++ v' → u.length ≤ u'.length
      · exact ⟨u, v, hc.symm, hc.symm, h⟩
      · simp only [not_forall] at h
        obtain ⟨u', v', h1, h2⟩ := h
        exact ih u'.length (by omega) u' v' h1.symm rfl
  intro command
  refine ⟨fun s w' h => ?_, fun hall m => ?_⟩
  · obtain ⟨h1, h2, h3, h4⟩ := C79_command_line helps others _ files hs hf hnd w w' s h
    refine ⟨?_, ?_, h2⟩
    · intro h0 f hf
      obtain ⟨c, t, hc, hx, ht⟩ := h3 h0 f hf
      by_cases hex : ∃ u v, c = u ++ encodeAll old ++ v
      · obtain ⟨u, v, rfl⟩ := hex
        obtain ⟨u', v', e, hfo⟩ := first u v
        have := (key (u ++ encodeAll old ++ v)).1 u' v' hfo
        rw [hx] at this
        cases this
        exact ⟨u', v', by rw [hc, e], by rw [← e]; exact hfo, ht⟩
      · obtain ⟨m, hm⟩ := (key c).2 fun u v hcv => hex ⟨u, v, hcv⟩
        rw [hx] at hm; cases hm
    · intro f c hc hno
      by_cases hff : f ∈ files
      · obtain ⟨bad, h5⟩ := h4 f hff
        obtain ⟨m, hm⟩ := (key c).2 hno
        rw [hc] at h5
        generalize hb : (some c : Option Bytes) = before at h5
        generalize ha : w'.files f = after at h5
        cases h5 with
        | skipped _ => rfl
        | failed _ _ _ => rfl
        | edited c' t h6 => obtain rfl := Option.some.inj hb; rw [hm] at h6; cases h6
        | cut c' t n h6 _ => obtain rfl := Option.some.inj hb; rw [hm] at h6; cases h6
      · rw [h2 f hff, hc]
  · refine C79_happens helps others m _ files hs hf hnd w fun f hf => ?_
    obtain ⟨u, v, hc⟩ := hall f hf
    obtain ⟨u', v', _, hfo⟩ := first u v
    exact ⟨_, _, hc, (key _).1 u' v' hfo⟩

/-- The script, and the run of the command on two files. -/
example : replaceScript "a;b".toList "x".toList = "search-forward \"a;b\"; replace-match \"x\"".toList := by decide

example : let w : World := ⟨fun q => if q = b! "f" then some (b! "1 a;b 2 a;b") else if q = b! "-g" then some (b! "a;b") else none, [], []⟩
    let r := @runOk _ (fun _ => []) (@textedMain litExt (fun _ => []) (fun _ _ => .panic)
      [b! "edit", b! "-i", b! "-s", encodeAll (replaceScript "a;b".toList "x".toList), b! "--", b! "f", b! "-g"]) w
    r.1 = some 0 ∧ r.2.files (b! "f") = some (b! "1 x 2 a;b") ∧ r.2.files (b! "-g") = some (b! "x") := by
  decide +kernel

end

end Texted
