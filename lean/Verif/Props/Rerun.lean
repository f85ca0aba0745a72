import Verif.Spec.Rerun
import Verif.Props.Everyday
/- C92: what interrupted runs leave, and what running the command again makes of it. -/
namespace Texted
open Spec
variable [Ext]

theorem inPlaceOne_left (a : EditArgs) (script f c : Bytes) (hs : a.backupSuffix ≠ []) (w w' : World) (hc : w.files f = some c)
    (h : Sees (inPlaceOne a script f) w w') :
    Left (fun c => executeScriptWithFormat c script a.format) c (w.files (f ++ a.backupSuffix)) (w'.files f) (w'.files (f ++ a.backupSuffix)) := by
  unfold inPlaceOne at h
  obtain ⟨w1, hw1, h⟩ := sees_say h
  rw [← hw1] at hc ⊢
  have hne : f ≠ f ++ a.backupSuffix := fun hh => append_suffix_ne hs hh.symm
  split at h
  · obtain ⟨w2, hw2, h⟩ := sees_say h
    obtain ⟨w3, hw3, h⟩ := sees_say h
    obtain ⟨w4, hw4, h⟩ := sees_say h
    rw [sees_ret.1 h, hw4, hw3, hw2, hc]; exact .untouched
  obtain ⟨w2, hw2, h⟩ := sees_say h
  rw [← hw2] at hc ⊢
  rcases sees_act.1 h with (rfl | h) | ⟨r, w3, ⟨rfl, ⟨d, hd, rfl⟩ | ⟨e, rfl⟩⟩, h⟩
  · rw [hc]; exact .untouched
  · exact h.elim
  · rw [hc] at hd; cases hd
    rcases sees_act.1 h with (rfl | ⟨n, hn, rfl⟩) | ⟨r, w4, h4, h⟩
    · rw [hc]; exact .untouched
    · rw [World.put_other _ _ _ _ hne, World.put_same, hc]; exact .copying n hn
    · have hf4 : w4.files f = some c := by
        rw [h4.files f]; exact hc
        rintro p d hpd; cases hpd; exact hne
      cases r with
      | error e =>
        obtain ⟨w5, hw5, h⟩ := sees_say h
        rw [sees_ret.1 h, hw5, hf4]
        rcases h4 with ⟨h4, _⟩ | ⟨_, _, rfl | ⟨n, hn, rfl⟩⟩
        · cases h4
        · exact .untouched
        · rw [World.put_same]; exact .copying n hn
      | ok x =>
        have hb : w4.files (f ++ a.backupSuffix) = some c := by
          rcases h4 with ⟨_, rfl⟩ | ⟨e, h4, _⟩
          · exact World.put_same _ _ _
          · cases h4
        have ht := inPlaceEdit_sees a script f w4 w' h
        rw [(writes_inPlaceEdit a script f).sees h _ hne.symm, hb]
        rw [hf4] at ht
        generalize w'.files f = after at ht ⊢
        cases ht with
        | same =>
          have := Left.copying (exec := fun c => executeScriptWithFormat c script a.format) (old := w3.files (f ++ a.backupSuffix)) c.length (Nat.le_refl c.length)
          rwa [List.take_length] at this
        | writing _ t n ht hn => exact .writing t n ht hn
  · obtain ⟨w5, hw5, h⟩ := sees_say h
    rw [sees_ret.1 h, hw5, hc]; exact .untouched

theorem inPlaceLoop_left (a : EditArgs) (script : Bytes) (hs : a.backupSuffix ≠ []) (fs : List Bytes) (hnd : fs.Nodup)
    (hcol : NoCollision fs a.backupSuffix) (w w' : World) (h : Sees (inPlaceLoop a script fs) w w') (f c : Bytes) (hf : f ∈ fs)
    (hc : w.files f = some c) :
    Left (fun c => executeScriptWithFormat c script a.format) c (w.files (f ++ a.backupSuffix)) (w'.files f) (w'.files (f ++ a.backupSuffix)) := by
  induction fs generalizing w with
  | nil => cases hf
  | cons g fs ih =>
    obtain ⟨hg, hnd'⟩ := List.nodup_cons.1 hnd
    have hcol' : NoCollision fs a.backupSuffix := fun x hx y hy => hcol x (List.mem_cons_of_mem _ hx) y (List.mem_cons_of_mem _ hy)
    have other : f ∈ fs → ∀ {w w'}, Sees (inPlaceOne a script g) w w' → w'.files f = w.files f ∧
        w'.files (f ++ a.backupSuffix) = w.files (f ++ a.backupSuffix) := by
      intro hfm w w' h
      constructor
      · refine (writes_inPlaceOne a script g).sees h f ?_
        rintro ⟨_, rfl | ⟨_, h⟩⟩
        · exact hg hfm
        · exact hcol g List.mem_cons_self f (List.mem_cons_of_mem _ hfm) h.symm
      · refine (writes_inPlaceOne a script g).sees h _ ?_
        rintro ⟨_, h | ⟨_, h⟩⟩
        · exact hcol f (List.mem_cons_of_mem _ hfm) g List.mem_cons_self h
        · exact hg (List.append_cancel_right h ▸ hfm)
    have step : ∀ {w1 bad}, Ends (inPlaceOne a script g) w bad w1 →
        Sees (((inPlaceLoop a script fs).bind fun bad' => .ret (bad || bad'))) w1 w' → Sees (inPlaceLoop a script fs) w1 w' := by
      intro w1 bad _ h2
      rcases sees_bind.1 h2 with h | ⟨b, w2, h3, h4⟩
      · exact h
      · rw [sees_ret.1 h4]; exact ends_sees h3
    rcases List.mem_cons.1 hf with rfl | hf'
    · rcases sees_bind.1 h with h | ⟨bad, w1, h1, h2⟩
      · exact inPlaceOne_left a script f c hs w w' hc h
      · have hrest := step h1 h2
        have h1' : w'.files f = w1.files f := by
          refine (writes_inPlaceLoop a script fs).sees hrest f ?_
          rintro ⟨_, g, hgm, rfl | ⟨_, h⟩⟩
          · exact hg hgm
          · exact hcol g (List.mem_cons_of_mem _ hgm) f List.mem_cons_self h.symm
        have h2' : w'.files (f ++ a.backupSuffix) = w1.files (f ++ a.backupSuffix) := by
          refine (writes_inPlaceLoop a script fs).sees hrest _ ?_
          rintro ⟨_, g, hgm, h | ⟨_, h⟩⟩
          · exact hcol f List.mem_cons_self g (List.mem_cons_of_mem _ hgm) h
          · exact hg (List.append_cancel_right h ▸ hgm)
        rw [h1', h2']; exact inPlaceOne_left a script f c hs w w1 hc (ends_sees h1)
    · rcases sees_bind.1 h with h | ⟨bad, w1, h1, h2⟩
      · rw [(other hf' h).1, (other hf' h).2, hc]; exact .untouched
      · have := ih hnd' hcol' w1 (step h1 h2) hf' (by rw [(other hf' (ends_sees h1)).1]; exact hc)
        rwa [(other hf' (ends_sees h1)).2] at this

omit [Ext] in
theorem scriptOf_unique {a : EditArgs} {w : World} {s s' : Bytes} (h : ScriptOf a w s) (h' : ScriptOf a w s') : s = s' := by
  unfold ScriptOf at h h'
  split at h
  · rename_i hs; rw [if_pos hs] at h'; rw [h.1, h'.1]
  · rename_i hs; rw [if_neg hs, h] at h'; exact Option.some.inj h'

omit [Ext] in
theorem scriptOf_of_files {a : EditArgs} {w w' : World} {s : Bytes} (h : ScriptOf a w s) (hw : a.scriptFile ≠ [] → w'.files a.scriptFile = w.files a.scriptFile) :
    ScriptOf a w' s := by
  unfold ScriptOf at h ⊢
  split
  · rename_i hs; rwa [if_pos hs] at h
  · rename_i hs; rw [if_neg hs] at h; rw [hw hs]; exact h

/-- C92. Whatever fails and wherever a run of `--in-place --backup` is interrupted: a file and its backup are both as they were; or the backup is a
beginning of the file, which is as it was; or the file is a beginning of the result and the backup holds all of the original. -/
theorem C92_left (a : EditArgs) (hi : a.inPlace = true) (hs : a.backupSuffix ≠ []) (hnd : a.files.Nodup)
    (hcol : ∀ f ∈ a.files, ∀ g ∈ a.files, f ++ a.backupSuffix ≠ g) (w w' : World) (script : Bytes) (hscript : ScriptOf a w script)
    (h : Sees (runEdit a) w w') (f c : Bytes) (hf : f ∈ a.files) (hc : w.files f = some c) :
    Left (fun c => executeScriptWithFormat c script a.format) c (w.files (f ++ a.backupSuffix)) (w'.files f) (w'.files (f ++ a.backupSuffix)) := by
  rcases runEdit_sees a w w' hi h with h | ⟨script', hs', h⟩
  · rw [h, hc]; exact .untouched
  · rw [scriptOf_unique hscript hs']; exact inPlaceLoop_left a script' hs a.files hnd hcol w w' h f c hf hc

/-- C92. All of these do happen: for the first file of the command, every case of `Left` is what some moment of some run leaves (and no other file is touched). -/
theorem C92_left_happens (a : EditArgs) (hi : a.inPlace = true) (he : a.expressions = []) (hd : a.dryRun = false) (hs : a.backupSuffix ≠ [])
    (hc : ¬ Contradictory a) (w : World) (script : Bytes) (hscript : ScriptOf a w script) (f : Bytes) (rest : List Bytes) (hf : a.files = f :: rest)
    (c : Bytes) (hfc : w.files f = some c) (x y : Option Bytes)
    (hl : Left (fun c => executeScriptWithFormat c script a.format) c (w.files (f ++ a.backupSuffix)) x y) :
    ∃ w', Sees (runEdit a) w w' ∧ w'.files f = x ∧ w'.files (f ++ a.backupSuffix) = y ∧
      ∀ q, q ≠ f → q ≠ f ++ a.backupSuffix → w'.files q = w.files q := by
  have ho : a.outputFile = [] := Classical.byContradiction fun ho => hc (Or.inr (Or.inr (Or.inr ⟨ho, hi⟩)))
  have hne : f ≠ f ++ a.backupSuffix := fun hh => append_suffix_ne hs hh.symm
  have hone : ∃ w', Sees (inPlaceOne a script f) w w' ∧ w'.files f = x ∧ w'.files (f ++ a.backupSuffix) = y ∧
      ∀ q, q ≠ f → q ≠ f ++ a.backupSuffix → w'.files q = w.files q := by
    let w1 := (w.printed a.loud (b! "Processing " ++ f ++ b! " in place\n")).printed a.loud (b! "Creating backup " ++ (f ++ a.backupSuffix) ++ [nl])
    have hw1 : w1.files = w.files := by rw [World.printed_files, World.printed_files]
    have lift : ∀ w', (Sees (.act (.read f) fun r =>
        match r with
        | .error e => complain a (b! "✗ Failed to read " ++ f ++ b! " for backup: " ++ e ++ [nl])
        | .ok content =>
          .act (.write (f ++ a.backupSuffix) content) fun r =>
            match r with
            | .error e => complain a (b! "✗ Failed to create backup " ++ (f ++ a.backupSuffix) ++ b! ": " ++ e ++ [nl])
            | .ok _ => inPlaceEdit a script f) w1 w') → Sees (inPlaceOne a script f) w w' := by
      intro w' h
      unfold inPlaceOne
      apply sees_say_of
      rw [if_neg (by rw [hd]; simp), if_pos hs]
      exact sees_say_of h
    cases hl with
    | untouched =>
      refine ⟨w1, lift _ (sees_act.2 (Or.inl (Or.inl rfl))), by rw [hw1]; exact hfc, by rw [hw1], fun q _ _ => by rw [hw1]⟩
    | copying n hn =>
      refine ⟨w1.put (f ++ a.backupSuffix) (c.take n), lift _ (sees_act.2 (Or.inr ⟨.ok c, w1, ⟨rfl, Or.inl ⟨c, by rw [hw1]; exact hfc, rfl⟩⟩, ?_⟩)),
        by rw [World.put_other _ _ _ _ hne, hw1]; exact hfc, World.put_same _ _ _, fun q _ hq => by rw [World.put_other _ _ _ _ hq, hw1]⟩
      exact sees_act.2 (Or.inl (Or.inr ⟨n, hn, rfl⟩))
    | writing t n ht hn =>
      refine ⟨(w1.put (f ++ a.backupSuffix) c).put f (t.take n), lift _ (sees_act.2 (Or.inr ⟨.ok c, w1, ⟨rfl, Or.inl ⟨c, by rw [hw1]; exact hfc, rfl⟩⟩, ?_⟩)),
        World.put_same _ _ _, by rw [World.put_other _ _ _ _ hne.symm, World.put_same],
        fun q hq hq' => by rw [World.put_other _ _ _ _ hq, World.put_other _ _ _ _ hq', hw1]⟩
      refine sees_act.2 (Or.inr ⟨.ok [], w1.put (f ++ a.backupSuffix) c, Or.inl ⟨rfl, rfl⟩, ?_⟩)
      refine sees_act.2 (Or.inr ⟨.ok c, w1.put (f ++ a.backupSuffix) c, ⟨rfl, Or.inl ⟨c, by rw [World.put_other _ _ _ _ hne, hw1]; exact hfc, rfl⟩⟩, ?_⟩)
      simp only [ht]
      exact sees_act.2 (Or.inl (Or.inr ⟨n, hn, rfl⟩))
  obtain ⟨w', h1, h2⟩ := hone
  refine ⟨w', ?_, h2⟩
  have happly : Sees (applyScript a script) w w' := by
    have h3 : Sees (processFilesInPlace a script) w w' := by
      unfold processFilesInPlace
      rw [hf]
      exact sees_bind.2 (Or.inl (sees_bind.2 (Or.inl h1)))
    unfold applyScript
    rw [if_neg (by rw [hf]; simp)]
    unfold processFiles
    split
    · rw [if_neg (fun hh => hh ho), if_pos hi]; exact h3
    · rw [if_neg (by rw [hi]; simp)]; exact h3
  rw [runEdit_consistent a hc he]
  unfold runScript
  unfold ScriptOf at hscript
  split
  · rename_i hsf
    rw [if_neg hsf] at hscript
    exact sees_act.2 (Or.inr ⟨.ok script, w, ⟨rfl, Or.inl ⟨script, hscript, rfl⟩⟩, happly⟩)
  · rename_i hsf
    rw [if_pos (Classical.byContradiction hsf)] at hscript
    obtain ⟨rfl, h0⟩ := hscript
    rw [if_neg h0]; exact happly

omit [Ext] in
/-- What is recovered is the original: if there was no backup before (or a beginning of the original, as an earlier interrupted run leaves it). -/
theorem recovered_original {exec : Bytes → Res Bytes Bytes} {c : Bytes} {old : Option Bytes} (hold : ∀ b, old = some b → b <+: c)
    {x y : Option Bytes} (hl : Left exec c old x y) {x' o : Bytes} (hx : x = some x') (hr : Recovered exec x' y o) : o = c := by
  cases hl with
  | untouched =>
    cases hx
    cases hr with
    | noBackup => rfl
    | cutShort y h1 h2 => rfl
    | backup _ h =>
      have := hold o rfl
      exact Classical.byContradiction fun hne => h ⟨this, hne⟩
  | copying n hn =>
    cases hx
    cases hr with
    | cutShort _ h1 h2 => rfl
    | backup _ h => exact Classical.byContradiction fun hne => h ⟨List.take_prefix _ _, hne⟩
  | writing t n ht hn =>
    cases hx
    cases hr with
    | cutShort _ h1 h2 => exact absurd (List.take_prefix _ _) (h2 t ht)
    | backup _ h => rfl

/-- C92. How to tell the original after an interrupted run, if there was no backup before: by `Recovered`. -/
theorem C92_recover (a : EditArgs) (hi : a.inPlace = true) (hs : a.backupSuffix ≠ []) (hnd : a.files.Nodup)
    (hcol : ∀ f ∈ a.files, ∀ g ∈ a.files, f ++ a.backupSuffix ≠ g) (w w' : World) (script : Bytes) (hscript : ScriptOf a w script)
    (h : Sees (runEdit a) w w') (f c : Bytes) (hf : f ∈ a.files) (hc : w.files f = some c) (hb : w.files (f ++ a.backupSuffix) = none)
    (x o : Bytes) (hx : w'.files f = some x)
    (ho : Recovered (fun c => executeScriptWithFormat c script a.format) x (w'.files (f ++ a.backupSuffix)) o) : o = c :=
  recovered_original (fun b hb' => by rw [hb] at hb'; cases hb') (C92_left a hi hs hnd hcol w w' script hscript h f c hf hc) hx ho

omit [Ext] in
/-- There is something to recover unless the script appends to its text. -/
theorem recovered_exists {exec : Bytes → Res Bytes Bytes} (hex : ∀ y t, exec y = .ok t → ¬ ProperPrefix y t) (x : Bytes) (b : Option Bytes) :
    ∃ o, Recovered exec x b o := by
  cases b with
  | none => exact ⟨x, .noBackup⟩
  | some y =>
    by_cases hp : ProperPrefix y x
    · refine ⟨x, .cutShort y hp fun t ht hxt => hex y t ht ⟨hp.1.trans hxt, ?_⟩⟩
      rintro rfl
      exact hp.2 (hp.1.eq_of_length_le hxt.length_le)
    · exact ⟨y, .backup y hp⟩

/-- C92. For a script that never only adds something at the end of a text, the original can always be told: exactly one text is `Recovered`, and it is the original. -/
theorem C92_recoverable (a : EditArgs) (hi : a.inPlace = true) (hs : a.backupSuffix ≠ []) (hnd : a.files.Nodup)
    (hcol : ∀ f ∈ a.files, ∀ g ∈ a.files, f ++ a.backupSuffix ≠ g) (w w' : World) (script : Bytes) (hscript : ScriptOf a w script)
    (hex : ∀ y t, executeScriptWithFormat y script a.format = .ok t → ¬ ProperPrefix y t)
    (h : Sees (runEdit a) w w') (f c : Bytes) (hf : f ∈ a.files) (hc : w.files f = some c) (hb : w.files (f ++ a.backupSuffix) = none) :
    ∃ x, w'.files f = some x ∧ ∀ o, Recovered (fun c => executeScriptWithFormat c script a.format) x (w'.files (f ++ a.backupSuffix)) o ↔ o = c := by
  have hl := C92_left a hi hs hnd hcol w w' script hscript h f c hf hc
  have hx : ∃ x, w'.files f = some x := by
    generalize w'.files f = after at hl ⊢
    generalize w'.files (f ++ a.backupSuffix) = copy at hl
    cases hl with
    | untouched => exact ⟨_, rfl⟩
    | copying => exact ⟨_, rfl⟩
    | writing t n => exact ⟨_, rfl⟩
  obtain ⟨x, hx⟩ := hx
  have one := C92_recover a hi hs hnd hcol w w' script hscript h f c hf hc hb x
  refine ⟨x, hx, fun o => ⟨one o hx, ?_⟩⟩
  rintro rfl
  obtain ⟨o', ho'⟩ := recovered_exists hex x (w'.files (f ++ a.backupSuffix))
  rw [← one o' hx ho']; exact ho'

/-- C92, negative result: for a script that appends, the original cannot be told. Two different texts in the file, and there are interrupted runs that leave the
same files. -/
theorem C92_false_recovery (a : EditArgs) (hi : a.inPlace = true) (he : a.expressions = []) (hd : a.dryRun = false) (hs : a.backupSuffix ≠ [])
    (hc : ¬ Contradictory a) (script f : Bytes) (rest : List Bytes) (hf : a.files = f :: rest) (c t : Bytes)
    (hx : executeScriptWithFormat c script a.format = .ok t) (hp : ProperPrefix c t) (w : World)
    (hsc : ScriptOf a (w.put f c) script) (hst : ScriptOf a (w.put f t) script) :
    c ≠ t ∧ ∃ w1 w2, Sees (runEdit a) (w.put f c) w1 ∧ Sees (runEdit a) (w.put f t) w2 ∧ w1.files = w2.files := by
  refine ⟨hp.2, ?_⟩
  have hne : f ++ a.backupSuffix ≠ f := append_suffix_ne hs
  have l1 := Left.writing (exec := fun c => executeScriptWithFormat c script a.format) (old := (w.put f c).files (f ++ a.backupSuffix)) t t.length hx (Nat.le_refl _)
  have l2 := Left.copying (exec := fun c => executeScriptWithFormat c script a.format) (c := t) (old := (w.put f t).files (f ++ a.backupSuffix)) c.length hp.1.length_le
  rw [← List.prefix_iff_eq_take.1 hp.1] at l2
  rw [List.take_length] at l1
  obtain ⟨w1, h1, h2, h3, h4⟩ := C92_left_happens a hi he hd hs hc (w.put f c) script hsc f rest hf c (World.put_same _ _ _) _ _ l1
  obtain ⟨w2, g1, g2, g3, g4⟩ := C92_left_happens a hi he hd hs hc (w.put f t) script hst f rest hf t (World.put_same _ _ _) _ _ l2
  refine ⟨w1, w2, h1, g1, funext fun q => ?_⟩
  by_cases hq : q = f
  · rw [hq, h2, g2]
  · by_cases hq' : q = f ++ a.backupSuffix
    · rw [hq', h3, g3]
    · rw [h4 q hq hq', g4 q hq hq', World.put_other _ _ _ _ hq, World.put_other _ _ _ _ hq]

/-- C92, negative result: so no procedure whatsoever recovers originals from what interrupted runs leave. -/
theorem C92_false_procedure (a : EditArgs) (hi : a.inPlace = true) (he : a.expressions = []) (hd : a.dryRun = false) (hs : a.backupSuffix ≠ [])
    (hc : ¬ Contradictory a) (script f : Bytes) (rest : List Bytes) (hf : a.files = f :: rest) (c t : Bytes)
    (hx : executeScriptWithFormat c script a.format = .ok t) (hp : ProperPrefix c t) (w : World)
    (hsc : ScriptOf a (w.put f c) script) (hst : ScriptOf a (w.put f t) script) :
    ¬ ∃ recover : (Bytes → Option Bytes) → Bytes, ∀ d w', (d = c ∨ d = t) → Sees (runEdit a) (w.put f d) w' → recover w'.files = d := by
  rintro ⟨recover, h⟩
  obtain ⟨hne, w1, w2, h1, h2, h3⟩ := C92_false_recovery a hi he hd hs hc script f rest hf c t hx hp w hsc hst
  exact hne (by rw [← h c w1 (.inl rfl) h1, ← h t w2 (.inr rfl) h2, h3])

/-! ### Runs without failures of the system -/

theorem inPlaceEdit_runs (m : Bytes → Bytes) (a : EditArgs) (script f : Bytes) (w : World)
    (hp : ∀ c, w.files f = some c → executeScriptWithFormat c script a.format ≠ .panic) :
    ∃ bad w1, runOk m (inPlaceEdit a script f) w = (some bad, w1) ∧ w1.files f = edited (fun c => executeScriptWithFormat c script a.format) (w.files f) ∧
      (bad = false ↔ ∃ c t, w.files f = some c ∧ executeScriptWithFormat c script a.format = .ok t) := by
  rw [inPlaceEdit, runOk]
  cases hf : w.files f with
  | none =>
    simp only [complain]
    rw [runOk_say, runOk]
    exact ⟨true, _, rfl, (by rw [World.printed_files, hf]; rfl), (by simp)⟩
  | some c =>
    simp only
    cases hx : executeScriptWithFormat c script a.format with
    | panic => exact absurd hx (hp c hf)
    | err e =>
      simp only [complain]
      rw [runOk_say, runOk]
      refine ⟨true, _, rfl, (by rw [World.printed_files, hf]; simp only [edited, hx]), (by simp [hx])⟩
    | ok t =>
      simp only
      rw [runOk]
      simp only
      rw [runOk_say, runOk]
      refine ⟨false, _, rfl, (by rw [World.printed_files, World.put_same]; simp only [edited, hx]), (by simp [hx])⟩

theorem inPlaceOne_runs (m : Bytes → Bytes) (a : EditArgs) (hd : a.dryRun = false) (script f : Bytes) (w : World)
    (hp : ∀ c, w.files f = some c → executeScriptWithFormat c script a.format ≠ .panic) :
    ∃ bad w1, runOk m (inPlaceOne a script f) w = (some bad, w1) ∧ w1.files f = edited (fun c => executeScriptWithFormat c script a.format) (w.files f) ∧
      (bad = false ↔ ∃ c t, w.files f = some c ∧ executeScriptWithFormat c script a.format = .ok t) := by
  rw [inPlaceOne, runOk_say, if_neg (by rw [hd]; simp)]
  by_cases hs : a.backupSuffix ≠ []
  · have hne : f ≠ f ++ a.backupSuffix := fun hh => append_suffix_ne hs hh.symm
    rw [if_pos hs, runOk_say, runOk]
    rw [World.printed_files, World.printed_files]
    cases hf : w.files f with
    | none =>
      simp only [complain]
      rw [runOk_say, runOk]
      exact ⟨true, _, rfl, (by rw [World.printed_files, World.printed_files, World.printed_files, hf]; rfl), (by simp)⟩
    | some c =>
      simp only
      rw [runOk]
      simp only
      have hw : (((w.printed a.loud (b! "Processing " ++ f ++ b! " in place\n")).printed a.loud (b! "Creating backup " ++ (f ++ a.backupSuffix) ++ [nl])).put (f ++ a.backupSuffix) c).files f = some c := by
        rw [World.put_other _ _ _ _ hne, World.printed_files, World.printed_files]; exact hf
      have := inPlaceEdit_runs m a script f _ (by rw [hw]; intro d hd; cases hd; exact hp c hf)
      rwa [hw] at this
  · rw [if_neg hs]
    have := inPlaceEdit_runs m a script f (w.printed a.loud (b! "Processing " ++ f ++ b! " in place\n")) (by rw [World.printed_files]; exact hp)
    rwa [World.printed_files] at this

theorem inPlaceLoop_runs (m : Bytes → Bytes) (a : EditArgs) (hd : a.dryRun = false) (script : Bytes) (fs : List Bytes) (hnd : fs.Nodup)
    (hcol : a.backupSuffix ≠ [] → NoCollision fs a.backupSuffix) (w : World)
    (hp : ∀ f ∈ fs, ∀ c, w.files f = some c → executeScriptWithFormat c script a.format ≠ .panic) :
    ∃ bad w1, runOk m (inPlaceLoop a script fs) w = (some bad, w1) ∧
      (∀ f ∈ fs, w1.files f = edited (fun c => executeScriptWithFormat c script a.format) (w.files f)) ∧
      (bad = false ↔ ∀ f ∈ fs, ∃ c t, w.files f = some c ∧ executeScriptWithFormat c script a.format = .ok t) := by
  induction fs generalizing w with
  | nil => exact ⟨false, w, rfl, (by simp), (by simp)⟩
  | cons g fs ih =>
    obtain ⟨hg, hnd'⟩ := List.nodup_cons.1 hnd
    obtain ⟨bad, w1, h1, h2, h3⟩ := inPlaceOne_runs m a hd script g w (hp g List.mem_cons_self)
    have hs : Sees (inPlaceOne a script g) w w1 := by
      have := (runOk_ends m (inPlaceOne a script g) w).2
      rwa [h1] at this
    have hkeep : ∀ f ∈ fs, w1.files f = w.files f := by
      intro f hf
      refine (writes_inPlaceOne a script g).sees hs f ?_
      rintro ⟨_, rfl | ⟨hs, h⟩⟩
      · exact hg hf
      · exact hcol hs g List.mem_cons_self f (List.mem_cons_of_mem _ hf) h.symm
    obtain ⟨bad', w2, g1, g2, g3⟩ := ih hnd' (fun hs x hx y hy => hcol hs x (List.mem_cons_of_mem _ hx) y (List.mem_cons_of_mem _ hy)) w1 (by
      intro f hf; rw [hkeep f hf]; exact hp f (List.mem_cons_of_mem _ hf))
    have hs' : Sees (inPlaceLoop a script fs) w1 w2 := by
      have := (runOk_ends m (inPlaceLoop a script fs) w1).2
      rwa [g1] at this
    refine ⟨bad || bad', w2, ?_, ?_, ?_⟩
    · rw [inPlaceLoop, runOk_bind, h1]
      simp only
      rw [runOk_bind, g1]
      rfl
    · intro f hf
      rcases List.mem_cons.1 hf with rfl | hf
      · rw [← h2]
        refine (writes_inPlaceLoop a script fs).sees hs' f ?_
        rintro ⟨_, g, hgm, rfl | ⟨hs, h⟩⟩
        · exact hg hgm
        · exact hcol hs g (List.mem_cons_of_mem _ hgm) f List.mem_cons_self h.symm
      · rw [g2 f hf, hkeep f hf]
    · rw [Bool.or_eq_false_iff, h3, g3]
      constructor
      · rintro ⟨i1, i2⟩ f hf
        rcases List.mem_cons.1 hf with rfl | hf
        · exact i1
        · rw [← hkeep f hf]; exact i2 f hf
      · intro i
        exact ⟨i g List.mem_cons_self, fun f hf => by rw [hkeep f hf]; exact i f (List.mem_cons_of_mem _ hf)⟩

/-- C62, progress: if the system does not fail (and the script does not panic), the command runs through whatever the script does to the single files: every file on which it succeeds holds
the result, every other is as it was, a missing one is still missing, and the command succeeds exactly if it succeeded on all. -/
theorem C62_runs_through (m : Bytes → Bytes) (a : EditArgs) (hi : a.inPlace = true) (he : a.expressions = []) (hd : a.dryRun = false) (hf : a.files ≠ [])
    (hnd : a.files.Nodup) (hcol : a.backupSuffix ≠ [] → ∀ f ∈ a.files, ∀ g ∈ a.files, f ++ a.backupSuffix ≠ g) (hc : ¬ Contradictory a)
    (w : World) (script : Bytes) (hs : ScriptOf a w script)
    (hp : ∀ f ∈ a.files, ∀ c, w.files f = some c → executeScriptWithFormat c script a.format ≠ .panic) :
    (∀ f ∈ a.files, (runOk m (runEdit a) w).2.files f = edited (fun c => executeScriptWithFormat c script a.format) (w.files f)) ∧
    ∃ r, (runOk m (runEdit a) w).1 = some r ∧ (r = none ↔ ∀ f ∈ a.files, ∃ c t, w.files f = some c ∧ executeScriptWithFormat c script a.format = .ok t) := by
  have ho : a.outputFile = [] := Classical.byContradiction fun ho => hc (Or.inr (Or.inr (Or.inr ⟨ho, hi⟩)))
  have happly : ∀ script, applyScript a script = processFilesInPlace a script := by
    intro script
    unfold applyScript
    rw [if_neg (by simpa using hf)]
    unfold processFiles
    split
    · rw [if_neg (fun hh => hh ho), if_pos hi]
    · rw [if_neg (by rw [hi]; simp)]
  obtain ⟨bad, w1, h1, h2, h3⟩ := inPlaceLoop_runs m a hd script a.files hnd hcol w hp
  have hrun : runOk m (runEdit a) w = (some (if bad then some (b! "some files could not be edited") else none), w1) := by
    rw [runEdit_consistent a hc he]
    have hrun : runOk m (applyScript a script) w = (some (if bad then some (b! "some files could not be edited") else none), w1) := by
      rw [happly, processFilesInPlace, runOk_bind, h1]; rfl
    unfold runScript
    unfold ScriptOf at hs
    split at hs
    · rename_i h0
      rw [if_neg (fun hh => hh h0), if_neg (by rw [← hs.1]; exact hs.2), ← hs.1, hrun]
    · rename_i h0
      rw [if_pos h0, runOk, hs]
      simp only
      rw [hrun]
  rw [hrun]
  refine ⟨h2, _, rfl, ?_⟩
  rw [← h3]
  cases bad <;> simp

/-! ### Histories -/

/-- C92. Any number of interrupted runs touch no file but those named and their backups. -/
theorem C92_scope (a : EditArgs) (hi : a.inPlace = true) (w w' : World) (h : Runs (runEdit a) w w') (q : Bytes)
    (hq : ∀ f ∈ a.files, q ≠ f ∧ (a.backupSuffix ≠ [] → q ≠ f ++ a.backupSuffix)) : w'.files q = w.files q := by
  induction h with
  | none => rfl
  | more w1 w2 w3 _ hf hs ih => rw [C33_in_place_scope a hi w2 w3 hs q hq, hf]; exact ih

/-- The script is not itself one of the files that are written. -/
def ScriptApart (a : EditArgs) : Prop :=
  a.scriptFile ≠ [] → ∀ f ∈ a.files, a.scriptFile ≠ f ∧ (a.backupSuffix ≠ [] → a.scriptFile ≠ f ++ a.backupSuffix)

theorem script_stays {a : EditArgs} (hi : a.inPlace = true) (hap : ScriptApart a) {w w' : World} {script : Bytes} (hs : ScriptOf a w script)
    (h : Runs (runEdit a) w w') : ScriptOf a w' script :=
  scriptOf_of_files hs fun h0 => C92_scope a hi w w' h a.scriptFile (hap h0)

/-- C92. After any number of interrupted runs, with backups or without, every file holds its old contents or a beginning of what the script makes of what it held before, and so on back to
the old contents: nothing else ever gets into it. -/
theorem C92_trail (a : EditArgs) (hi : a.inPlace = true) (hnd : a.files.Nodup)
    (hcol : a.backupSuffix ≠ [] → ∀ f ∈ a.files, ∀ g ∈ a.files, f ++ a.backupSuffix ≠ g) (hap : ScriptApart a) (w w' : World) (script : Bytes)
    (hscript : ScriptOf a w script) (h : Runs (runEdit a) w w') (f : Bytes) (hf : f ∈ a.files) :
    Trail (fun c => executeScriptWithFormat c script a.format) (w.files f) (w'.files f) := by
  induction h with
  | none => exact .start
  | more w1 w2 w3 h hfiles hs ih =>
    rw [← hfiles] at ih
    have hsc : ScriptOf a w2 script := scriptOf_of_files (script_stays hi hap hscript h) fun _ => by rw [hfiles]
    rcases C62_every_moment a hi hnd hcol w2 w3 hs with h | ⟨script', hs', done, g, rest, hall, hdone, hg, hrest⟩
    · rw [h]; exact ih
    · rw [← scriptOf_unique hsc hs'] at hdone hg
      rw [hall] at hf
      rcases List.mem_append.1 hf with hf | hf
      · obtain ⟨bad, hin⟩ := hdone f hf
        generalize w2.files f = x at ih hin
        generalize w3.files f = y at hin ⊢
        cases hin with
        | skipped => exact ih
        | failed => exact ih
        | edited d t hx =>
          have := Trail.step d t t.length ih hx (Nat.le_refl _)
          rwa [List.take_length] at this
        | cut d t n hx hn => exact .step d t n ih hx hn
      · rcases List.mem_cons.1 hf with rfl | hf
        · generalize w2.files f = x at ih hg
          generalize w3.files f = y at hg ⊢
          cases hg with
          | same => exact ih
          | writing d t n hx hn => exact .step d t n ih hx hn
        · rw [hrest f hf]; exact ih

/-- C92. A run without failures after any number of interrupted ones applies the script to what they left. -/
theorem C92_rerun (m : Bytes → Bytes) (a : EditArgs) (hi : a.inPlace = true) (he : a.expressions = []) (hd : a.dryRun = false) (hne : a.files ≠ [])
    (hnd : a.files.Nodup) (hcol : a.backupSuffix ≠ [] → ∀ f ∈ a.files, ∀ g ∈ a.files, f ++ a.backupSuffix ≠ g) (hc : ¬ Contradictory a) (hap : ScriptApart a)
    (w w1 w2 : World) (script : Bytes) (hscript : ScriptOf a w script) (h : Runs (runEdit a) w w1) (hfiles : w2.files = w1.files)
    (hp : ∀ c, executeScriptWithFormat c script a.format ≠ .panic) (f : Bytes) (hf : f ∈ a.files) :
    Trail (fun c => executeScriptWithFormat c script a.format) (w.files f) (w1.files f) ∧
    (runOk m (runEdit a) w2).2.files f = edited (fun c => executeScriptWithFormat c script a.format) (w1.files f) := by
  have hsc : ScriptOf a w2 script := scriptOf_of_files (script_stays hi hap hscript h) fun _ => by rw [hfiles]
  refine ⟨C92_trail a hi hnd hcol hap w w1 script hscript h f hf, ?_⟩
  rw [← hfiles]
  exact (C62_runs_through m a hi he hd hne hnd hcol hc w2 script hsc fun _ _ c _ => hp c).1 f hf

/-- C92. When it is safe to run the command again: if no file was left half written, and the script fails on its own results (as search and replace mostly does) or leaves them as they are, the files
end as if there had been no interruption. -/
theorem C92_again (m : Bytes → Bytes) (a : EditArgs) (hi : a.inPlace = true) (he : a.expressions = []) (hd : a.dryRun = false) (hne : a.files ≠ [])
    (hnd : a.files.Nodup) (hcol : a.backupSuffix ≠ [] → ∀ f ∈ a.files, ∀ g ∈ a.files, f ++ a.backupSuffix ≠ g) (hc : ¬ Contradictory a) (hap : ScriptApart a)
    (w w1 w2 : World) (script : Bytes) (hscript : ScriptOf a w script) (h : Sees (runEdit a) w w1) (hfiles : w2.files = w1.files)
    (hp : ∀ c, executeScriptWithFormat c script a.format ≠ .panic)
    (hagain : ∀ f ∈ a.files, ∀ c t, w.files f = some c → executeScriptWithFormat c script a.format = .ok t →
      executeScriptWithFormat t script a.format = .ok t ∨ ∃ e, executeScriptWithFormat t script a.format = .err e)
    (hwhole : ∀ f ∈ a.files, w1.files f = w.files f ∨ w1.files f = edited (fun c => executeScriptWithFormat c script a.format) (w.files f)) :
    ∀ f ∈ a.files, (runOk m (runEdit a) w2).2.files f = (runOk m (runEdit a) w).2.files f := by
  intro f hf
  rw [(C92_rerun m a hi he hd hne hnd hcol hc hap w w1 w2 script hscript (.more w w w w1 (.none w) rfl h) hfiles hp f hf).2,
    (C62_runs_through m a hi he hd hne hnd hcol hc w script hscript fun _ _ c _ => hp c).1 f hf]
  rcases hwhole f hf with hw | hw
  · rw [hw]
  · rw [hw]
    cases hwf : w.files f with
    | none => rfl
    | some c =>
      cases hx : executeScriptWithFormat c script a.format with
      | panic => exact absurd hx (hp c)
      | err e => simp only [edited, hx]
      | ok t =>
        rcases hagain f hf c t hwf hx with h | ⟨e, h⟩ <;> simp only [edited, hx, h]

/-- C92. Without interruptions: running such a command twice is running it once. -/
theorem C92_twice (m : Bytes → Bytes) (a : EditArgs) (hi : a.inPlace = true) (he : a.expressions = []) (hd : a.dryRun = false) (hne : a.files ≠ [])
    (hnd : a.files.Nodup) (hcol : a.backupSuffix ≠ [] → ∀ f ∈ a.files, ∀ g ∈ a.files, f ++ a.backupSuffix ≠ g) (hc : ¬ Contradictory a) (hap : ScriptApart a)
    (w w2 : World) (script : Bytes) (hscript : ScriptOf a w script) (hfiles : w2.files = (runOk m (runEdit a) w).2.files)
    (hp : ∀ c, executeScriptWithFormat c script a.format ≠ .panic)
    (hagain : ∀ f ∈ a.files, ∀ c t, w.files f = some c → executeScriptWithFormat c script a.format = .ok t →
      executeScriptWithFormat t script a.format = .ok t ∨ ∃ e, executeScriptWithFormat t script a.format = .err e) :
    ∀ f ∈ a.files, (runOk m (runEdit a) w2).2.files f = w2.files f := by
  intro f hf
  rw [C92_again m a hi he hd hne hnd hcol hc hap w _ w2 script hscript (runOk_ends m (runEdit a) w).2 hfiles hp hagain
    (fun f hf => .inr ((C62_runs_through m a hi he hd hne hnd hcol hc w script hscript fun _ _ c _ => hp c).1 f hf)) f hf, hfiles]

/-- C92, negative result: `--backup` does not survive running the command again. Whenever the script succeeds on the file and on an empty text, there is an interrupted run
after which simply running the command again, without any failure, leaves the original neither in the file nor in the backup: the backup is empty. -/
theorem C92_false_backup (m : Bytes → Bytes) (a : EditArgs) (hi : a.inPlace = true) (he : a.expressions = []) (hd : a.dryRun = false) (hs : a.backupSuffix ≠ [])
    (hc : ¬ Contradictory a) (hap : ScriptApart a) (f : Bytes) (hf : a.files = [f]) (w : World) (script : Bytes) (hscript : ScriptOf a w script) (c t e : Bytes)
    (hfc : w.files f = some c) (hx : executeScriptWithFormat c script a.format = .ok t) (h0 : executeScriptWithFormat [] script a.format = .ok e) :
    ∃ w1 w2, Sees (runEdit a) w w1 ∧ Ends (runEdit a) w1 none w2 ∧ w2.files f = some e ∧ w2.files (f ++ a.backupSuffix) = some [] ∧
      ∀ q, q ≠ f → q ≠ f ++ a.backupSuffix → w2.files q = w.files q := by
  have hne : f ++ a.backupSuffix ≠ f := append_suffix_ne hs
  have hcol : ∀ x ∈ a.files, ∀ y ∈ a.files, x ++ a.backupSuffix ≠ y := by
    rw [hf]; intro x hx y hy
    rw [List.mem_singleton.1 hx, List.mem_singleton.1 hy]; exact hne
  have hnd : a.files.Nodup := by rw [hf]; simp
  obtain ⟨w1, h1, h2, h3, h4⟩ := C92_left_happens a hi he hd hs hc w script hscript f [] hf c hfc _ _ (.writing t 0 hx (Nat.zero_le _))
  have hsc : ScriptOf a w1 script := script_stays hi hap hscript (.more w w w w1 (.none w) rfl h1)
  have hok := C62_happens m a hi he hd (by rw [hf]; simp) hnd (fun _ => hcol) hc w1 script hsc (by
    rw [hf]; intro g hg
    rw [List.mem_singleton.1 hg]; exact ⟨[], e, h2, h0⟩)
  have hend := (runOk_ends m (runEdit a) w1).1 none hok.1
  refine ⟨w1, _, h1, hend, ?_⟩
  obtain ⟨script', hs', hall⟩ := C31_success a hi he hd (by rw [hf]; simp) hs hnd hcol w1 _ hend
  obtain ⟨d, t', g1, g2, g3, g4⟩ := hall f (by rw [hf]; simp)
  rw [h2] at g1; cases g1
  rw [← scriptOf_unique hsc hs'] at g2
  rw [List.take_zero] at g2 g4
  rw [h0] at g2; cases g2
  refine ⟨g3, g4, fun q hq hq' => ?_⟩
  rw [C33_in_place_scope a hi w1 _ (ends_sees hend) q (by rw [hf]; intro g hg; rw [List.mem_singleton.1 hg]; exact ⟨hq, fun _ => hq'⟩)]
  exact h4 q hq hq'

/-- C92. Putting back what `Recovered` says after every interruption is safe, any number of times: the file then always holds the original. -/
theorem C92_repaired (a : EditArgs) (hi : a.inPlace = true) (hs : a.backupSuffix ≠ []) (hnd : a.files.Nodup)
    (hcol : ∀ f ∈ a.files, ∀ g ∈ a.files, f ++ a.backupSuffix ≠ g) (hap : ScriptApart a) (w w' : World) (script : Bytes) (hscript : ScriptOf a w script)
    (f c : Bytes) (hf : f ∈ a.files) (hc : w.files f = some c) (hb : w.files (f ++ a.backupSuffix) = none)
    (h : Repaired (runEdit a) (fun c => executeScriptWithFormat c script a.format) f (f ++ a.backupSuffix) w w') : w'.files f = some c := by
  have hne : f ++ a.backupSuffix ≠ f := append_suffix_ne hs
  suffices w'.files f = some c ∧ (∀ b, w'.files (f ++ a.backupSuffix) = some b → b <+: c) ∧ ScriptOf a w' script from this.1
  induction h with
  | none => exact ⟨hc, (fun b h => by rw [hb] at h; cases h), hscript⟩
  | more w1 w2 w3 x o h hsees hx hr hfiles ih =>
    obtain ⟨i1, i2, i3⟩ := ih
    have hl := C92_left a hi hs hnd hcol w1 w2 script i3 hsees f c hf i1
    have ho : o = c := recovered_original i2 hl hx hr
    subst ho
    refine ⟨by rw [hfiles, World.put_same], fun b hb => ?_, scriptOf_of_files i3 fun h0 => ?_⟩
    · rw [hfiles, World.put_other _ _ _ _ hne] at hb
      rw [hb] at hl
      generalize w2.files f = y at hl
      generalize hold : w1.files (f ++ a.backupSuffix) = z at hl
      cases hl with
      | untouched => exact i2 b hold
      | copying n => exact List.take_prefix _ _
      | writing t n => exact List.prefix_refl _
    · rw [hfiles, World.put_other _ _ _ _ (hap h0 f hf).1]
      exact C33_in_place_scope a hi w1 w2 hsees a.scriptFile (hap h0)

/-! ### Search and replace -/

omit [Ext] in
theorem first_exists {old : Bytes} (u v : Bytes) : ∃ u' v', FirstOccurrence old (u ++ old ++ v) u' v' := by
  generalize hc : u ++ old ++ v = c
  induction hu : u.length using Nat.strongRecOn generalizing u v with
  | _ n ih =>
    by_cases h : ∀ u' v', c = u' ++ old ++ v' → u.length ≤ u'.length
    · exact ⟨u, v, hc.symm, h⟩
    · simp only [not_forall] at h
      obtain ⟨u', v', h1, h2⟩ := h
      exact ih u'.length (by omega) u' v' h1.symm rfl

omit [Ext] in
theorem consistent_suffix (script v : Bytes) (files : List Bytes) :
    ¬ Contradictory { script := script, files := files, inPlace := true, backupSuffix := v } := by
  rintro (h | h | h | h)
  · exact h (.inl rfl)
  · exact h.1 rfl
  · exact absurd h.2 (by simp)
  · exact h.1 rfl

/-- C92 for `texted edit -i -s 'search-forward "OLD"; replace-match "NEW"' -- FILES`, with `--backup` or without. If replacing the first OLD leaves no OLD in any of the files, then after
an interruption that left no file half written the command can be run again: the files end as if there had been no interruption (although the command may report an error, because
OLD is no longer found in the files that were finished). -/
theorem C92_replace_again (m : Bytes → Bytes) {old new : List Char} (ho : ∀ c ∈ old, PlainChar c) (hn : ∀ c ∈ new, PlainChar c) (hne : old ≠ [])
    (hlen : (encodeAll (replaceScript old new)).length < 65536) (files : List Bytes) (hf : files ≠ []) (hnd : files.Nodup) (suffix : Bytes)
    (hcol : suffix ≠ [] → ∀ f ∈ files, ∀ g ∈ files, f ++ suffix ≠ g) (w w1 w2 : World)
    (hgone : ∀ f ∈ files, ∀ u v, w.files f = some (u ++ encodeAll old ++ v) → FirstOccurrence (encodeAll old) (u ++ encodeAll old ++ v) u v →
      ∀ u' v', u ++ encodeAll new ++ v ≠ u' ++ encodeAll old ++ v') :
    let a : EditArgs := { script := encodeAll (replaceScript old new), files := files, inPlace := true, backupSuffix := suffix }
    Sees (runEdit a) w w1 → w2.files = w1.files →
    (∀ f ∈ files, w1.files f = w.files f ∨ ∃ u v, w.files f = some (u ++ encodeAll old ++ v) ∧
      FirstOccurrence (encodeAll old) (u ++ encodeAll old ++ v) u v ∧ w1.files f = some (u ++ encodeAll new ++ v)) →
    ∀ f ∈ files,
      (∀ u v, w.files f = some (u ++ encodeAll old ++ v) → FirstOccurrence (encodeAll old) (u ++ encodeAll old ++ v) u v →
        (runOk m (runEdit a) w2).2.files f = some (u ++ encodeAll new ++ v)) ∧
      ((∀ u v, w.files f ≠ some (u ++ encodeAll old ++ v)) → (runOk m (runEdit a) w2).2.files f = w.files f) := by
  intro a hsees hfiles hwhole
  have hbe : encodeAll old ≠ [] := encodeAll_nonempty hne
  have key := fun c => C79_replace c hlen hbe (replaceScript_written ho hn)
  have hs : encodeAll (replaceScript old new) ≠ [] := by
    refine encodeAll_nonempty fun h => ?_
    have h := List.append_eq_nil_iff.1 h
    exact absurd h.2 (by decide)
  have cases_ : ∀ c, (∃ u v, FirstOccurrence (encodeAll old) c u v) ∨ ∀ u v, c ≠ u ++ encodeAll old ++ v := by
    intro c
    by_cases h : ∃ u v, c = u ++ encodeAll old ++ v
    · obtain ⟨u, v, rfl⟩ := h; exact .inl (first_exists u v)
    · exact .inr fun u v hh => h ⟨u, v, hh⟩
  have hp : ∀ c, executeScriptWithFormat c (encodeAll (replaceScript old new)) (b! "shell") ≠ .panic := by
    intro c
    rcases cases_ c with ⟨u, v, h⟩ | h
    · rw [(key c).1 u v h]; exact nofun
    · obtain ⟨e, he⟩ := (key c).2 h; rw [he]; exact nofun
  have hscript : ScriptOf a w (encodeAll (replaceScript old new)) := by
    unfold ScriptOf; rw [if_pos rfl]; exact ⟨rfl, hs⟩
  have main := C92_again m a rfl rfl rfl hf hnd hcol (consistent_suffix _ _ _) (fun h => absurd rfl h) w w1 w2 _ hscript hsees hfiles hp (by
    intro f hf c t hc hx
    rcases cases_ c with ⟨u, v, h⟩ | h
    · have hcu : c = u ++ encodeAll old ++ v := h.1
      have hx' := (key c).1 u v h
      have : t = u ++ encodeAll new ++ v := by
        have := hx.symm.trans hx'; injection this
      subst this
      right
      obtain ⟨e, he⟩ := (key (u ++ encodeAll new ++ v)).2 fun u' v' => hgone f hf u v (by rw [hc, hcu]) (by rw [← hcu]; exact h) u' v'
      exact ⟨_, he⟩
    · obtain ⟨e, he⟩ := (key c).2 h
      have := hx.symm.trans he; cases this) (by
    intro f hf
    rcases hwhole f hf with h | ⟨u, v, h1, h2, h3⟩
    · exact .inl h
    · right
      have hx : executeScriptWithFormat (u ++ encodeAll old ++ v) (encodeAll (replaceScript old new)) a.format = _ := (key _).1 u v h2
      rw [h1, h3]
      simp only [edited, hx])
  have once := (C62_runs_through m a rfl rfl rfl hf hnd hcol (consistent_suffix _ _ _) w _ hscript fun _ _ c _ => hp c).1
  intro f hf
  rw [main f hf, once f hf]
  constructor
  · intro u v h1 h2
    have hx : executeScriptWithFormat (u ++ encodeAll old ++ v) (encodeAll (replaceScript old new)) a.format = _ := (key _).1 u v h2
    rw [h1]
    simp only [edited, hx]
  · intro h
    cases hw : w.files f with
    | none => rfl
    | some c =>
      obtain ⟨e, he⟩ := (key c).2 fun u v hc => h u v (by rw [hw, hc])
      have hx : executeScriptWithFormat c (encodeAll (replaceScript old new)) a.format = _ := he
      simp only [edited, hx]

/-- C92 for the same command with `--backup`: if NEW is not longer than OLD, the original of every file can be told after every interruption (see `C92_recoverable`). -/
theorem C92_replace_recoverable {old new : List Char} (ho : ∀ c ∈ old, PlainChar c) (hn : ∀ c ∈ new, PlainChar c) (hne : old ≠ [])
    (hlen : (encodeAll (replaceScript old new)).length < 65536) (hshort : (encodeAll new).length ≤ (encodeAll old).length)
    (files : List Bytes) (hnd : files.Nodup) (suffix : Bytes) (hs : suffix ≠ [])
    (hcol : ∀ f ∈ files, ∀ g ∈ files, f ++ suffix ≠ g) (w w' : World) (f c : Bytes) (hf : f ∈ files) (hc : w.files f = some c) (hb : w.files (f ++ suffix) = none) :
    let a : EditArgs := { script := encodeAll (replaceScript old new), files := files, inPlace := true, backupSuffix := suffix }
    Sees (runEdit a) w w' →
    ∃ x, w'.files f = some x ∧
      ∀ o, Recovered (fun c => executeScriptWithFormat c (encodeAll (replaceScript old new)) a.format) x (w'.files (f ++ suffix)) o ↔ o = c := by
  intro a h
  have hbe : encodeAll old ≠ [] := encodeAll_nonempty hne
  have hs' : encodeAll (replaceScript old new) ≠ [] := by
    refine encodeAll_nonempty fun h => ?_
    have h := List.append_eq_nil_iff.1 h
    exact absurd h.2 (by decide)
  have hscript : ScriptOf a w (encodeAll (replaceScript old new)) := by
    unfold ScriptOf; rw [if_pos rfl]; exact ⟨rfl, hs'⟩
  refine C92_recoverable a rfl hs hnd hcol w w' _ hscript (fun y t hx hp => ?_) h f c hf hc hb
  have key := C79_replace y hlen hbe (replaceScript_written ho hn)
  by_cases hex : ∃ u v, y = u ++ encodeAll old ++ v
  · obtain ⟨u, v, hy⟩ := hex
    obtain ⟨u', v', hfo⟩ := first_exists (old := encodeAll old) u v
    rw [← hy] at hfo
    have e := hx.symm.trans (key.1 u' v' hfo)
    have e : t = u' ++ encodeAll new ++ v' := by injection e
    refine hp.2 (hp.1.eq_of_length_le ?_)
    rw [e, hfo.1]
    simp only [List.length_append]; omega
  · obtain ⟨e, he⟩ := key.2 fun u v hy => hex ⟨u, v, hy⟩
    have := hx.symm.trans he; cases this

/-! ### Cases -/

/-- The case of `C92_false_backup`: `texted edit -i --backup .bak -s 'insert "X"' f`, interrupted when it had truncated f, and run again. -/
example : letI := litExt
    let a : EditArgs := { script := b! "insert \"X\"", files := [b! "f"], inPlace := true, backupSuffix := b! ".bak" }
    let w : World := { files := fun q => if q = b! "f" then some (b! "precious") else none, input := [], out := [] }
    ∃ w1 w2, Sees (runEdit a) w w1 ∧ Ends (runEdit a) w1 none w2 ∧ w2.files (b! "f") = some (b! "X") ∧ w2.files (b! "f.bak") = some [] := by
  letI := litExt
  intro a w
  obtain ⟨w1, w2, h1, h2, h3, h4, _⟩ := C92_false_backup (fun _ => []) a rfl rfl rfl (by decide) (consistent_suffix _ _ _) (fun h => absurd rfl h) (b! "f") rfl w
    (b! "insert \"X\"") ⟨rfl, by decide⟩ (b! "precious") (b! "Xprecious") (b! "X") rfl (by decide +kernel) (by decide +kernel)
  exact ⟨w1, w2, h1, h2, h3, h4⟩

/-- The case of `C92_false_recovery`: `end-of-buffer; insert "!"` on files that hold `a` and `a!`. -/
example : letI := litExt
    let a : EditArgs := { script := b! "end-of-buffer; insert \"!\"", files := [b! "f"], inPlace := true, backupSuffix := b! "~" }
    let w : World := { files := fun _ => none, input := [], out := [] }
    ∃ w1 w2, Sees (runEdit a) (w.put (b! "f") (b! "a")) w1 ∧ Sees (runEdit a) (w.put (b! "f") (b! "a!")) w2 ∧ w1.files = w2.files := by
  letI := litExt
  intro a w
  exact (C92_false_recovery a rfl rfl rfl (by decide) (consistent_suffix _ _ _) (b! "end-of-buffer; insert \"!\"") (b! "f") [] rfl (b! "a") (b! "a!")
    (by decide +kernel) (by unfold ProperPrefix; decide) w ⟨rfl, by decide⟩ ⟨rfl, by decide⟩).2

/-- Negative case: a script that succeeds on its own results is applied twice to the files an interrupted run had finished. -/
example : letI := litExt
    let a : EditArgs := { script := b! "insert \"X\"", files := [b! "f", b! "g"], inPlace := true }
    let w1 := (runOk (fun _ => []) (inPlaceOne a a.script (b! "f")) twoFiles).2
    let w2 := (runOk (fun _ => []) (runEdit a) w1).2
    w1.files (b! "f") = some (b! "Xhello") ∧ w1.files (b! "g") = some (b! "world") ∧
      w2.files (b! "f") = some (b! "XXhello") ∧ w2.files (b! "g") = some (b! "Xworld") := by
  decide +kernel

/-- `Recovered`, case by case: the run had not come to the file; the backup was cut; the file was cut. -/
example (exec : Bytes → Res Bytes Bytes) (h : exec (b! "he") = .ok (b! "Xhe")) :
    Recovered exec (b! "hello") none (b! "hello") ∧ Recovered exec (b! "hello") (some (b! "he")) (b! "hello") ∧
    Recovered exec (b! "Xhel") (some (b! "hello")) (b! "hello") := by
  refine ⟨.noBackup, .cutShort _ (by unfold ProperPrefix; decide) fun t ht => ?_, .backup _ (by unfold ProperPrefix; decide)⟩
  rw [h] at ht
  cases ht
  decide

end Texted
