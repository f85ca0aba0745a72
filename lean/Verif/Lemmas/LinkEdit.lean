import Verif.Lemmas.LinkStays
import Verif.Lemmas.FgRunEdit
import Verif.Spec.EditCmd
/-
`runEdit` of /repo/commands/edit.go with a script stays within the memory, if the script and the texts do.
-/
set_option linter.unusedSectionVars false
set_option linter.unusedSimpArgs false
namespace Texted
open Spec

/-- Started with the files of `S` as in `F`, the program ends in `Q`, with the files of `T` as in `F`. -/
def Safe (F : Bytes → Option Bytes) (S : List Bytes) (p : Proc α) (Q : α → Prop) (T : List Bytes) : Prop :=
  ∀ w : World, (∀ q ∈ S, w.files q = F q) → ∀ o w', Ends p w o w' → Q o ∧ ∀ q ∈ T, w'.files q = F q

section
variable {F : Bytes → Option Bytes} {S T : List Bytes} {Q : α → Prop} {k : Except Bytes Bytes → Proc α}

theorem safe_ret {o : α} (hs : ∀ q ∈ T, q ∈ S) (h : Q o) : Safe F S (.ret o) Q T := by
  intro w hw o' w' he
  obtain ⟨rfl, rfl⟩ := ends_ret.1 he
  exact ⟨h, fun q hq => hw q (hs q hq)⟩

theorem safe_panic : Safe F S .panic Q T := fun _ _ _ _ he => absurd he ends_panic

theorem safe_print {d : Bytes} (h : ∀ r, Safe F S (k r) Q T) : Safe F S (.act (.print d) k) Q T := by
  intro w hw o w' he
  obtain ⟨r, w1, h1, h2⟩ := ends_act.1 he
  refine h r w1 (fun q hq => ?_) o w' h2
  rcases h1 with ⟨_, rfl⟩ | ⟨_, _, _, rfl⟩ <;> exact hw q hq

theorem safe_read {f : Bytes} (hf : f ∈ S) (h : ∀ c, F f = some c → Safe F S (k (.ok c)) Q T) (he : ∀ e, Safe F S (k (.error e)) Q T) :
    Safe F S (.act (.read f) k) Q T := by
  intro w hw o w' hx
  obtain ⟨r, w1, h1, h2⟩ := ends_act.1 hx
  obtain ⟨rfl, ⟨d, hd, rfl⟩ | ⟨e, rfl⟩⟩ := h1
  · exact h d (by rw [← hw f hf]; exact hd) _ hw o w' h2
  · exact he e _ hw o w' h2

theorem write_other {p d q : Bytes} {w w1 : World} {r : Except Bytes Bytes} (h : ActEnds (.write p d) w r w1) (hq : q ≠ p) : w1.files q = w.files q := by
  rcases h with ⟨_, rfl⟩ | ⟨_, _, rfl | ⟨_, _, rfl⟩⟩
  · simp [World.put, hq]
  · rfl
  · simp [World.put, hq]

theorem safe_write {p d : Bytes} (S' : List Bytes) (hs : ∀ q ∈ S', q ∈ S) (hp : p ∉ S') (h : ∀ r, Safe F S' (k r) Q T) : Safe F S (.act (.write p d) k) Q T := by
  intro w hw o w' he
  obtain ⟨r, w1, h1, h2⟩ := ends_act.1 he
  refine h r w1 (fun q hq => ?_) o w' h2
  rw [write_other h1 (fun e => hp (e ▸ hq))]
  exact hw q (hs q hq)

theorem safe_bind {β : Type} {p : Proc β} {g : β → Proc α} {R : β → Prop} {U : List Bytes} (hp : Safe F S p R U) (hg : ∀ b, R b → Safe F U (g b) Q T) :
    Safe F S (p.bind g) Q T := by
  intro w hw o w' he
  obtain ⟨b, w1, h1, h2⟩ := ends_bind.1 he
  obtain ⟨hr, hu⟩ := hp w hw b w1 h1
  exact hg b hr w1 hu o w' h2

theorem safe_stdin {c : Bytes} (h : Safe F S (k (.ok c)) Q T) (he : ∀ e, Safe F S (k (.error e)) Q T) :
    ∀ w : World, w.input = c → (∀ q ∈ S, w.files q = F q) → ∀ o w', Ends (.act .stdin k) w o w' → Q o := by
  intro w hc hw o w' hx
  obtain ⟨r, w1, h1, h2⟩ := ends_act.1 hx
  obtain ⟨rfl, rfl | ⟨e, rfl⟩⟩ := h1
  · exact (h { w with input := [] } hw o w' (hc ▸ h2)).1
  · exact (he e { w with input := [] } hw o w' h2).1

theorem safe_calm {p : Proc FgOut} {w : World} (h : Safe w.files S p (fun o => o ≠ .spin) []) : Calm p w := fun _ he => (h w (fun _ _ => rfl) _ _ he).1 rfl
end

section
variable [Ext] {m : Memory} {n d : Nat} {F : Bytes → Option Bytes}

/-- What the loop of `processFilesInPlace` knows. -/
structure PlaceSt (a : EditArgs) (script : Bytes) (st : FgSt) : Prop where
  errors : ∃ b, st .hasErrors = .bool b
  script : st .args_script = .str script
  format : st .args_scriptFormat = .str a.format
  suffix : st .args_backupSuffix = .str a.backupSuffix
  verbose : st .args_verbose = .bool a.verbose
  quiet : st .args_quiet = .bool a.quiet
  dry : st .args_dryRun = .bool a.dryRun

/-- A round of a loop goes on. -/
def GoesOn (I : FgSt → Prop) (o : FgOut) : Prop := ∃ st, (o = .next st ∨ o = .cont st) ∧ I st

theorem safe_range {I : FgSt → Prop} {body : FgSt → Proc FgOut} {i x : FgVar}
    (hb : ∀ k f l st, I st → (f :: l).Nodup → (∀ q ∈ f :: l, q ∈ (S : List Bytes)) → Safe F (f :: l) (body (fgSet (fgSet st i (.int k)) x (.str f))) (GoesOn I) l) :
    ∀ (l : List Bytes) (k : Nat) (st : FgSt), I st → l.Nodup → (∀ q ∈ l, q ∈ S) →
      Safe F l (fgRange body i x k (l.map .str) st) (fun o => ∃ st, o = .next st ∧ I st) []
  | [], _, st, hi, _, _ => safe_ret (by simp) ⟨st, rfl, hi⟩
  | f :: l, k, st, hi, hn, hs => by
    rw [List.map_cons, fgRange]
    refine safe_bind (hb k f l st hi hn hs) fun o ho => ?_
    obtain ⟨st', h, hi'⟩ := ho
    have := safe_range hb l (k + 1) st' hi' (List.nodup_cons.1 hn).2 (fun q hq => hs q (List.mem_cons_of_mem _ hq))
    rcases h with rfl | rfl <;> exact this

set_option maxHeartbeats 4000000 in
theorem safe_InPlace (a : EditArgs) (script : Bytes) (hn : a.files.Nodup)
    (hc : ∀ f ∈ a.files, ∀ g ∈ a.files, a.backupSuffix ≠ [] → f ++ a.backupSuffix ≠ g)
    (hf : ∀ f ∈ a.files, ∀ c, F f = some c → FitsIn m c script a.format) :
    Safe F a.files (fgRunBy (fittingOp m) n (d + 3) .processFilesInPlace [.strs a.files, .str script, .str a.format, .str a.backupSuffix, .bool a.verbose, .bool a.quiet, .bool a.dryRun])
      (fun o => ∃ v, o = .ret [v]) [] := by
  rw [lkRun_succ _ _ _ rfl]
  simp only [FgFn.body, fgProcessFilesInPlace]
  lk [lkexec_range]
  refine safe_bind (safe_range (S := a.files) (I := PlaceSt a script) (fun k f l st hi hnd hs => ?_) a.files 0 _ ?_ hn (fun _ h => h)) fun o ho => ?_
  · obtain ⟨⟨b, h1⟩, h2, h3, h4, h5, h6, h7⟩ := hi
    have hfa : f ∈ a.files := hs f (List.mem_cons_self ..)
    have hw : a.backupSuffix ≠ [] → f ++ a.backupSuffix ∉ f :: l := fun hne hm => hc f hfa _ (hs _ hm) hne rfl
    have hfl : f ∉ l := (List.nodup_cons.1 hnd).1
    have hff : f ∈ f :: l := List.mem_cons_self ..
    have sub : ∀ q ∈ l, q ∈ f :: l := fun q hq => List.mem_cons_of_mem _ hq
    have ft : ∀ c, F f = some c → FitsIn m c script a.format := hf f hfa
    have leaf : ∀ (st' : FgSt), ((∃ b, st' .hasErrors = .bool b) ∧ st' .args_script = .str script ∧ st' .args_scriptFormat = .str a.format ∧
      st' .args_backupSuffix = .str a.backupSuffix ∧ st' .args_verbose = .bool a.verbose ∧ st' .args_quiet = .bool a.quiet ∧ st' .args_dryRun = .bool a.dryRun) →
      PlaceSt a script st' := fun st' h => ⟨h.1, h.2.1, h.2.2.1, h.2.2.2.1, h.2.2.2.2.1, h.2.2.2.2.2.1, h.2.2.2.2.2.2⟩
    clear hf hc hn hs
    cases hq : a.quiet <;> cases hv : a.verbose <;> cases hd : a.dryRun <;> by_cases hs : a.backupSuffix = [] <;>
      rw [hq] at h6 <;> rw [hv] at h5 <;> rw [hd] at h7 <;>
      lk [h1, h2, h3, h4, h5, h6, h7, hq, hv, hd, hs, nl_byte, ne_eq, not_true_eq_false, not_false_eq_true]
    all_goals repeat' first
      | (refine safe_ret (by first | exact sub | exact fun _ h => h) ⟨_, .inl rfl, leaf _ (by lk [h1, h2, h3, h4, h5, h6, h7, hq, hv, hd, hs]; exact ⟨_, rfl⟩)⟩)
      | (refine safe_ret (by first | exact sub | exact fun _ h => h) ⟨_, .inr rfl, leaf _ (by lk [h1, h2, h3, h4, h5, h6, h7, hq, hv, hd, hs]; exact ⟨_, rfl⟩)⟩)
      | exact safe_panic
      | (refine safe_print fun r => ?_; cases r <;> lk [h1, h2, h3, h4, h5, h6, h7, hq, nl_byte])
      | (refine safe_read hff (fun c hcc => ?_) (fun e => ?_) <;>
          first
          | (lk [h1, h2, h3, h4, h5, h6, h7, lk_ExecuteScriptWithFormat _ _ _ (ft c hcc), hq, nl_byte]; done)
          | lk [h1, h2, h3, h4, h5, h6, h7, hq, nl_byte])
      | (refine safe_write (f :: l) (fun _ h => h) (hw hs) fun r => ?_; cases r <;> lk [h1, h2, h3, h4, h5, h6, h7, hq, nl_byte])
      | (refine safe_write l sub hfl fun r => ?_; cases r <;> lk [h1, h2, h3, h4, h5, h6, h7, hq, nl_byte])
      | (rw [lk_ExecuteScriptWithFormat _ _ _ (ft _ ‹_›)]; generalize executeScriptWithFormat _ _ _ = r; cases r <;> lk [fgRes, h1, h2, h3, h4, h5, h6, h7, hq, nl_byte])
  · constructor <;> lk [] <;> first | exact ⟨_, rfl⟩ | rfl
  · obtain ⟨st, rfl, hi⟩ := ho
    obtain ⟨b, hb⟩ := hi.errors
    lk [hb]
    cases b <;> lk [] <;> exact safe_ret (fun _ h => h) ⟨_, rfl⟩

theorem safe_Stdout (a : EditArgs) (script f : Bytes) (hf : ∀ c, F f = some c → FitsIn m c script a.format) :
    Safe F [f] (fgRunBy (fittingOp m) n (d + 3) .processSingleFileToStdout [.str f, .str script, .str a.format, .bool a.verbose, .bool a.quiet, .bool a.dryRun])
      (fun o => ∃ v, o = .ret [v]) [] := by
  rw [lkRun_succ _ _ _ rfl]
  simp only [FgFn.body, fgProcessSingleFileToStdout]
  have hff : f ∈ [f] := List.mem_cons_self ..
  cases hq : a.quiet <;> cases hv : a.verbose <;> cases hd : a.dryRun <;> lk [nl_byte]
  all_goals repeat' first
    | exact safe_ret (by simp) ⟨_, rfl⟩
    | exact safe_panic
    | (refine safe_print fun r => ?_; cases r <;> (try lk [nl_byte]))
    | (refine safe_read hff (fun c hcc => ?_) (fun e => ?_) <;> lk [nl_byte])
    | (rw [lk_ExecuteScriptWithFormat _ _ _ (hf _ ‹_›)]; generalize executeScriptWithFormat _ _ _ = r; cases r <;> lk [fgRes, nl_byte])

theorem safe_Output (a : EditArgs) (script f : Bytes) (hf : ∀ c, F f = some c → FitsIn m c script a.format) :
    Safe F [f] (fgRunBy (fittingOp m) n (d + 3) .processSingleFileToOutput [.str f, .str script, .str a.format, .str a.outputFile, .bool a.verbose, .bool a.quiet, .bool a.dryRun])
      (fun o => ∃ v, o = .ret [v]) [] := by
  rw [lkRun_succ _ _ _ rfl]
  simp only [FgFn.body, fgProcessSingleFileToOutput]
  have hff : f ∈ [f] := List.mem_cons_self ..
  cases hq : a.quiet <;> cases hv : a.verbose <;> cases hd : a.dryRun <;> lk [nl_byte]
  all_goals repeat' first
    | exact safe_ret (by simp) ⟨_, rfl⟩
    | exact safe_panic
    | (refine safe_print fun r => ?_; cases r <;> (try lk [nl_byte]))
    | (refine safe_write [] (by simp) (by simp) fun r => ?_; cases r <;> (try lk [nl_byte]))
    | (refine safe_read hff (fun c hcc => ?_) (fun e => ?_) <;> lk [nl_byte])
    | (rw [lk_ExecuteScriptWithFormat _ _ _ (hf _ ‹_›)]; generalize executeScriptWithFormat _ _ _ = r; cases r <;> lk [fgRes, nl_byte])

set_option maxHeartbeats 4000000 in
theorem safe_files (a : EditArgs) (script : Bytes) (hn : a.files.Nodup)
    (hc : ∀ f ∈ a.files, ∀ g ∈ a.files, a.backupSuffix ≠ [] → f ++ a.backupSuffix ≠ g)
    (hf : ∀ f ∈ a.files, ∀ c, F f = some c → FitsIn m c script a.format) :
    Safe F a.files (fgRunBy (fittingOp m) n (d + 4) .processFiles [.strs a.files, .str script, .str a.format, .bool a.inPlace, .str a.outputFile, .str a.backupSuffix, .bool a.verbose, .bool a.quiet, .bool a.dryRun])
      (fun o => ∃ v, o = .ret [v]) [] := by
  have hb := @safe_InPlace _ m n d F a script hn hc hf
  rw [lkRun_succ _ _ _ rfl]
  simp only [FgFn.body, fgProcessFiles]
  have one : ∀ f g : Bytes, ∀ l : List Bytes, (((f :: g :: l).length : Int) = 1) = False := fun f g l => by
    simp only [List.length_cons, eq_iff_iff, iff_false]; omega
  have z : (((([] : List Bytes).length : Nat) : Int) = 1) = False := by decide
  have s : ∀ f : Bytes, ((([f] : List Bytes).length : Int) = 1) = True := fun f => by simp
  have at0 : ∀ (f : Bytes) (l : List Bytes), goAt (f :: l) 0 = some f := fun f l => rfl
  rcases hl : a.files with _ | ⟨f, _ | ⟨g, l⟩⟩ <;> rw [hl] at hb hf <;> cases hp : a.inPlace <;> by_cases ho : a.outputFile = [] <;>
    lk [ho, one, z, s, at0, ne_eq, not_true_eq_false, not_false_eq_true]
  all_goals first
    | exact safe_ret (by simp) ⟨_, rfl⟩
    | exact safe_bind hb fun o ⟨v, ho⟩ => by subst ho; lk []; exact safe_ret (by simp) ⟨_, rfl⟩
    | exact safe_bind (safe_Stdout a script f (hf f (List.mem_cons_self ..))) fun o ⟨v, ho⟩ => by subst ho; lk []; exact safe_ret (by simp) ⟨_, rfl⟩
    | exact safe_bind (safe_Output a script f (hf f (List.mem_cons_self ..))) fun o ⟨v, ho⟩ => by subst ho; lk []; exact safe_ret (by simp) ⟨_, rfl⟩

theorem safe_Stdin (a : EditArgs) (script : Bytes) (w : World) (hf : FitsIn m w.input script a.format) (o : FgOut) (w' : World)
    (he : Ends (fgRunBy (fittingOp m) n (d + 3) .processStdin [.str script, .str a.format, .str a.outputFile, .bool a.verbose, .bool a.quiet, .bool a.dryRun]) w o w') :
    ∃ v, o = .ret [v] := by
  revert he
  rw [lkRun_succ _ _ _ rfl]
  simp only [FgFn.body, fgProcessStdin]
  lk []
  refine safe_stdin (F := w.files) (S := []) (T := []) (Q := fun o => ∃ v, o = .ret [v]) ?_ (fun e => ?_) w rfl (fun _ _ => rfl) o w'
  · lk []
    cases hq : a.quiet <;> cases hv : a.verbose <;> cases hd : a.dryRun <;> by_cases ho : a.outputFile = [] <;>
      lk [ho, nl_byte, lk_ExecuteScriptWithFormat _ _ _ hf, ne_eq, not_true_eq_false, not_false_eq_true]
    all_goals repeat' first
      | exact safe_ret (by simp) ⟨_, rfl⟩
      | exact safe_panic
      | (refine safe_print fun r => ?_; cases r <;> (try lk [nl_byte]))
      | (refine safe_write [] (by simp) (by simp) fun r => ?_; cases r <;> (try lk [nl_byte]))
      | (generalize executeScriptWithFormat _ _ _ = r; cases r <;> lk [fgRes, nl_byte, ho, ne_eq, not_true_eq_false, not_false_eq_true])
  · lk []
    exact safe_ret (by simp) ⟨_, rfl⟩

theorem lk_flags (a : EditArgs) (call : FgFn → List FgV → Proc FgOut) (K : FgSt → Proc FgOut) :
    (fgRunEdit.first.execBy (fittingOp m) n call (editSt a)).bind (fun o => o.andThen K) = K (editSt2 a) := by
  have e1 : editSt a .args_shell = .bool a.shell := rfl
  have e2 : editSt a .args_sexp = .bool a.sexp := rfl
  have e3 : editSt a .args_json = .bool a.json := rfl
  simp only [fgRunEdit, FgS.first]
  cases ha : a.shell <;> cases hb : a.sexp <;> cases hc : a.json <;> rw [ha] at e1 <;> rw [hb] at e2 <;> rw [hc] at e3 <;> lk [e1, e2, e3] <;>
    refine congrArg K (funext fun x => ?_) <;> simp only [editSt2, fgSet, EditArgs.format, ha, hb, hc, if_true, if_false, Bool.false_eq_true]
  by_cases h : x = .args_scriptFormat
  · rw [if_pos h, h]; rfl
  · rw [if_neg h]

theorem lk_first (a : EditArgs) : fgRunBy (fittingOp m) n (d + 1) .runEdit a.fg = fgRunEdit.rest.execBy (fittingOp m) n (fgRunBy (fittingOp m) n d) (editSt2 a) := by
  rw [lkRun_succ _ _ _ (editSt_eq a)]
  show fgRunEdit.execBy _ _ _ _ = _
  rw [fgRunEdit_split, lkexec_seq, lk_flags]
  rfl

theorem runs_bind {p : Proc FgOut} {k : FgOut → Proc FgOut} {w : World} (hp : ∀ o w', Ends p w o w' → ∃ v, o = .ret [v])
    (hk : ∀ v w', Calm (k (.ret [v])) w') : Calm (p.bind k) w := by
  intro w' he
  obtain ⟨o, w1, h1, h2⟩ := ends_bind.1 he
  obtain ⟨v, rfl⟩ := hp o w1 h1
  exact hk v w1 w' h2

theorem calm_rest (a : EditArgs) (w : World) (st : FgSt) (h : RunEditSt a st) (he : a.expressions = []) (hn : a.files.Nodup)
    (hc : ∀ f ∈ a.files, ∀ g ∈ a.files, a.backupSuffix ≠ [] → f ++ a.backupSuffix ≠ g)
    (hf : ∀ script, ScriptOf a w script → (∀ f ∈ a.files, ∀ c, w.files f = some c → FitsIn m c script a.format) ∧ (a.files = [] → FitsIn m w.input script a.format)) :
    Calm (fgRunEdit.rest.execBy (fittingOp m) n (fgRunBy (fittingOp m) n (d + 4)) st) w := by
  obtain ⟨h1, h2, h3, h4, h5, h6, h7, h8, h9, h10, h11⟩ := h
  have go : ∀ script, ScriptOf a w script → (a.files = [] → ∀ o w', Ends (fgRunBy (fittingOp m) n (d + 4) .processStdin [.str script, .str a.format, .str a.outputFile, .bool a.verbose, .bool a.quiet, .bool a.dryRun]) w o w' → ∃ v, o = .ret [v]) ∧
      ∀ o w', Ends (fgRunBy (fittingOp m) n (d + 4) .processFiles [.strs a.files, .str script, .str a.format, .bool a.inPlace, .str a.outputFile, .str a.backupSuffix, .bool a.verbose, .bool a.quiet, .bool a.dryRun]) w o w' → ∃ v, o = .ret [v] := by
    intro script hs
    obtain ⟨g1, g2⟩ := hf script hs
    exact ⟨fun h0 o w' => safe_Stdin (d := d + 1) a script w (g2 h0) o w', fun o w' h => (safe_files a script hn hc g1 w (fun _ _ => rfl) o w' h).1⟩
  clear hf hc hn
  rw [fgRunEdit, FgS.rest]
  lk [h2, lk_IsValidFormat]
  cases hv : isValidFormat a.format with
  | false => lk []; exact calm_ret (fun h => nomatch h)
  | true =>
  have hL : decide ((1 : Int) < (a.files.length : Int)) = decide (a.files.length > 1) := by simp only [decide_eq_decide]; omega
  have hE : decide ((0 : Int) < (([] : List Bytes).length : Int)) = false := by decide
  have hF : decide ((a.files.length : Int) = 0) = a.files.isEmpty := by cases a.files <;> simp <;> omega
  lk [h1, h2, h3, h4, h5, h6, h7, h8, h9, h10, h11, hL]
  cases c1 : (!decide (a.outputFile = []) && decide (a.files.length > 1)) with
  | true => lk []; exact calm_ret (fun h => nomatch h)
  | false =>
  lk [h1, h2, h3, h4, h5, h6, h7, h8, h9, h10, h11]
  cases c2 : (!decide (a.backupSuffix = []) && !a.inPlace) with
  | true => lk []; exact calm_ret (fun h => nomatch h)
  | false =>
  lk [h1, h2, h3, h4, h5, h6, h7, h8, h9, h10, h11]
  cases c3 : (!decide (a.outputFile = []) && a.inPlace) with
  | true => lk []; exact calm_ret (fun h => nomatch h)
  | false =>
  lk [h1, h2, h3, h4, h5, h6, h7, h8, h9, h10, h11, he, hE]
  unfold ScriptOf at go
  by_cases c5 : a.scriptFile = []
  · simp only [if_pos c5] at go
    lk [c5, ne_eq, not_true_eq_false, h1, h2, h3, h4, h5, h6, h7, h8, h9, h10, h11]
    by_cases c6 : a.script = []
    · lk [c6]; exact calm_ret (fun h => nomatch h)
    · obtain ⟨g1, g2⟩ := go a.script ⟨rfl, c6⟩
      cases c7 : a.files.isEmpty <;> lk [c6, c7, hF, h1, h2, h3, h4, h5, h6, h7, h8, h9, h10, h11]
      · exact runs_bind g2 fun v w' => by lk []; exact calm_ret (fun h => nomatch h)
      · exact runs_bind (g1 (List.isEmpty_iff.1 c7)) fun v w' => by lk []; exact calm_ret (fun h => nomatch h)
  · simp only [if_neg c5] at go
    lk [c5, ne_eq, not_false_eq_true]
    refine calm_read (fun c hc => ?_) fun e => ?_
    · obtain ⟨g1, g2⟩ := go c hc
      cases c7 : a.files.isEmpty <;> lk [c7, hF, h1, h2, h3, h4, h5, h6, h7, h8, h9, h10, h11]
      · exact runs_bind g2 fun v w' => by lk []; exact calm_ret (fun h => nomatch h)
      · exact runs_bind (g1 (List.isEmpty_iff.1 c7)) fun v w' => by lk []; exact calm_ret (fun h => nomatch h)
    · lk []; exact calm_ret (fun h => nomatch h)

theorem stays_runEdit (a : EditArgs) (w : World) (he : a.expressions = []) (hn : a.files.Nodup)
    (hc : ∀ f ∈ a.files, ∀ g ∈ a.files, a.backupSuffix ≠ [] → f ++ a.backupSuffix ≠ g)
    (hf : ∀ script, ScriptOf a w script → (∀ f ∈ a.files, ∀ c, w.files f = some c → FitsIn m c script a.format) ∧ (a.files = [] → FitsIn m w.input script a.format)) :
    StaysIn m .runEdit a.fg w :=
  ⟨0, 5, by rw [lk_first]; exact calm_rest a w (editSt2 a) ⟨rfl, rfl, rfl, rfl, rfl, rfl, rfl, rfl, rfl, rfl, rfl⟩ he hn hc hf⟩

end
end Texted
