import Verif.Lemmas.LinkEdit
import Verif.Lemmas.FgTools
/-
`EditFileWithFormat`, `EditFiles`, `EditFilesWithFormat` of /repo/texted.go and the tool `texted_eval` of /repo/tools/texted_eval.go stay within the
memory, if the script and the texts do.
-/
set_option linter.unusedSectionVars false
set_option linter.unusedSimpArgs false
namespace Texted
open Spec

section
variable [Ext] {m : Memory} {n d : Nat} {F : Bytes → Option Bytes}

theorem safe_EditFile (f script : Bytes) (l : List Bytes) (hfl : f ∉ l) (hf : ∀ c, F f = some c → FitsIn m c script (b! "shell")) :
    Safe F (f :: l) (fgRunBy (fittingOp m) n (d + 2) .EditFile [.str f, .str script]) (fun o => ∃ e, o = .ret [fgError e]) l := by
  have sub : ∀ q ∈ l, q ∈ f :: l := fun q hq => List.mem_cons_of_mem _ hq
  rw [lkRun_succ _ _ _ rfl]
  simp only [FgFn.body, fgEditFile]
  lk [lk_readFile]
  refine safe_read (List.mem_cons_self ..) (fun c hc => ?_) fun e => ?_
  · lk [fgRead, lk_ExecuteScript c script (hf c hc)]
    cases executeScript c script with
    | err e => lk [fgRes]; exact safe_ret sub ⟨some _, rfl⟩
    | panic => lk [fgRes]; exact safe_panic
    | ok t =>
      lk [fgRes, lk_writeFile]
      refine safe_write l sub hfl fun r => ?_
      cases r <;> lk [fgWrote]
      · exact safe_ret (fun _ h => h) ⟨some _, rfl⟩
      · exact safe_ret (fun _ h => h) ⟨none, rfl⟩
  · lk [fgRead]; exact safe_ret sub ⟨some _, rfl⟩

theorem safe_EditFileWithFormat (f script format : Bytes) (l : List Bytes) (hfl : f ∉ l) (hf : ∀ c, F f = some c → FitsIn m c script format) :
    Safe F (f :: l) (fgRunBy (fittingOp m) n (d + 3) .EditFileWithFormat [.str f, .str script, .str format]) (fun o => ∃ e, o = .ret [fgError e]) l := by
  have sub : ∀ q ∈ l, q ∈ f :: l := fun q hq => List.mem_cons_of_mem _ hq
  rw [lkRun_succ _ _ _ rfl]
  simp only [FgFn.body, fgEditFileWithFormat]
  lk [lk_readFile]
  refine safe_read (List.mem_cons_self ..) (fun c hc => ?_) fun e => ?_
  · lk [fgRead, lk_ExecuteScriptWithFormat c script format (hf c hc)]
    cases executeScriptWithFormat c script format with
    | err e => lk [fgRes]; exact safe_ret sub ⟨some _, rfl⟩
    | panic => lk [fgRes]; exact safe_panic
    | ok t =>
      lk [fgRes, lk_writeFile]
      refine safe_write l sub hfl fun r => ?_
      cases r <;> lk [fgWrote]
      · exact safe_ret (fun _ h => h) ⟨some _, rfl⟩
      · exact safe_ret (fun _ h => h) ⟨none, rfl⟩
  · lk [fgRead]; exact safe_ret sub ⟨some _, rfl⟩

theorem safe_EditFiles (files : List Bytes) (script : Bytes) (hn : files.Nodup) (hf : ∀ f ∈ files, ∀ c, F f = some c → FitsIn m c script (b! "shell")) :
    Safe F files (fgRunBy (fittingOp m) n (d + 3) .EditFiles [.strs files, .str script]) (fun o => ∃ rs : List EditResult, o = .ret [.results (rs.map fgResult), .nil]) [] := by
  rw [lkRun_succ _ _ _ rfl]
  simp only [FgFn.body, fgEditFiles]
  lk [lkexec_range]
  refine safe_bind (safe_range (S := files) (I := fun st => (∃ rs : List EditResult, st .results = .results (rs.map fgResult)) ∧ st .script = .str script)
    (fun k f l st hi hnd hs => ?_) files 0 _ ?_ hn (fun _ h => h)) fun o ho => ?_
  · obtain ⟨⟨rs, h1⟩, h2⟩ := hi
    lk [h1, h2]
    refine safe_bind (safe_EditFile f script l (List.nodup_cons.1 hnd).1 (hf f (hs f (List.mem_cons_self ..)))) fun o ho => ?_
    obtain ⟨e, rfl⟩ := ho
    cases e with
    | none =>
      lk [h1, h2]
      refine safe_ret (fun _ h => h) ⟨_, .inl rfl, ⟨rs ++ [⟨f, none⟩], ?_⟩, ?_⟩
      · lk [h1, h2]; simp [fgResult, EditResult.success]
      · lk [h1, h2]
    | some e =>
      lk [h1, h2]
      refine safe_ret (fun _ h => h) ⟨_, .inl rfl, ⟨rs ++ [⟨f, some e⟩], ?_⟩, ?_⟩
      · lk [h1, h2]; simp [fgResult, EditResult.success]
      · lk [h1, h2]
  · refine ⟨⟨[], ?_⟩, ?_⟩
    · lk []; rfl
    · lk []
  · obtain ⟨st, rfl, ⟨rs, hi⟩, _⟩ := ho
    lk [hi]
    exact safe_ret (fun _ h => h) ⟨rs, rfl⟩

theorem safe_EditFilesWithFormat (files : List Bytes) (script format : Bytes) (hn : files.Nodup) (hf : ∀ f ∈ files, ∀ c, F f = some c → FitsIn m c script format) :
    Safe F files (fgRunBy (fittingOp m) n (d + 4) .EditFilesWithFormat [.strs files, .str script, .str format])
      (fun o => ∃ rs : List EditResult, o = .ret [.results (rs.map fgResult), .nil]) [] := by
  rw [lkRun_succ _ _ _ rfl]
  simp only [FgFn.body, fgEditFilesWithFormat]
  lk [lkexec_range]
  refine safe_bind (safe_range (S := files)
    (I := fun st => (∃ rs : List EditResult, st .results = .results (rs.map fgResult)) ∧ st .script = .str script ∧ st .format = .str format)
    (fun k f l st hi hnd hs => ?_) files 0 _ ?_ hn (fun _ h => h)) fun o ho => ?_
  · obtain ⟨⟨rs, h1⟩, h2, h3⟩ := hi
    lk [h1, h2, h3]
    refine safe_bind (safe_EditFileWithFormat f script format l (List.nodup_cons.1 hnd).1 (hf f (hs f (List.mem_cons_self ..)))) fun o ho => ?_
    obtain ⟨e, rfl⟩ := ho
    cases e with
    | none =>
      lk [h1, h2, h3]
      refine safe_ret (fun _ h => h) ⟨_, .inl rfl, ⟨rs ++ [⟨f, none⟩], ?_⟩, ?_⟩
      · lk [h1, h2, h3]; simp [fgResult, EditResult.success]
      · lk [h1, h2, h3]
    | some e =>
      lk [h1, h2, h3]
      refine safe_ret (fun _ h => h) ⟨_, .inl rfl, ⟨rs ++ [⟨f, some e⟩], ?_⟩, ?_⟩
      · lk [h1, h2, h3]; simp [fgResult, EditResult.success]
      · lk [h1, h2, h3]
  · refine ⟨⟨[], ?_⟩, ?_, ?_⟩
    · lk []; rfl
    · lk []
    · lk []
  · obtain ⟨st, rfl, ⟨rs, hi⟩, _⟩ := ho
    lk [hi]
    exact safe_ret (fun _ h => h) ⟨rs, rfl⟩

theorem safe_stays {f : FgFn} {args : List FgV} {w : World} {S T : List Bytes} {Q : FgOut → Prop} (n d : Nat)
    (h : Safe w.files S (fgRunBy (fittingOp m) n d f args) Q T) (hq : ¬ Q .spin) : StaysIn m f args w :=
  ⟨n, d, fun w' he => hq (h w (fun _ _ => rfl) _ _ he).1⟩

variable {w : World}

theorem stays_EditFileWithFormat {file script format : Bytes} (h : ∀ c, w.files file = some c → FitsIn m c script format) :
    StaysIn m .EditFileWithFormat [.str file, .str script, .str format] w :=
  safe_stays 0 3 (safe_EditFileWithFormat (d := 0) file script format [] (by simp) h) (fun ⟨_, h⟩ => nomatch h)

theorem stays_EditFiles {files : List Bytes} {script : Bytes} (hn : files.Nodup) (hf : ∀ f ∈ files, ∀ c, w.files f = some c → FitsIn m c script (b! "shell")) :
    StaysIn m .EditFiles [.strs files, .str script] w :=
  safe_stays 0 3 (safe_EditFiles (d := 0) files script hn hf) (fun ⟨_, h⟩ => nomatch h)

theorem stays_EditFilesWithFormat {files : List Bytes} {script format : Bytes} (hn : files.Nodup)
    (hf : ∀ f ∈ files, ∀ c, w.files f = some c → FitsIn m c script format) :
    StaysIn m .EditFilesWithFormat [.strs files, .str script, .str format] w :=
  safe_stays 0 4 (safe_EditFilesWithFormat (d := 0) files script format hn hf) (fun ⟨_, h⟩ => nomatch h)

theorem lk_sexpWriteValue (w : FgV) (s : Bytes) (v : Value) :
    fgRunBy (fittingOp m) n (d + 1) .sexpWriteValue [w, .builder s, .val v] = .ret (.ret [.nil, .builder (s ++ v.toStr)]) := by
  rw [lkRun_succ _ _ _ rfl]
  simp only [FgFn.body, fgSexpWriteValue]
  lk []

theorem lk_anyWriteValue_sexp (s : Bytes) (v : Value) :
    fgRunBy (fittingOp m) n (d + 2) .anyWriteValue [.writer .sexp, .builder s, .val v] = .ret (.ret [.nil, .builder (s ++ v.toStr)]) := by
  rw [lkRun_succ _ _ _ rfl]
  simp only [FgFn.body, fgAnyWriteValue]
  lk [lk_sexpWriteValue]

theorem stays_TextedEvalHandler (ctx : FgV) (args : Json)
    (h : ∀ input script, requireString args (b! "input") = .ok input → requireString args (b! "script") = .ok script → FitsIn m input script (b! "shell")) :
    StaysIn m .TextedEvalHandler [ctx, .request args] w := by
  refine ⟨0, 3, ?_⟩
  change Calm _ w
  rw [lkRun_succ _ _ _ rfl]
  simp only [FgFn.body, fgTextedEvalHandler]
  lk []
  cases hi : requireString args (b! "input") with
  | error e => lk []; exact calm_ret (fun h => nomatch h)
  | ok input =>
    lk []
    cases hs : requireString args (b! "script") with
    | error e => lk []; exact calm_ret (fun h => nomatch h)
    | ok script =>
      have ft := h _ _ hi hs
      have ht : m.text script = true := by have := ft.1; rwa [if_neg (by decide)] at this
      have hr : ∀ p, parseString script = .ok p → m.run p (newBuffer input) = true := fun p hp => ft.2 p (by rw [parseScript, if_neg (by decide)]; exact hp)
      lk []
      by_cases o1 : getString args (b! "output") (b! "buffer") = b! "buffer"
      · lk [o1, ne_eq, not_true_eq_false, false_and, lk_ExecuteScript _ _ ft]
        cases executeScript input script <;> lk [fgRes]
        · exact calm_ret (fun h => nomatch h)
        · exact calm_ret (fun h => nomatch h)
        · exact calm_panic
      · by_cases o2 : getString args (b! "output") (b! "buffer") = b! "expression"
        · lk [o2, ne_eq, not_true_eq_false, and_false, show ((b! "expression") = (b! "buffer")) = False by decide, ht, fitting_true]
          cases hp : parseString script with
          | err e => lk []; exact calm_ret (fun h => nomatch h)
          | panic => lk []; exact calm_panic
          | ok p =>
            lk [hr p hp, fitting_true]
            rcases eval defaultEnv p (newBuffer input) with ⟨r, b⟩
            cases r <;> lk [lk_anyWriteValue_sexp]
            · exact calm_ret (fun h => nomatch h)
            · exact calm_ret (fun h => nomatch h)
            · exact calm_panic
        · lk [o1, o2, ne_eq, not_false_eq_true, and_true]; exact calm_ret (fun h => nomatch h)

end
end Texted
