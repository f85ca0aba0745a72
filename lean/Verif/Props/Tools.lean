import Verif.Props.Files
import Verif.Props.Search
import Verif.Props.Commands
import Verif.Props.Frame
import Verif.Props.Syntax
import Verif.Props.Evaluator
import Verif.Spec.Tools
/-
C45 edit_file and its loop, C46 texted_eval.
-/
namespace Texted
open Spec

section
variable [Ext]

omit [Ext] in
theorem any_failed (rs : List EditResult) : (rs.any fun r => !r.success) = true ↔ ∃ r ∈ rs, r.error ≠ none := by
  simp only [List.any_eq_true, EditResult.success, Bool.not_eq_true', Option.isNone_eq_false_iff, Option.isSome_iff_ne_none]

theorem loop_ends (files : List Bytes) (script : Bytes) (n : Nat) : ∀ (i : Nat) (w w' : World) (r : Option (List EditResult × Nat)),
    Ends (editFilesWithLoop files script n i) w r w' ↔
      (r = none ∧ Rounds files script n w w') ∨
      ∃ k w1 rs, k < n ∧ Rounds files script k w w1 ∧ Ends (editFiles files script) w1 rs w' ∧ (∃ x ∈ rs, x.error ≠ none) ∧ r = some (rs, i + k + 1) := by
  induction n with
  | zero =>
    intro i w w' r
    rw [editFilesWithLoop, ends_ret]
    constructor
    · rintro ⟨rfl, rfl⟩; exact Or.inl ⟨rfl, .none _⟩
    · rintro (⟨rfl, h⟩ | ⟨k, _, _, h, _⟩)
      · cases h; exact ⟨rfl, rfl⟩
      · omega
  | succ n ih =>
    intro i w w' r
    rw [editFilesWithLoop, ends_bind]
    constructor
    · rintro ⟨rs, w1, h1, h2⟩
      split at h2
      · rename_i hf
        obtain ⟨rfl, rfl⟩ := ends_ret.1 h2
        exact Or.inr ⟨0, w, rs, by omega, .none _, h1, (any_failed rs).1 hf, rfl⟩
      · rename_i hf
        have hok : ∀ r ∈ rs, r.error = none := by
          intro r hr
          refine Classical.byContradiction fun hne => hf ((any_failed rs).2 ⟨r, hr, hne⟩)
        rcases (ih (i + 1) w1 w' r).1 h2 with ⟨rfl, h⟩ | ⟨k, w2, rs', hk, h3, h4, h5, rfl⟩
        · exact Or.inl ⟨rfl, .more h1 hok h⟩
        · refine Or.inr ⟨k + 1, w2, rs', by omega, .more h1 hok h3, h4, h5, ?_⟩
          rw [show i + 1 + k + 1 = i + (k + 1) + 1 by omega]
    · have later : ∀ {rs : List EditResult} {w1 : World}, Ends (editFiles files script) w rs w1 → (∀ r ∈ rs, r.error = none) →
          Ends (editFilesWithLoop files script n (i + 1)) w1 r w' →
          ∃ rs w1, Ends (editFiles files script) w rs w1 ∧
            Ends (if (rs.any fun r => !r.success) = true then Proc.ret (some (rs, i + 1)) else editFilesWithLoop files script n (i + 1)) w1 r w' := by
        intro rs w1 h1 hok h
        refine ⟨rs, w1, h1, ?_⟩
        rw [if_neg (fun hf => by obtain ⟨x, hx, hne⟩ := (any_failed rs).1 hf; exact hne (hok x hx))]
        exact h
      rintro (⟨rfl, h⟩ | ⟨k, w2, rs, hk, h3, h4, h5, rfl⟩)
      · cases h with
        | more h1 hok h => exact later h1 hok ((ih _ _ _ _).2 (Or.inl ⟨rfl, h⟩))
      · cases h3 with
        | none => exact ⟨rs, w', h4, by rw [if_pos ((any_failed rs).2 h5)]; exact ends_ret.2 ⟨rfl, rfl⟩⟩
        | more h1 hok h =>
          rename_i k' _ _
          refine later h1 hok ((ih _ _ _ _).2 (Or.inr ⟨k', w2, rs, by omega, h, h4, h5, ?_⟩))
          rw [show i + 1 + k' + 1 = i + (k' + 1) + 1 by omega]

/-- C45. With loopUntilError, edit_file answers exactly when, after some number `k` of rounds in which every file was edited, there is a
round in which some file could not be edited; it then answers at once with that round's number and results. -/
theorem C45_stops_at_first_failing_round (script : Bytes) (files : List Bytes) (hne : files ≠ []) (w w' : World) (res : ToolResult) :
    (∃ fuel, Ends (editFileHandler fuel { script := .ok script, files := .ok files, loopUntilError := true }) w (some res) w') ↔
      ∃ k w1 rs, Rounds files script k w w1 ∧ Ends (editFiles files script) w1 rs w' ∧ (∃ x ∈ rs, x.error ≠ none) ∧
        res = .text (b! "Completed with errors after " ++ natDec (k + 1) ++ b! " iterations:\n" ++ reportLines rs) := by
  have he : files.isEmpty = false := by cases files with | nil => exact absurd rfl hne | cons => rfl
  have hrep : ∀ (rs : List EditResult) (k : Nat), (∃ x ∈ rs, x.error ≠ none) → editReport rs k =
      b! "Completed with errors after " ++ natDec k ++ b! " iterations:\n" ++ reportLines rs := by
    intro rs k h; rw [editReport, if_pos ((any_failed rs).2 h)]
  constructor
  · rintro ⟨fuel, h⟩
    simp only [editFileHandler, he, Bool.false_eq_true, if_false, if_true] at h
    obtain ⟨r, w2, h1, h2⟩ := ends_bind.1 h
    rcases (loop_ends files script fuel 0 w w2 r).1 h1 with ⟨rfl, _⟩ | ⟨k, w1, rs, hk, h3, h4, h5, rfl⟩
    · exact absurd (ends_ret.1 h2).1 (by simp)
    · obtain ⟨h6, rfl⟩ := ends_ret.1 h2
      cases h6
      exact ⟨k, w1, rs, h3, h4, h5, by rw [hrep _ _ h5, Nat.zero_add]⟩
  · rintro ⟨k, w1, rs, h3, h4, h5, rfl⟩
    refine ⟨k + 1, ?_⟩
    simp only [editFileHandler, he, Bool.false_eq_true, if_false, if_true]
    refine ends_bind.2 ⟨some (rs, 0 + k + 1), w', (loop_ends _ _ _ _ _ _ _).2 (Or.inr ⟨k, w1, rs, by omega, h3, h4, h5, rfl⟩), ends_ret.2 ⟨?_, rfl⟩⟩
    rw [hrep _ _ h5, Nat.zero_add]

/-- C45. It is still looping after `fuel` rounds exactly when all of them edited every file. -/
theorem C45_still_running (fuel : Nat) (script : Bytes) (files : List Bytes) (hne : files ≠ []) (w w' : World) :
    Ends (editFileHandler fuel { script := .ok script, files := .ok files, loopUntilError := true }) w none w' ↔ Rounds files script fuel w w' := by
  have he : files.isEmpty = false := by cases files with | nil => exact absurd rfl hne | cons => rfl
  simp only [editFileHandler, he, Bool.false_eq_true, if_false, if_true]
  constructor
  · intro h
    obtain ⟨r, w2, h1, h2⟩ := ends_bind.1 h
    rcases (loop_ends files script fuel 0 w w2 r).1 h1 with ⟨rfl, h3⟩ | ⟨k, w1, rs, hk, h3, h4, h5, rfl⟩
    · obtain ⟨_, rfl⟩ := ends_ret.1 h2; exact h3
    · exact absurd (ends_ret.1 h2).1 (by simp)
  · intro h
    exact ends_bind.2 ⟨none, w', (loop_ends _ _ _ _ _ _ _).2 (Or.inl ⟨rfl, h⟩), ends_ret.2 ⟨rfl, rfl⟩⟩

/-- C45. Without the loop there is exactly one round, and its results are reported. -/
theorem C45_once (fuel : Nat) (script : Bytes) (files : List Bytes) (hne : files ≠ []) (w w' : World) (res : Option ToolResult) :
    Ends (editFileHandler fuel { script := .ok script, files := .ok files, loopUntilError := false }) w res w' ↔
      ∃ rs, Ends (editFiles files script) w rs w' ∧
        res = some (.text ((if ∀ r ∈ rs, r.error = none then b! "All files edited successfully after 1 iterations:\n"
          else b! "Completed with errors after 1 iterations:\n") ++ reportLines rs)) := by
  have he : files.isEmpty = false := by cases files with | nil => exact absurd rfl hne | cons => rfl
  have hrep : ∀ rs : List EditResult, editReport rs 1 = (if ∀ r ∈ rs, r.error = none then b! "All files edited successfully after 1 iterations:\n"
      else b! "Completed with errors after 1 iterations:\n") ++ reportLines rs := by
    intro rs
    unfold editReport
    by_cases h : ∀ r ∈ rs, r.error = none
    · rw [if_pos h, if_neg (fun hf => by obtain ⟨x, hx, hne⟩ := (any_failed rs).1 hf; exact hne (h x hx))]; rfl
    · rw [if_neg h, if_pos]
      · rfl
      · refine (any_failed rs).2 (Classical.byContradiction fun hn => h fun r hr => ?_)
        exact Classical.byContradiction fun hx => hn ⟨r, hr, hx⟩
  simp only [editFileHandler, he, Bool.false_eq_true, if_false]
  rw [ends_bind]
  constructor
  · rintro ⟨rs, w1, h1, h2⟩
    obtain ⟨rfl, rfl⟩ := ends_ret.1 h2
    exact ⟨rs, h1, by rw [hrep]⟩
  · rintro ⟨rs, h1, rfl⟩
    exact ⟨rs, w', h1, ends_ret.2 ⟨by rw [hrep], rfl⟩⟩

omit [Ext] in
/-- C45. The report has one line for each named file: first the edited files, then the others with their errors, both in the order
given. -/
theorem C45_report (rs : List EditResult) :
    reportLines rs =
      ((rs.filter (·.error.isNone)).flatMap fun r => b! "✓ Successfully edited " ++ r.filename ++ [nl]) ++
      ((rs.filter (·.error.isSome)).flatMap fun r => b! "✗ Failed to edit " ++ r.filename ++ b! ": " ++ r.error.getD [] ++ [nl]) := by
  unfold reportLines
  congr 1
  · induction rs with
    | nil => rfl
    | cons r rs ih =>
      rw [List.flatMap_cons, ih]
      cases h : r.error with
      | none => simp [h, successLine]
      | some e => simp [h]
  · induction rs with
    | nil => rfl
    | cons r rs ih =>
      rw [List.flatMap_cons, ih]
      cases h : r.error with
      | none => simp [h]
      | some e => simp [h, failureLine]

/-- C45. A request without script, without files or with an empty list of files is refused and nothing is touched. -/
theorem C45_refusals (fuel : Nat) (req : EditFileRequest) (h : (∃ e, req.script = .error e) ∨ (∃ e, req.files = .error e) ∨ req.files = .ok []) :
    ∃ e, editFileHandler fuel req = .ret (some (.error e)) := by
  unfold editFileHandler
  cases hs : req.script with
  | error e => exact ⟨_, rfl⟩
  | ok s =>
    rcases h with ⟨e, h⟩ | ⟨e, h⟩ | h
    · rw [hs] at h; cases h
    · rw [h]; exact ⟨_, rfl⟩
    · rw [h]; exact ⟨_, rfl⟩

/-! ### When nothing but the script fails -/

theorem editFiles_all_ok (missing : Bytes → Bytes) (script : Bytes) (P : Bytes → Prop)
    (hP : ∀ c, P c → ∃ t, executeScript c script = .ok t ∧ P t) (files : List Bytes) :
    ∀ (w : World), (∀ f ∈ files, ∃ c, w.files f = some c ∧ P c) →
    ∃ rs w', runOk missing (editFiles files script) w = (some rs, w') ∧ (∀ r ∈ rs, r.error = none) ∧
      (∀ q c, w.files q = some c → P c → ∃ c', w'.files q = some c' ∧ P c') := by
  induction files with
  | nil => intro w _; exact ⟨[], w, rfl, by simp, fun q c h hp => ⟨c, h, hp⟩⟩
  | cons f fs ih =>
    intro w hin
    obtain ⟨c, hc, hp⟩ := hin f List.mem_cons_self
    obtain ⟨t, ht, hpt⟩ := hP c hp
    have hkeep : ∀ q c, w.files q = some c → P c → ∃ c', (w.put f t).files q = some c' ∧ P c' := by
      intro q c' h h'
      by_cases hq : q = f
      · subst hq; exact ⟨t, World.put_same _ _ _, hpt⟩
      · exact ⟨c', by rw [World.put_other _ _ _ _ hq]; exact h, h'⟩
    have hnext : ∀ g ∈ fs, ∃ c, (w.put f t).files g = some c ∧ P c := by
      intro g hg
      obtain ⟨c', h4, h5⟩ := hin g (List.mem_cons_of_mem _ hg)
      exact hkeep g c' h4 h5
    obtain ⟨rs, w', h1, h2, h3⟩ := ih (w.put f t) hnext
    · refine ⟨⟨f, none⟩ :: rs, w', ?_, ?_, ?_⟩
      · rw [editFiles, editFilesBy, runOk_bind, C29_success_happens missing f script c t w hc ht]
        simp only
        rw [runOk_bind]
        rw [editFiles] at h1
        rw [h1]; rfl
      · intro r hr
        rcases List.mem_cons.1 hr with rfl | hr
        · rfl
        · exact h2 r hr
      · intro q c' h h'
        obtain ⟨c2, h4, h5⟩ := hkeep q c' h h'
        exact h3 q c2 h4 h5

/-- C45, the danger: if the script succeeds on every text it can meet (`P` holds of the files' contents, and from a text with `P` the
script leads to a text with `P`) and no file operation fails, edit_file with loopUntilError never answers. -/
theorem C45_never_answers (missing : Bytes → Bytes) (script : Bytes) (files : List Bytes) (hne : files ≠ []) (P : Bytes → Prop)
    (hP : ∀ c, P c → ∃ t, executeScript c script = .ok t ∧ P t) (w : World) (hin : ∀ f ∈ files, ∃ c, w.files f = some c ∧ P c) (fuel : Nat) :
    (runOk missing (editFileHandler fuel { script := .ok script, files := .ok files, loopUntilError := true }) w).1 = some none := by
  have he : files.isEmpty = false := by cases files with | nil => exact absurd rfl hne | cons => rfl
  simp only [editFileHandler, he, Bool.false_eq_true, if_false, if_true]
  have key : ∀ (n i : Nat) (w : World), (∀ f ∈ files, ∃ c, w.files f = some c ∧ P c) →
      ∃ w', runOk missing (editFilesWithLoop files script n i) w = (some none, w') := by
    intro n
    induction n with
    | zero => intro i w _; exact ⟨w, rfl⟩
    | succ n ih =>
      intro i w hin
      obtain ⟨rs, w1, h1, h2, h3⟩ := editFiles_all_ok missing script P hP files w hin
      obtain ⟨w', hw'⟩ := ih (i + 1) w1 fun f hf => by
        obtain ⟨c, h4, h5⟩ := hin f hf; exact h3 f c h4 h5
      refine ⟨w', ?_⟩
      rw [editFilesWithLoop, runOk_bind, h1]
      simp only
      rw [if_neg (fun hf => by obtain ⟨x, hx, hne⟩ := (any_failed rs).1 hf; exact hne (h2 x hx))]
      exact hw'
  obtain ⟨w', h⟩ := key fuel 0 w hin
  rw [runOk_bind, h]; rfl

theorem round_one (missing : Bytes → Bytes) (f script c : Bytes) (w : World) (hc : w.files f = some c) :
    runOk missing (editFiles [f] script) w = match executeScript c script with
      | .ok t => (some [⟨f, none⟩], w.put f t)
      | .err e => (some [⟨f, some e⟩], w)
      | .panic => (none, w) := by
  rw [editFiles, editFilesBy, runOk_bind]
  cases hx : executeScript c script with
  | ok t => rw [C29_success_happens missing f script c t w hc hx]; rfl
  | err e =>
    have : runOk missing (editFile f script) w = (some (some e), w) := by
      rw [editFile, editFileBy, runOk, hc]; simp only [hx]; rfl
    rw [this]; rfl
  | panic =>
    have : runOk missing (editFile f script) w = (none, w) := by
      rw [editFile, editFileBy, runOk, hc]; simp only [hx]; rfl
    rw [this]

theorem loop_one (missing : Bytes → Bytes) (f script : Bytes) (n : Nat) : ∀ (i : Nat) (c : Bytes) (w w' : World) (rs : List EditResult) (k' : Nat),
    w.files f = some c →
    (runOk missing (editFilesWithLoop [f] script n i) w = (some (some (rs, k')), w') ↔
      ∃ k t e, k < n ∧ Repeated script k c t ∧ executeScript t script = .err e ∧ w' = w.put f t ∧ rs = [⟨f, some e⟩] ∧ k' = i + k + 1) := by
  induction n with
  | zero =>
    intro i c w w' rs k' _
    simp only [editFilesWithLoop, runOk, Prod.mk.injEq, Option.some.injEq, reduceCtorEq, false_and, false_iff]
    rintro ⟨k, _, _, h, _⟩; omega
  | succ n ih =>
    intro i c w w' rs k' hc
    rw [editFilesWithLoop, runOk_bind, round_one missing f script c w hc]
    cases hx : executeScript c script with
    | panic =>
      simp only [Prod.mk.injEq, reduceCtorEq, false_and, false_iff]
      rintro ⟨k, t, e, hk, h1, h2, _⟩
      cases h1 with
      | zero => rw [hx] at h2; cases h2
      | succ h _ => rw [hx] at h; cases h
    | err e =>
      have hif : (if ([⟨f, some e⟩] : List EditResult).any (fun r => !r.success) = true
          then Proc.ret (some ([(⟨f, some e⟩ : EditResult)], i + 1)) else editFilesWithLoop [f] script n (i + 1)) =
          Proc.ret (some ([⟨f, some e⟩], i + 1)) := if_pos rfl
      simp only [hif, runOk, Prod.mk.injEq, Option.some.injEq]
      constructor
      · rintro ⟨⟨rfl, rfl⟩, rfl⟩
        exact ⟨0, c, e, by omega, .zero _, hx, (put_self hc).symm, rfl, rfl⟩
      · rintro ⟨k, t, e', hk, h1, h2, rfl, rfl, rfl⟩
        cases h1 with
        | zero => rw [hx] at h2; cases h2; exact ⟨⟨rfl, rfl⟩, (put_self hc).symm⟩
        | succ h _ => rw [hx] at h; cases h
    | ok t1 =>
      have hif : (if ([⟨f, none⟩] : List EditResult).any (fun r => !r.success) = true
          then Proc.ret (some ([(⟨f, none⟩ : EditResult)], i + 1)) else editFilesWithLoop [f] script n (i + 1)) =
          editFilesWithLoop [f] script n (i + 1) := if_neg (by simp [EditResult.success])
      simp only [hif]
      rw [ih (i + 1) t1 (w.put f t1) w' rs k' (World.put_same _ _ _)]
      constructor
      · rintro ⟨k, t, e, hk, h1, h2, rfl, rfl, rfl⟩
        exact ⟨k + 1, t, e, by omega, .succ hx h1, h2, World.put_put _ _ _ _, rfl, by omega⟩
      · rintro ⟨k, t, e, hk, h1, h2, rfl, rfl, rfl⟩
        cases h1 with
        | zero => rw [hx] at h2; cases h2
        | succ h h3 =>
          rw [hx] at h; cases h
          exact ⟨_, t, e, by omega, h3, h2, (World.put_put _ _ _ _).symm, rfl, by omega⟩

/-- C45. One file, no file operation failing: edit_file with loopUntilError answers exactly when running the script over and over on its
own output fails at some point; the file then holds the last text that was produced, and the answer has the number of the failing
round and its error. -/
theorem C45_one_file (missing : Bytes → Bytes) (f script c : Bytes) (w w' : World) (hc : w.files f = some c) (res : ToolResult) :
    (∃ fuel, runOk missing (editFileHandler fuel { script := .ok script, files := .ok [f], loopUntilError := true }) w = (some (some res), w')) ↔
      ∃ k t e, Repeated script k c t ∧ executeScript t script = .err e ∧ w' = w.put f t ∧
        res = .text (b! "Completed with errors after " ++ natDec (k + 1) ++ b! " iterations:\n✗ Failed to edit " ++ f ++ b! ": " ++ e ++ [nl]) := by
  have hrep : ∀ (e : Bytes) (k : Nat), editReport [⟨f, some e⟩] k =
      b! "Completed with errors after " ++ natDec k ++ b! " iterations:\n✗ Failed to edit " ++ f ++ b! ": " ++ e ++ [nl] := by
    intro e k
    have : b! " iterations:\n✗ Failed to edit " = b! " iterations:\n" ++ b! "✗ Failed to edit " := by decide
    rw [this]
    simp [editReport, EditResult.success, reportLines, failureLine]
  have hun : ∀ fuel, editFileHandler fuel { script := .ok script, files := .ok [f], loopUntilError := true } =
      (editFilesWithLoop [f] script fuel 0).bind fun r =>
          match r with
          | none => .ret none
          | some (results, iterations) => .ret (some (.text (editReport results iterations))) := fun _ => rfl
  constructor
  · rintro ⟨fuel, h⟩
    rw [hun, runOk_bind] at h
    rcases hl : runOk missing (editFilesWithLoop [f] script fuel 0) w with ⟨r, w1⟩
    rw [hl] at h
    cases r with
    | none => cases h
    | some r =>
      cases r with
      | none => cases h
      | some r =>
        obtain ⟨rs, k'⟩ := r
        obtain ⟨k, t, e, _, h1, h2, rfl, rfl, rfl⟩ := (loop_one missing f script fuel 0 c w w1 rs k' hc).1 hl
        simp only [runOk, Prod.mk.injEq, Option.some.injEq] at h
        obtain ⟨rfl, rfl⟩ := h
        exact ⟨k, t, e, h1, h2, rfl, by rw [hrep, Nat.zero_add]⟩
  · rintro ⟨k, t, e, h1, h2, rfl, rfl⟩
    refine ⟨k + 1, ?_⟩
    rw [hun, runOk_bind, (loop_one missing f script (k + 1) 0 c w _ _ (0 + k + 1) hc).2 ⟨k, t, e, by omega, h1, h2, rfl, rfl, rfl⟩]
    simp only [runOk, hrep, Nat.zero_add]

/-! ### The loop as replace-all -/

/-- `search-forward "p"` and `replace-match "r"`, on a line each, as the shell writer writes them. -/
def replaceOnce (p r : Bytes) : Bytes := b! "search-forward " ++ quote p ++ [nl] ++ b! "replace-match " ++ quote r ++ [nl]

/-- The program. -/
def replaceProgram (p r : Bytes) : List Value :=
  [.list [.sym b! "search-forward", .str p], .list [.sym b! "replace-match", .str r]]

omit [Ext] in
theorem plainName_search : PlainName (b! "search-forward") :=
  ⟨"search-forward".toList, by decide, by decide, by unfold nameChar; decide, by decide +kernel⟩
omit [Ext] in
theorem plainName_replace : PlainName (b! "replace-match") :=
  ⟨"replace-match".toList, by decide, by decide, by unfold nameChar; decide, by decide +kernel⟩

theorem parse_replaceOnce (p r : Bytes) (hp : (quote p).length < 60000) (hr : (quote r).length < 60000) :
    parseString (replaceOnce p r) = .ok (replaceProgram p r) := by
  have h := (C36_shell_roundtrip (replaceProgram p r) ?_ ?_ ?_).2
  · have he : (writeShell (replaceProgram p r)).out = replaceOnce p r := by
      simp [replaceProgram, replaceOnce, writeShell, shellString, shellTokens, shellToken, joinWith]
    rwa [he] at h
  · exact ⟨⟨plainName_search, trivial, trivial⟩, ⟨plainName_replace, trivial, trivial⟩, trivial⟩
  · intro v hv
    simp only [replaceProgram, List.mem_cons, List.not_mem_nil, or_false] at hv
    rcases hv with rfl | rfl
    · refine ⟨by simp, ?_⟩; intro v hv; simp only [List.mem_cons, List.not_mem_nil, or_false] at hv; rcases hv with rfl | rfl <;> trivial
    · refine ⟨by simp, ?_⟩; intro v hv; simp only [List.mem_cons, List.not_mem_nil, or_false] at hv; rcases hv with rfl | rfl <;> trivial
  · intro v hv
    simp only [replaceProgram, List.mem_cons, List.not_mem_nil, or_false] at hv
    rcases hv with rfl | rfl
    · simp only [Value.toStr, Value.toStrs, List.length_append, List.length_cons, List.length_nil]; omega
    · simp only [Value.toStr, Value.toStrs, List.length_append, List.length_cons, List.length_nil]; omega

theorem evalExpr_search (s : Bytes) (b : Buffer) :
    evalExpr defaultEnv (.list [.sym b! "search-forward", .str s]) b = call b! "search-forward" [.str s] b := rfl
theorem evalExpr_replace (s : Bytes) (b : Buffer) :
    evalExpr defaultEnv (.list [.sym b! "replace-match", .str s]) b = call b! "replace-match" [.str s] b := rfl

/-- One run of the script: the first occurrence is replaced. -/
theorem replaceOnce_found (p r u v : Bytes) (hp : (quote p).length < 60000) (hr : (quote r).length < 60000) (hne : p ≠ [])
    (hmin : ∀ j, j < u.length → ¬ OccursAt p (u ++ p ++ v) j) : executeScript (u ++ p ++ v) (replaceOnce p r) = .ok (u ++ r ++ v) := by
  have hlen : 0 < p.length := List.length_pos_iff.2 hne
  refine (C28_success _ _ _).2 ?_
  have h1 : call b! "search-forward" [.str p] (newBuffer (u ++ p ++ v)) = (okEmpty, (newBuffer (u ++ p ++ v)).matched u.length p) := by
    refine C06_search_forward_success _ _ (show minInt < (1 : Int) by decide) u.length ?_ ?_ ⟨u, v, rfl, rfl⟩ ?_
    · simp [newBuffer]; omega
    · simp [newBuffer]
    · intro j _ hj; exact hmin j hj
  have hv : MatchValid ((newBuffer (u ++ p ++ v)).matched u.length p) := ⟨u, v, rfl, rfl, rfl⟩
  obtain ⟨u', v', he, hs, h2⟩ := C08_replace_valid_match ((newBuffer (u ++ p ++ v)).matched u.length p) r hv hne
  simp only [Buffer.matched, newBuffer] at he hs
  have hu : u' = u := by
    have hl : u'.length = u.length := by omega
    have := congrArg (List.take u.length) he
    rw [List.append_assoc, List.append_assoc, List.take_left' rfl, List.take_left' hl] at this
    exact this.symm
  subst hu
  have hv' : v' = v := by
    rw [List.append_cancel_left_eq] at he
    exact he.symm
  subst hv'
  generalize hb : (newBuffer (u' ++ p ++ v')).matched u'.length p = b1 at h1 h2
  generalize hb2 : ({ b1 with content := u' ++ r ++ v', point := u'.length + r.length + 1 } : Buffer) = b2 at h2
  refine ⟨replaceProgram p r, .str [], b2, parse_replaceOnce p r hp hr, ?_, by rw [← hb2]⟩
  · rw [replaceProgram, show ([.list [.sym b! "search-forward", .str p], .list [.sym b! "replace-match", .str r]] : List Value) =
      [.list [.sym b! "search-forward", .str p]] ++ [.list [.sym b! "replace-match", .str r]] from rfl]
    rw [C25_success]
    refine ⟨.str [], b1, ?_, (C26_big_step _ _ _ _ _).1 ?_⟩
    · rw [eval_single, evalExpr_search, h1]; rfl
    · rw [evalExpr_replace, h2]; rfl

/-- One run of the script where nothing is left to replace. -/
theorem replaceOnce_absent (p r c : Bytes) (hp : (quote p).length < 60000) (hr : (quote r).length < 60000)
    (hno : ∀ j, ¬ OccursAt p c j) : ∃ e, executeScript c (replaceOnce p r) = .err e := by
  have h1 : call b! "search-forward" [.str p] (newBuffer c) = (.err b! "search failed", newBuffer c) :=
    C06_search_forward_failure _ _ (show minInt < (1 : Int) by decide) (Or.inr fun j _ => hno j)
  have h2 : ∃ x b, eval defaultEnv (replaceProgram p r) (newBuffer c) = (.err x, b) := by
    rw [replaceProgram, show ([.list [.sym b! "search-forward", .str p], .list [.sym b! "replace-match", .str r]] : List Value) =
      [.list [.sym b! "search-forward", .str p]] ++ [.list [.sym b! "replace-match", .str r]] from rfl]
    rw [C25_sequential _ _ _ (by simp), eval_single, evalExpr_search, h1]
    exact ⟨_, _, rfl⟩
  obtain ⟨x, b, h2⟩ := h2
  exact ⟨_, (C28_failure _ _ _).2 (Or.inr ⟨_, x, b, parse_replaceOnce p r hp hr, h2, rfl⟩)⟩

omit [Ext] in
theorem occursAt_byte (x : UInt8) (c : Bytes) (j : Nat) : OccursAt [x] c j → x ∈ c := by
  rintro ⟨u, v, rfl, _⟩; simp

omit [Ext] in
theorem replaceByte_append (x : UInt8) (r s t : Bytes) : replaceByte x r (s ++ t) = replaceByte x r s ++ replaceByte x r t := List.flatMap_append ..

omit [Ext] in
theorem replaceByte_absent (x : UInt8) (r s : Bytes) (h : x ∉ s) : replaceByte x r s = s := by
  induction s with
  | nil => rfl
  | cons c s ih =>
    simp only [List.mem_cons, not_or] at h
    have := ih h.2
    simp only [replaceByte] at this ⊢
    rw [List.flatMap_cons, if_neg (fun hc => h.1 hc.symm), this]; rfl

theorem repeated_replace (x : UInt8) (r : Bytes) (hp : (quote [x]).length < 60000) (hr : (quote r).length < 60000) (hx : x ∉ r) (n : Nat) :
    ∀ c : Bytes, c.count x = n → Repeated (replaceOnce [x] r) n c (replaceByte x r c) := by
  induction n with
  | zero =>
    intro c hc
    rw [replaceByte_absent x r c (List.count_eq_zero.1 hc)]
    exact .zero _
  | succ n ih =>
    intro c hc
    have hmem : x ∈ c := List.count_pos_iff.1 (by omega)
    obtain ⟨u, v, rfl, hu⟩ := List.eq_append_cons_of_mem hmem
    have hcu : u.count x = 0 := List.count_eq_zero.2 hu
    have hround := replaceOnce_found [x] r u v hp hr (by simp) (by
      intro j hj ⟨u1, v1, he, hl⟩
      have := congrArg (fun l => l[j]?) he
      simp only [List.append_assoc] at this
      rw [List.getElem?_append_left hj, List.getElem?_append_right (by omega), hl, Nat.sub_self] at this
      simp only [List.cons_append, List.nil_append, List.getElem?_cons_zero] at this
      exact hu (List.mem_of_getElem? this))
    have hr0 : r.count x = 0 := List.count_eq_zero.2 hx
    have hnext := ih (u ++ r ++ v) (by simp only [List.count_append, List.count_cons] at hc ⊢; simp at hc; omega)
    have hsame : replaceByte x r (u ++ r ++ v) = replaceByte x r (u ++ x :: v) := by
      rw [replaceByte_append, replaceByte_append, replaceByte_append, replaceByte_absent x r r hx]
      simp [replaceByte]
    rw [hsame] at hnext
    refine .succ ?_ hnext
    rw [show u ++ x :: v = u ++ [x] ++ v by simp]
    exact hround

/-- C45. What the loop is for: with the script `search-forward "x"; replace-match "r"` (`x` a single byte not occurring in `r`), edit_file
with loopUntilError replaces every `x` of the file by `r`, and answers in the round after the last replacement. For every file. -/
theorem C45_replace_all (missing : Bytes → Bytes) (f c : Bytes) (x : UInt8) (r : Bytes) (hp : (quote [x]).length < 60000)
    (hr : (quote r).length < 60000) (hx : x ∉ r) (w : World) (hc : w.files f = some c) :
    ∃ fuel e, runOk missing (editFileHandler fuel { script := .ok (replaceOnce [x] r), files := .ok [f], loopUntilError := true }) w =
      (some (some (.text (b! "Completed with errors after " ++ natDec (c.count x + 1) ++ b! " iterations:\n✗ Failed to edit " ++ f ++ b! ": " ++ e ++ [nl]))),
        w.put f (replaceByte x r c)) := by
  have hgone : x ∉ replaceByte x r c := by
    intro h
    obtain ⟨y, hy, hm⟩ := List.mem_flatMap.1 h
    split at hm
    · exact hx hm
    · rename_i hne; simp only [List.mem_cons, List.not_mem_nil, or_false] at hm; exact hne hm.symm
  obtain ⟨e, he⟩ := replaceOnce_absent [x] r (replaceByte x r c) hp hr fun j h => hgone (occursAt_byte x _ j h)
  obtain ⟨fuel, h⟩ := (C45_one_file missing f (replaceOnce [x] r) c w _ hc _).2
    ⟨_, _, e, repeated_replace x r hp hr hx _ c rfl, he, rfl, rfl⟩
  exact ⟨fuel, e, h⟩

/-! ### C46 -/

/-- C46. texted_eval changes nothing and prints nothing, at no moment, whatever the request. -/
theorem C46_touches_nothing (req : EvalRequest) (w w' : World) (hs : Sees (textedEvalHandler req) w w') : w' = w := by
  have h : textedEvalHandler req = .panic ∨ ∃ r, textedEvalHandler req = .ret r := by
    unfold textedEvalHandler
    repeat' split
    all_goals first | exact Or.inl rfl | exact Or.inr ⟨_, rfl⟩
  rcases h with h | ⟨r, h⟩
  · rw [h] at hs; exact sees_panic.1 hs
  · rw [h] at hs; exact sees_ret.1 hs

/-- C46. In buffer mode (the default) the answer is a text exactly if the script succeeds, and it is the text the script produces. -/
theorem C46_buffer (input script t : Bytes) (w w' : World) :
    Ends (textedEvalHandler { input := .ok input, script := .ok script }) w (.text t) w' ↔ executeScript input script = .ok t ∧ w' = w := by
  simp only [textedEvalHandler, ne_eq, not_true_eq_false, false_and, if_false, if_true]
  cases executeScript input script with
  | ok t' =>
    rw [ends_ret, ToolResult.text.injEq, Res.ok.injEq]
    exact and_congr_left fun _ => eq_comm
  | err e => simp [ends_ret]
  | panic => simp [ends_panic]

/-- C46. In buffer mode the answer is an error exactly if the script fails, with the script's error. -/
theorem C46_buffer_error (input script m : Bytes) (w w' : World) :
    Ends (textedEvalHandler { input := .ok input, script := .ok script }) w (.error m) w' ↔
      ∃ e, executeScript input script = .err e ∧ m = b! "script execution failed: " ++ e ∧ w' = w := by
  simp only [textedEvalHandler, ne_eq, not_true_eq_false, false_and, if_false, if_true]
  cases executeScript input script with
  | ok t' => simp [ends_ret]
  | err e => simp [ends_ret]
  | panic => simp [ends_panic]

/-- C46. In expression mode the answer is the value of the last instruction of the same run, in S-expression form. -/
theorem C46_expression (input script t : Bytes) (w w' : World) :
    Ends (textedEvalHandler { input := .ok input, script := .ok script, output := b! "expression" }) w (.text t) w' ↔
      ∃ program v b, parseString script = .ok program ∧ eval defaultEnv program (newBuffer input) = (.ok v, b) ∧ t = v.toStr ∧ w' = w := by
  have h1 : (b! "expression" ≠ b! "buffer") := by decide
  simp only [textedEvalHandler, ne_eq, h1, not_true_eq_false, and_false, if_false]
  cases parseString script with
  | err e => simp [ends_ret]
  | panic => simp [ends_panic]
  | ok program =>
    rcases he : eval defaultEnv program (newBuffer input) with ⟨r, b⟩
    cases r with
    | ok v =>
      simp only [he, ends_ret, ToolResult.text.injEq]
      constructor
      · rintro ⟨rfl, rfl⟩; exact ⟨program, v, b, rfl, he, rfl, rfl⟩
      · rintro ⟨_, _, _, ⟨⟩, h3, rfl, rfl⟩; rw [he] at h3; cases h3; exact ⟨rfl, rfl⟩
    | err e =>
      simp only [he, ends_ret, reduceCtorEq, false_and, false_iff]
      rintro ⟨_, _, _, ⟨⟩, h3, _⟩; rw [he] at h3; cases h3
    | panic =>
      simp only [he, ends_panic, false_iff]
      rintro ⟨_, _, _, ⟨⟩, h3, _⟩; rw [he] at h3; cases h3

/-- C46. Both modes succeed on the same inputs and scripts, and fail on the same ones. -/
theorem C46_modes_agree (input script : Bytes) (w : World) :
    ((∃ t, Ends (textedEvalHandler { input := .ok input, script := .ok script }) w (.text t) w) ↔
      ∃ t, Ends (textedEvalHandler { input := .ok input, script := .ok script, output := b! "expression" }) w (.text t) w) ∧
    ((∃ m, Ends (textedEvalHandler { input := .ok input, script := .ok script }) w (.error m) w) ↔
      ∃ m, Ends (textedEvalHandler { input := .ok input, script := .ok script, output := b! "expression" }) w (.error m) w) := by
  constructor
  · constructor
    · rintro ⟨t, h⟩
      obtain ⟨p, v, b, h1, h2, _⟩ := (C28_success _ _ _).1 ((C46_buffer _ _ _ _ _).1 h).1
      exact ⟨_, (C46_expression _ _ _ _ _).2 ⟨p, v, b, h1, h2, rfl, rfl⟩⟩
    · rintro ⟨t, h⟩
      obtain ⟨p, v, b, h1, h2, _⟩ := (C46_expression _ _ _ _ _).1 h
      exact ⟨_, (C46_buffer _ _ _ _ _).2 ⟨(C28_success _ _ _).2 ⟨p, v, b, h1, h2, rfl⟩, rfl⟩⟩
  · have h0 : (b! "expression" ≠ b! "buffer") := by decide
    constructor
    · rintro ⟨m, h⟩
      obtain ⟨e, h1, _⟩ := (C46_buffer_error _ _ _ _ _).1 h
      simp only [textedEvalHandler, ne_eq, h0, not_true_eq_false, and_false, if_false]
      rcases (C28_failure _ _ _).1 h1 with ⟨x, h2, _⟩ | ⟨p, x, b, h2, h3, _⟩
      · simp only [h2, ends_ret]; exact ⟨_, rfl, trivial⟩
      · simp only [h2, h3, ends_ret]; exact ⟨_, rfl, trivial⟩
    · rintro ⟨m, h⟩
      simp only [textedEvalHandler, ne_eq, h0, not_true_eq_false, and_false, if_false] at h
      cases hp : parseString script with
      | panic => rw [hp] at h; exact (ends_panic h).elim
      | err x => exact ⟨_, (C46_buffer_error _ _ _ _ _).2 ⟨_, (C28_failure _ _ _).2 (Or.inl ⟨x, hp, rfl⟩), rfl, rfl⟩⟩
      | ok p =>
        rw [hp] at h
        rcases he : eval defaultEnv p (newBuffer input) with ⟨r, b⟩
        cases r with
        | ok v => simp only [he, ends_ret, reduceCtorEq, false_and] at h
        | panic => simp only [he] at h; exact (ends_panic h).elim
        | err x => exact ⟨_, (C46_buffer_error _ _ _ _ _).2 ⟨_, (C28_failure _ _ _).2 (Or.inr ⟨p, x, b, hp, he, rfl⟩), rfl, rfl⟩⟩

/-- C46. Any other output mode is refused, and so are requests without input or script. -/
theorem C46_refusals (req : EvalRequest)
    (h : (∃ e, req.input = .error e) ∨ (∃ e, req.script = .error e) ∨ (req.output ≠ b! "buffer" ∧ req.output ≠ b! "expression")) :
    ∃ e, textedEvalHandler req = .ret (.error e) := by
  unfold textedEvalHandler
  cases hi : req.input with
  | error e => exact ⟨_, rfl⟩
  | ok i =>
    cases hs : req.script with
    | error e => exact ⟨_, rfl⟩
    | ok s =>
      rcases h with ⟨e, h⟩ | ⟨e, h⟩ | h
      · rw [hi] at h; cases h
      · rw [hs] at h; cases h
      · simp only [if_pos h]; exact ⟨_, rfl⟩

end

/-! ### The hypotheses are met, and a surprise -/

/-- Two files, `a` with one `x` and `b` with three. -/
def loopWorld : World := { files := fun p => if p = b! "a" then some (b! "x.") else if p = b! "b" then some (b! "xxx") else none, input := [], out := [] }

/-- C45, a surprise with several files: the loop ends in the first round in which *one* of the files has nothing left to replace; the
others are left half done. -/
theorem C45_other_files_left_unfinished : letI := litExt;
    ∃ fuel t, (runOk (fun _ => []) (editFileHandler fuel { script := .ok (replaceOnce (b! "x") (b! "y")), files := .ok [b! "a", b! "b"], loopUntilError := true }) loopWorld).1 =
      some (some (.text t)) ∧
    (runOk (fun _ => []) (editFileHandler fuel { script := .ok (replaceOnce (b! "x") (b! "y")), files := .ok [b! "a", b! "b"], loopUntilError := true }) loopWorld).2.files (b! "b") =
      some (b! "yyx") := by
  letI := litExt
  refine ⟨5, b! "Completed with errors after 2 iterations:\n✓ Successfully edited b\n✗ Failed to edit a: script execution failed: search failed (at instruction 0: (search-forward \"x\"), point=1, mark=1)\n", ?_, ?_⟩
  · decide +kernel
  · decide +kernel

example : letI := litExt; (quote (b! "x")).length < 60000 ∧ (120 : UInt8) ∉ b! "y" ∧ ∃ c, loopWorld.files (b! "b") = some c := by
  refine ⟨by decide +kernel, by decide, _, rfl⟩
/-- A script that never fails, for `C45_never_answers`. -/
example : letI := litExt; ∀ c, ∃ t, executeScript c (b! "end-of-buffer") = .ok t := by
  letI := litExt
  intro c
  exact ⟨c, by
    refine (C28_success _ _ _).2 ⟨[.list [.sym b! "end-of-buffer"]], .str [], { newBuffer c with point := c.length + 1 }, by decide +kernel, ?_, rfl⟩
    rfl⟩
example : letI := litExt; Repeated (replaceOnce (b! "x") (b! "y")) 2 (b! "xxx") (b! "yyx") := by
  letI := litExt
  exact .succ (c1 := b! "yxx") (by decide +kernel) (.succ (c1 := b! "yyx") (by decide +kernel) (.zero _))

end Texted
