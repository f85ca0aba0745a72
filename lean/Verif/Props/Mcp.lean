import Verif.Spec.Mcp
import Verif.Props.Tools
import Verif.Props.Docs
import Verif.Lemmas.CommandLine
import Verif.Lemmas.JsonTextual
import Verif.Lemmas.JsonRead
/-
C72: what a call of `texted mcp` does with its arguments, and what the client sees.
-/
namespace Texted
open Spec

/-! ### Reading the arguments -/

theorem arg_iff (args : Json) (key : Bytes) (v : Json) : args.arg key = some v ↔ Given args key v := by
  cases args with
  | obj fields =>
    simp only [Json.arg]
    constructor
    · intro h
      cases hf : fields.reverse.find? (fun f => f.1 = key) with
      | none => rw [hf] at h; cases h
      | some p =>
        rw [hf] at h; cases h
        obtain ⟨hp, as, bs, h1, h2⟩ := List.find?_eq_some_iff_append.1 hf
        refine ⟨bs.reverse, as.reverse, ?_, ?_⟩
        · have := congrArg List.reverse h1
          rw [List.reverse_reverse] at this
          rw [this]
          have hk : p.1 = key := by simpa using hp
          rw [← hk]; simp
        · intro f hf'; have := h2 f (List.mem_reverse.1 hf'); simpa using this
    · rintro ⟨before, after, h, hn⟩
      cases h
      have : (before ++ (key, v) :: after).reverse.find? (fun f => decide (f.1 = key)) = some (key, v) := by
        rw [List.find?_eq_some_iff_append]
        refine ⟨by simp, after.reverse, before.reverse, by simp, ?_⟩
        intro f hf; simpa using hn f (List.mem_reverse.1 hf)
      rw [this]; rfl
  | _ =>
    simp only [Json.arg, reduceCtorEq, false_iff]
    rintro ⟨_, _, h, _⟩; cases h

theorem arg_none (args : Json) (key : Bytes) : args.arg key = none ↔ NotGiven args key := by
  constructor
  · intro h v hv; rw [(arg_iff _ _ _).2 hv] at h; cases h
  · intro h
    cases ha : args.arg key with
    | none => rfl
    | some v => exact absurd ((arg_iff _ _ _).1 ha) (h v)

theorem given_unique {args : Json} {key : Bytes} {v v' : Json} (h : Given args key v) (h' : Given args key v') : v = v' := by
  rw [← arg_iff] at h h'; rw [h] at h'; exact Option.some.inj h'

theorem requireString_iff (args : Json) (key s : Bytes) : requireString args key = .ok s ↔ Given args key (.str s) := by
  rw [← arg_iff, requireString]
  cases args.arg key with
  | none => simp
  | some v => cases v <;> simp

theorem requireString_error (args : Json) (key : Bytes) : (∃ e, requireString args key = .error e) ↔ ∀ s, ¬ Given args key (.str s) := by
  simp only [← requireString_iff]
  cases requireString args key <;> simp

theorem stringItems_iff (key : Bytes) : ∀ (js : List Json) (i : Nat) (l : List Bytes), stringItems key i js = .ok l ↔ js = l.map .str
  | [], i, l => by cases l <;> simp [stringItems]
  | j :: js, i, l => by
    have ih := stringItems_iff key js (i + 1)
    cases j with
    | str s =>
      rw [stringItems]
      cases l with
      | nil => cases hr : stringItems key (i + 1) js <;> simp
      | cons a l =>
        cases hr : stringItems key (i + 1) js with
        | ok l' =>
          have := (ih l').1 hr
          subst this
          simp only [Except.ok.injEq, List.cons.injEq, List.map_cons, Json.str.injEq]
          refine and_congr_right fun _ => ⟨fun h => by rw [h], fun h => ?_⟩
          have h2 := (ih l).2 h
          rw [hr] at h2; cases h2; rfl
        | error e =>
          simp only [reduceCtorEq, List.map_cons, List.cons.injEq, Json.str.injEq, false_iff, not_and]
          rintro rfl h
          rw [(ih l).2 h] at hr; cases hr
    | _ => cases l <;> simp [stringItems]

theorem requireStringSlice_iff (args : Json) (key : Bytes) (l : List Bytes) :
    requireStringSlice args key = .ok l ↔ Given args key (.arr (l.map .str)) := by
  rw [← arg_iff, requireStringSlice]
  cases args.arg key with
  | none => simp
  | some v =>
    cases v with
    | arr js => simp [stringItems_iff]
    | _ => simp

theorem requireStringSlice_error (args : Json) (key : Bytes) :
    (∃ e, requireStringSlice args key = .error e) ↔ ∀ l : List Bytes, ¬ Given args key (.arr (l.map .str)) := by
  simp only [← requireStringSlice_iff]
  cases requireStringSlice args key <;> simp

theorem getBool_iff (args : Json) (key : Bytes) : getBool args key false = true ↔ OptionOn args key := by
  unfold OptionOn getBool
  simp only [← arg_iff]
  cases args.arg key with
  | none => simp
  | some v =>
    simp only [Option.some.injEq, exists_eq_left']
    cases v with
    | bool b => cases b with | true => exact ⟨fun _ => .true, fun _ => rfl⟩ | false => exact ⟨fun h => (nomatch h), fun h => (nomatch h)⟩
    | str s =>
      change (parseBool s).getD false = true ↔ _
      constructor
      · intro h
        cases hp : parseBool s with
        | none => rw [hp] at h; cases h
        | some b => rw [hp] at h; cases (show b = true from h); exact .word ((parseBool_true s).1 hp)
      · intro h; cases h with | word h => rw [(parseBool_true s).2 h]; rfl
    | num x =>
      cases x with
      | nan => exact ⟨fun _ => .nan, fun _ => rfl⟩
      | inf n => exact ⟨fun _ => .inf, fun _ => rfl⟩
      | fin n m e =>
        constructor
        · intro h
          refine .number fun hm => ?_
          subst hm
          simp [F64.goEq] at h
        · intro h; cases h with | number h => simp [F64.goEq, h]
    | null => exact ⟨fun h => (nomatch h), fun h => (nomatch h)⟩
    | arr l => exact ⟨fun h => (nomatch h), fun h => (nomatch h)⟩
    | obj l => exact ⟨fun h => (nomatch h), fun h => (nomatch h)⟩

theorem getString_iff (args : Json) (key dflt s : Bytes) : getString args key dflt = s ↔ TextOr args key dflt s := by
  unfold TextOr getString
  simp only [← arg_iff]
  cases args.arg key with
  | none => simp [eq_comm]
  | some v => cases v <;> simp [eq_comm]

/-! ### Which tool is called -/

/-- C72. Under every prefix the three tools have three different names, each the prefix followed by the tool's own name. -/
theorem C72_names (pre : Bytes) :
    toolName pre (b! "edit_file") = pre ++ b! "edit_file" ∧ toolName pre (b! "texted_eval") = pre ++ b! "texted_eval" ∧
    toolName pre (b! "texted_doc") = pre ++ b! "texted_doc" ∧
    [toolName pre (b! "edit_file"), toolName pre (b! "texted_eval"), toolName pre (b! "texted_doc")].Nodup := by
  have h : ∀ n, toolName pre n = pre ++ n := by
    intro n; unfold toolName; split
    · rfl
    · rename_i h; simp at h; simp [h]
  refine ⟨h _, h _, h _, ?_⟩
  simp only [h, List.nodup_cons, List.mem_cons, List.append_cancel_left_eq, List.not_mem_nil, or_false]
  decide

theorem toolName_eq (pre n : Bytes) : toolName pre n = pre ++ n := by
  unfold toolName; split
  · rfl
  · rename_i h; simp at h; simp [h]

section
variable [Ext]

theorem call_editFile {reg : Registry} {pre : Bytes} {args : Json} {fuel : Nat} {p : Proc (Option McpAnswer)} :
    McpCall reg pre (pre ++ b! "edit_file") args fuel p ↔ p = (editFileHandler fuel (editFileRequest args)).bind fun r => .ret (r.map .result) := by
  constructor
  · intro h
    cases h with
    | editFile _ => rfl
    | textedEval h => rw [toolName_eq, List.append_cancel_left_eq] at h; exact absurd h (by decide)
    | textedDoc h _ => rw [toolName_eq, List.append_cancel_left_eq] at h; exact absurd h (by decide)
    | unknown h _ _ => exact absurd (toolName_eq _ _).symm h
  · rintro rfl; exact .editFile (toolName_eq _ _).symm

theorem call_textedEval {reg : Registry} {pre : Bytes} {args : Json} {fuel : Nat} {p : Proc (Option McpAnswer)} :
    McpCall reg pre (pre ++ b! "texted_eval") args fuel p ↔ p = (textedEvalHandler (evalRequest args)).bind fun r => .ret (some (.result r)) := by
  constructor
  · intro h
    cases h with
    | textedEval _ => rfl
    | editFile h => rw [toolName_eq, List.append_cancel_left_eq] at h; exact absurd h (by decide)
    | textedDoc h _ => rw [toolName_eq, List.append_cancel_left_eq] at h; exact absurd h (by decide)
    | unknown _ h _ => exact absurd (toolName_eq _ _).symm h
  · rintro rfl; exact .textedEval (toolName_eq _ _).symm

theorem call_textedDoc {reg : Registry} {pre : Bytes} {args : Json} {fuel : Nat} {p : Proc (Option McpAnswer)} :
    McpCall reg pre (pre ++ b! "texted_doc") args fuel p ↔ ∃ out, DocCall reg args out ∧ p = .ret (some (.result out)) := by
  constructor
  · intro h
    cases h with
    | textedDoc _ h => exact ⟨_, h, rfl⟩
    | editFile h => rw [toolName_eq, List.append_cancel_left_eq] at h; exact absurd h (by decide)
    | textedEval h => rw [toolName_eq, List.append_cancel_left_eq] at h; exact absurd h (by decide)
    | unknown _ _ h => exact absurd (toolName_eq _ _).symm h
  · rintro ⟨out, h, rfl⟩; exact .textedDoc (toolName_eq _ _).symm h

/-- C72. A call of any other name is answered with the protocol's error, and touches nothing. -/
theorem C72_unknown_tool (reg : Registry) (pre name : Bytes) (args : Json) (fuel : Nat) (p : Proc (Option McpAnswer))
    (h : ∀ t ∈ [b! "edit_file", b! "texted_eval", b! "texted_doc"], name ≠ pre ++ t) :
    McpCall reg pre name args fuel p ↔ p = .ret (some .unknownTool) := by
  simp only [List.mem_cons, List.not_mem_nil, or_false, forall_eq_or_imp, forall_eq, ← toolName_eq] at h
  obtain ⟨h1, h2, h3⟩ := h
  constructor
  · intro h
    cases h with
    | editFile h => exact absurd h h1
    | textedEval h => exact absurd h h2
    | textedDoc h _ => exact absurd h h3
    | unknown _ _ _ => rfl
  · rintro rfl; exact .unknown h1 h2 h3

/-! ### edit_file -/

theorem map_result_ends {p : Proc (Option ToolResult)} {w w' : World} {a : Option McpAnswer} :
    Ends (p.bind fun r => .ret (r.map McpAnswer.result)) w a w' ↔ ∃ r, Ends p w r w' ∧ a = r.map .result := by
  rw [ends_bind]
  constructor
  · rintro ⟨r, w1, h1, h2⟩; obtain ⟨rfl, rfl⟩ := ends_ret.1 h2; exact ⟨r, h1, rfl⟩
  · rintro ⟨r, h1, rfl⟩; exact ⟨r, w', h1, ends_ret.2 ⟨rfl, rfl⟩⟩

theorem editCall_request {args : Json} {script : Bytes} {files : List Bytes} (h : EditCall args script files) :
    editFileRequest args = { script := .ok script, files := .ok files, loopUntilError := getBool args (b! "loopUntilError") false } := by
  rw [editFileRequest, (requireString_iff _ _ _).2 h.1, (requireStringSlice_iff _ _ _).2 h.2.1]

/-- C72. edit_file without loopUntilError, when script and files are given: the script is applied once to the files, in the order given,
and the results are reported. -/
theorem C72_edit_once (reg : Registry) (pre script : Bytes) (files : List Bytes) (args : Json) (fuel : Nat) (p : Proc (Option McpAnswer))
    (w w' : World) (ans : Option McpAnswer) (hc : McpCall reg pre (pre ++ b! "edit_file") args fuel p) (ha : EditCall args script files)
    (hl : ¬ OptionOn args (b! "loopUntilError")) :
    Ends p w ans w' ↔ ∃ rs, Ends (editFiles files script) w rs w' ∧
      ans = some (.result (.text ((if ∀ r ∈ rs, r.error = none then b! "All files edited successfully after 1 iterations:\n"
          else b! "Completed with errors after 1 iterations:\n") ++ reportLines rs))) := by
  have hb : getBool args (b! "loopUntilError") false = false := by
    rw [← Bool.not_eq_true, getBool_iff]; exact hl
  rw [call_editFile.1 hc, editCall_request ha, hb, map_result_ends]
  constructor
  · rintro ⟨r, h1, rfl⟩
    obtain ⟨rs, h2, rfl⟩ := (C45_once _ _ _ ha.2.2 _ _ _).1 h1
    exact ⟨rs, h2, rfl⟩
  · rintro ⟨rs, h2, rfl⟩
    exact ⟨_, (C45_once _ _ _ ha.2.2 _ _ _).2 ⟨rs, h2, rfl⟩, rfl⟩

/-- C72. edit_file with loopUntilError: the first round in which some file fails is answered. -/
theorem C72_edit_loop (reg : Registry) (pre script : Bytes) (files : List Bytes) (args : Json) (w w' : World) (ans : McpAnswer)
    (ha : EditCall args script files) (hl : OptionOn args (b! "loopUntilError")) :
    (∃ fuel p, McpCall reg pre (pre ++ b! "edit_file") args fuel p ∧ Ends p w (some ans) w') ↔
      ∃ k w1 rs, Rounds files script k w w1 ∧ Ends (editFiles files script) w1 rs w' ∧ (∃ x ∈ rs, x.error ≠ none) ∧
        ans = .result (.text (b! "Completed with errors after " ++ natDec (k + 1) ++ b! " iterations:\n" ++ reportLines rs)) := by
  simp only [call_editFile, exists_eq_left, editCall_request ha, (getBool_iff _ _).2 hl, map_result_ends]
  constructor
  · rintro ⟨fuel, r, h1, h2⟩
    cases r with
    | none => cases h2
    | some r =>
      obtain ⟨k, w1, rs, h3, h4, h5, rfl⟩ := (C45_stops_at_first_failing_round _ _ ha.2.2 _ _ _).1 ⟨fuel, h1⟩
      exact ⟨k, w1, rs, h3, h4, h5, by cases h2; rfl⟩
  · rintro ⟨k, w1, rs, h3, h4, h5, rfl⟩
    obtain ⟨fuel, h⟩ := (C45_stops_at_first_failing_round _ _ ha.2.2 _ _ _).2 ⟨k, w1, rs, h3, h4, h5, rfl⟩
    exact ⟨fuel, _, h, rfl⟩

/-- C72. A call of edit_file whose script is missing or no string, or whose files are missing, no list, a list with something else than
strings, or an empty list, is answered with an error at once: no file is read or written. -/
theorem C72_edit_refused (reg : Registry) (pre : Bytes) (args : Json) (fuel : Nat) (p : Proc (Option McpAnswer))
    (hc : McpCall reg pre (pre ++ b! "edit_file") args fuel p) (ha : ∀ script files, ¬ EditCall args script files) :
    ∃ e, p = .ret (some (.result (.error e))) := by
  rw [call_editFile.1 hc]
  have h : (∃ e, (editFileRequest args).script = .error e) ∨ (∃ e, (editFileRequest args).files = .error e) ∨ (editFileRequest args).files = .ok [] := by
    cases hs : requireString args (b! "script") with
    | error e => exact Or.inl ⟨e, hs⟩
    | ok s =>
      cases hf : requireStringSlice args (b! "files") with
      | error e => exact Or.inr (Or.inl ⟨e, hf⟩)
      | ok l =>
        refine Or.inr (Or.inr ?_)
        cases l with
        | nil => exact hf
        | cons f l => exact absurd ⟨(requireString_iff _ _ _).1 hs, (requireStringSlice_iff _ _ _).1 hf, by simp⟩ (ha s (f :: l))
  obtain ⟨e, h⟩ := C45_refusals fuel _ h
  exact ⟨e, by rw [h]; rfl⟩

/-- C72. An answer of edit_file is marked as an error exactly if the arguments are not in order. When they are, failures of the edits
are reported in a text that is not marked: a client that looks only at the mark takes a call in which every file failed for a
success. -/
theorem C72_edit_error_mark (reg : Registry) (pre : Bytes) (args : Json) (fuel : Nat) (p : Proc (Option McpAnswer)) (w w' : World)
    (ans : McpAnswer) (hc : McpCall reg pre (pre ++ b! "edit_file") args fuel p) (he : Ends p w (some ans) w') :
    (∃ e, ans = .result (.error e)) ↔ ∀ script files, ¬ EditCall args script files := by
  constructor
  · rintro ⟨e, rfl⟩ script files ha
    by_cases hl : OptionOn args (b! "loopUntilError")
    · obtain ⟨k, w1, rs, _, _, _, h⟩ := (C72_edit_loop reg pre script files args w w' _ ha hl).1 ⟨fuel, p, hc, he⟩
      cases h
    · obtain ⟨rs, _, h⟩ := (C72_edit_once reg pre script files args fuel p w w' _ hc ha hl).1 he
      cases h
  · intro ha
    obtain ⟨e, rfl⟩ := C72_edit_refused reg pre args fuel p hc ha
    obtain ⟨h, _⟩ := ends_ret.1 he
    exact ⟨e, Option.some.inj h⟩

/-! ### texted_eval -/

theorem some_result_ends {p : Proc ToolResult} {w w' : World} {a : Option McpAnswer} :
    Ends (p.bind fun r => .ret (some (McpAnswer.result r))) w a w' ↔ ∃ r, Ends p w r w' ∧ a = some (.result r) := by
  rw [ends_bind]
  constructor
  · rintro ⟨r, w1, h1, h2⟩; obtain ⟨rfl, rfl⟩ := ends_ret.1 h2; exact ⟨r, h1, rfl⟩
  · rintro ⟨r, h1, rfl⟩; exact ⟨r, w', h1, ends_ret.2 ⟨rfl, rfl⟩⟩

/-- C72. texted_eval in its default mode (also chosen when `output` is not a string): the answer is what the script makes of the input,
or its error. -/
theorem C72_eval_buffer (reg : Registry) (pre input script : Bytes) (args : Json) (fuel : Nat) (p : Proc (Option McpAnswer))
    (w w' : World) (ans : Option McpAnswer) (hc : McpCall reg pre (pre ++ b! "texted_eval") args fuel p)
    (hi : Given args (b! "input") (.str input)) (hs : Given args (b! "script") (.str script))
    (ho : TextOr args (b! "output") (b! "buffer") (b! "buffer")) :
    Ends p w ans w' ↔ w' = w ∧
      ((∃ t, executeScript input script = .ok t ∧ ans = some (.result (.text t))) ∨
       ∃ e, executeScript input script = .err e ∧ ans = some (.result (.error (b! "script execution failed: " ++ e)))) := by
  rw [call_textedEval.1 hc, evalRequest, (requireString_iff _ _ _).2 hi, (requireString_iff _ _ _).2 hs, (getString_iff _ _ _ _).2 ho,
    some_result_ends]
  constructor
  · rintro ⟨r, h, rfl⟩
    cases r with
    | text t =>
      obtain ⟨h1, h2⟩ := (C46_buffer input script t w w').1 h
      exact ⟨h2, Or.inl ⟨t, h1, rfl⟩⟩
    | error e =>
      obtain ⟨e', h1, h2, h3⟩ := (C46_buffer_error input script e w w').1 h
      exact ⟨h3, Or.inr ⟨e', h1, by rw [h2]⟩⟩
  · rintro ⟨rfl, ⟨t, h1, rfl⟩ | ⟨e, h1, rfl⟩⟩
    · exact ⟨_, (C46_buffer input script t _ _).2 ⟨h1, rfl⟩, rfl⟩
    · exact ⟨_, (C46_buffer_error input script _ _ _).2 ⟨e, h1, rfl, rfl⟩, rfl⟩

/-- C72. texted_eval with `"output": "expression"`: the answer is the value of the last instruction. -/
theorem C72_eval_expression (reg : Registry) (pre input script : Bytes) (args : Json) (fuel : Nat) (p : Proc (Option McpAnswer))
    (w w' : World) (t : Bytes) (hc : McpCall reg pre (pre ++ b! "texted_eval") args fuel p)
    (hi : Given args (b! "input") (.str input)) (hs : Given args (b! "script") (.str script))
    (ho : Given args (b! "output") (.str (b! "expression"))) :
    Ends p w (some (.result (.text t))) w' ↔
      ∃ program v b, parseString script = .ok program ∧ eval defaultEnv program (newBuffer input) = (.ok v, b) ∧ t = v.toStr ∧ w' = w := by
  rw [call_textedEval.1 hc, evalRequest, (requireString_iff _ _ _).2 hi, (requireString_iff _ _ _).2 hs,
    (getString_iff _ _ _ (b! "expression")).2 (Or.inl ho), some_result_ends, ← C46_expression]
  constructor
  · rintro ⟨r, h, h2⟩; cases h2; exact h
  · intro h; exact ⟨_, h, rfl⟩

/-- C72. A call of texted_eval without an input or script that is a string, or with another string as `output`, is answered with an
error at once. -/
theorem C72_eval_refused (reg : Registry) (pre : Bytes) (args : Json) (fuel : Nat) (p : Proc (Option McpAnswer))
    (hc : McpCall reg pre (pre ++ b! "texted_eval") args fuel p)
    (h : (∀ s, ¬ Given args (b! "input") (.str s)) ∨ (∀ s, ¬ Given args (b! "script") (.str s)) ∨
      ∃ o, Given args (b! "output") (.str o) ∧ o ≠ b! "buffer" ∧ o ≠ b! "expression") :
    ∃ e, p = .ret (some (.result (.error e))) := by
  rw [call_textedEval.1 hc]
  have h' : (∃ e, (evalRequest args).input = .error e) ∨ (∃ e, (evalRequest args).script = .error e) ∨
      ((evalRequest args).output ≠ b! "buffer" ∧ (evalRequest args).output ≠ b! "expression") := by
    rcases h with h | h | ⟨o, h1, h2⟩
    · exact Or.inl ((requireString_error _ _).2 h)
    · exact Or.inr (Or.inl ((requireString_error _ _).2 h))
    · refine Or.inr (Or.inr ?_)
      have : (evalRequest args).output = o := (getString_iff _ _ _ _).2 (Or.inl h1)
      rw [this]; exact h2
  obtain ⟨e, h⟩ := C46_refusals _ h'
  exact ⟨e, by rw [h]; rfl⟩

/-- C72. texted_eval and texted_doc touch nothing, whatever the arguments. -/
theorem C72_reads_only (reg : Registry) (pre name : Bytes) (args : Json) (fuel : Nat) (p : Proc (Option McpAnswer)) (w w' : World)
    (hc : McpCall reg pre name args fuel p) (hn : name ≠ pre ++ b! "edit_file") (hs : Sees p w w') : w' = w := by
  cases hc with
  | editFile h => exact absurd (h.trans (toolName_eq _ _)) hn
  | textedEval _ =>
    rcases sees_bind.1 hs with h | ⟨a, w1, h, h2⟩
    · exact C46_touches_nothing _ _ _ h
    · have := sees_ret.1 h2; subst this
      exact C46_touches_nothing _ _ _ (ends_sees h)
  | textedDoc _ _ => exact sees_ret.1 hs
  | unknown _ _ _ => exact sees_ret.1 hs

/-! ### texted_doc -/

/-- C72. texted_doc: what is asked for is the string given as `function_name`, or else as `category`; anything else given for them, or
nothing, asks for the list of all functions. -/
theorem C72_doc (reg : Registry) (pre functionName category : Bytes) (args : Json) (fuel : Nat) (p : Proc (Option McpAnswer))
    (hf : TextOr args (b! "function_name") [] functionName) (hca : TextOr args (b! "category") [] category) :
    McpCall reg pre (pre ++ b! "texted_doc") args fuel p ↔
      ∃ out verbose, (verbose = true ↔ OptionOn args (b! "verbose")) ∧ TextedDoc reg functionName category verbose out ∧
        p = .ret (some (.result out)) := by
  rw [call_textedDoc]
  simp only [DocCall, (getString_iff _ _ _ _).2 hf, (getString_iff _ _ _ _).2 hca]
  constructor
  · rintro ⟨out, h1, h2⟩; exact ⟨out, _, getBool_iff _ _, h1, h2⟩
  · rintro ⟨out, v, h0, h1, h2⟩
    refine ⟨out, ?_, h2⟩
    have : getBool args (b! "verbose") false = v := by
      rw [Bool.eq_iff_iff, getBool_iff, h0]
    rw [this]; exact h1

end

/-! ### What the client sees -/

theorem jsonChar_fffd (rest : Bytes) : jsonChar (b! "\\ufffd" ++ rest) = some ([239, 191, 189], rest) := jsonChar_u 65533 (by decide) (by decide) rest

theorem encodeRune_fffd : encodeRune runeError = [239, 191, 189] := by decide

theorem decode_bad {b : UInt8} {s : Bytes} : (∀ c r, b :: s ≠ encodeRune c ++ r) ↔ (decodeRune (b :: s)).2 = 1 ∧ (decodeRune (b :: s)).1 = runeError := by
  constructor
  · intro h
    refine Decidable.byContradiction fun hn => ?_
    obtain ⟨h1, _, _⟩ := encode_decode (b :: s) (by simp) hn
    refine h (decodeRune (b :: s)).1 ((b :: s).drop (decodeRune (b :: s)).2) ?_
    rw [h1, List.take_append_drop]
  · rintro ⟨h1, h2⟩ c r h
    rw [h, decode_encode] at h1 h2
    subst h2
    exact absurd h1 (by decide)

theorem shown_exists : ∀ (n : Nat) (t : Bytes), t.length ≤ n → ∃ u, Shown t u
  | _, [], _ => ⟨[], .nil⟩
  | 0, b :: s, h => by simp at h
  | n + 1, b :: s, h => by
    by_cases hb : (decodeRune (b :: s)).2 = 1 ∧ (decodeRune (b :: s)).1 = runeError
    · obtain ⟨u, hu⟩ := shown_exists n s (by simpa using h)
      exact ⟨_, .bad (decode_bad.2 hb) hu⟩
    · obtain ⟨h1, h2, h3⟩ := encode_decode (b :: s) (by simp) hb
      obtain ⟨u, hu⟩ := shown_exists n ((b :: s).drop (decodeRune (b :: s)).2) (by
        rw [List.length_drop, List.length_cons]; rw [List.length_cons] at h; omega)
      refine ⟨encodeRune (decodeRune (b :: s)).1 ++ u, ?_⟩
      have := Shown.char (decodeRune (b :: s)).1 hu
      rwa [h1, List.take_append_drop, ← h1] at this

theorem jsonStr_shown {t u : Bytes} (h : Shown t u) (rest : Bytes) : ∀ f g, t.length ≤ f → (jsonStrBody f t).length < g →
    jsonStr g (jsonStrBody f t ++ 34 :: rest) = some (u, rest) := by
  induction h with
  | nil =>
    intro f g _ hg
    cases g with
    | zero => omega
    | succ g => cases f <;> simp [jsonStrBody, jsonStr]
  | @char s t c hs ih =>
    intro f g hf hg
    obtain ⟨x, r, he, ha, hb⟩ := encodeRune_head c
    rw [List.length_append] at hf
    cases f with
    | zero => rw [he, List.length_cons] at hf; omega
    | succ f =>
      have hd := decode_encode c s
      have hbody : jsonStrBody (f + 1) (encodeRune c ++ s) = jsonEscape c ++ jsonStrBody f s := by
        rw [he, List.cons_append] at hd ⊢
        rw [jsonStrBody, hd]
        simp only
        rw [if_neg, ← List.cons_append, List.drop_left']
        · rfl
        · rintro ⟨h1, h2⟩
          rw [← he, h2] at h1
          exact absurd h1 (by decide)
      rw [hbody] at hg ⊢
      rw [List.length_append] at hg
      cases g with
      | zero => omega
      | succ g =>
        obtain ⟨y, q, hy, hne⟩ := jsonEscape_head c
        have hch := jsonChar_escape c (jsonStrBody f s ++ 34 :: rest)
        rw [List.append_assoc, hy, List.cons_append, jsonStr, if_neg hne]
        rw [hy, List.cons_append] at hch
        rw [hch]
        simp only
        rw [ih f g (by rw [he, List.length_cons] at hf; omega) (by rw [hy, List.length_cons] at hg; omega)]
  | @bad b s t hb hs ih =>
    intro f g hf hg
    cases f with
    | zero => simp at hf
    | succ f =>
      have hbody : jsonStrBody (f + 1) (b :: s) = b! "\\ufffd" ++ jsonStrBody f s := by
        rw [jsonStrBody]
        rw [if_pos (decode_bad.1 hb)]
      rw [hbody] at hg ⊢
      rw [List.length_append] at hg
      cases g with
      | zero => omega
      | succ g =>
        have hch := jsonChar_fffd (jsonStrBody f s ++ 34 :: rest)
        rw [List.append_assoc]
        change jsonStr (g + 1) (92 :: (b! "ufffd" ++ (jsonStrBody f s ++ 34 :: rest))) = _
        rw [jsonStr, if_neg (by decide)]
        change jsonChar (92 :: (b! "ufffd" ++ (jsonStrBody f s ++ 34 :: rest))) = _ at hch
        rw [hch]
        simp only
        rw [ih f g (by simpa using hf) (by simp at hg; omega)]

/-- C72. The text of an answer reaches the client as JSON. The client reads a text in which every byte that belongs to no character
has become U+FFFD, and nothing else is changed. -/
theorem C72_reply (t u : Bytes) : jsonText (jsonQuote t) = some (.str u) ↔ Shown t u := by
  have key : ∀ u, Shown t u → jsonText (jsonQuote t) = some (.str u) := by
    intro u h
    have hj : jsonQuote t = 34 :: (jsonStrBody t.length t ++ 34 :: []) := by simp [jsonQuote]
    have := jsonStr_shown h [] t.length ((jsonStrBody t.length t ++ 34 :: []).length + 1) (Nat.le_refl _) (by rw [List.length_append]; omega)
    rw [jsonText, jsonOne, hj, jws_cons _ _ (by decide), jsonValue, if_pos rfl, this]
    rfl
  constructor
  · intro h
    obtain ⟨u', hu⟩ := shown_exists _ t (Nat.le_refl _)
    rw [key u' hu] at h
    cases h; exact hu
  · exact key u

/-- C72. The client reads the text itself exactly if it is UTF-8. -/
theorem C72_reply_utf8 (t : Bytes) : jsonText (jsonQuote t) = some (.str t) ↔ ∃ cs, t = encodeAll cs := by
  rw [C72_reply]
  constructor
  · intro h
    have : ∀ t u : Bytes, Shown t u → t.length ≤ u.length ∧ (t = u → ∃ cs, t = encodeAll cs) := by
      intro t u h
      induction h with
      | nil => exact ⟨Nat.le_refl _, fun _ => ⟨[], rfl⟩⟩
      | char c _ ih =>
        refine ⟨by simp [ih.1], fun h => ?_⟩
        obtain ⟨cs, hcs⟩ := ih.2 (List.append_cancel_left h)
        exact ⟨c :: cs, by rw [hcs, encodeAll_cons]⟩
      | bad _ _ ih =>
        refine ⟨by simp; omega, fun h => ?_⟩
        have := congrArg List.length h
        simp at this; omega
    exact (this t t h).2 rfl
  · rintro ⟨cs, rfl⟩
    induction cs with
    | nil => exact .nil
    | cons c cs ih => rw [encodeAll_cons]; exact .char c ih

/-! ### The hypotheses are met, and surprises -/

/-- Arguments for the examples: `{"script": "end-of-buffer", "files": ["a"], "script": "…"}`. -/
def sampleArgs (script : Bytes) (loop : Json) : Json :=
  .obj [(b! "script", .num (.fin false 1 0)), (b! "files", .arr [.str (b! "a"), .str (b! "b")]), (b! "loopUntilError", loop), (b! "script", .str script)]

theorem sampleArgs_call (script : Bytes) (loop : Json) : EditCall (sampleArgs script loop) script [b! "a", b! "b"] := by
  refine ⟨(arg_iff _ _ _).1 ?_, (arg_iff _ _ _).1 ?_, by decide⟩ <;> rfl

/-- `"loopUntilError": "T"` and `"loopUntilError": 2` loop; `"yes"`, `null` and `0` do not. -/
example : OptionOn (sampleArgs [] (.str (b! "T"))) (b! "loopUntilError") ∧ OptionOn (sampleArgs [] (.num (.fin false 1 1))) (b! "loopUntilError") ∧
    ¬ OptionOn (sampleArgs [] (.str (b! "yes"))) (b! "loopUntilError") ∧ ¬ OptionOn (sampleArgs [] .null) (b! "loopUntilError") ∧
    ¬ OptionOn (sampleArgs [] (.num (.fin true 0 0))) (b! "loopUntilError") := by
  simp only [← getBool_iff]
  decide

/-- C72, a surprise: a file given as a string instead of a list is refused, a wrong `output` that is no string is ignored. -/
theorem C72_wrong_types [Ext] (f script : Bytes) :
    (∀ s files, ¬ EditCall (.obj [(b! "script", .str script), (b! "files", .str f)]) s files) ∧
    TextOr (.obj [(b! "input", .str f), (b! "script", .str script), (b! "output", .arr [.str (b! "expression")])]) (b! "output") (b! "buffer") (b! "buffer") := by
  constructor
  · rintro s files ⟨_, h, _⟩
    have := (arg_iff _ _ _).2 h
    simp only [Json.arg] at this
    cases this
  · rw [← getString_iff]; rfl

/-- C72, a surprise: commands count bytes, so a command can cut a character in two; texted_eval then answers with a text that is not what
the script produced. -/
theorem C72_false_reply : letI := litExt; ∃ script t, executeScript (b! "é") script = .ok t ∧ t = [169] ∧
    jsonText (jsonQuote t) = some (.str [239, 191, 189]) ∧ jsonText (jsonQuote t) ≠ some (.str t) := by
  letI := litExt
  have h : jsonText (jsonQuote [169]) = some (.str [239, 191, 189]) :=
    (C72_reply _ _).2 (.bad (decode_bad.2 (by decide)) .nil)
  refine ⟨b! "delete-char 1", [169], by decide +kernel, rfl, h, ?_⟩
  rw [h]; simp

/-- C72, a surprise: a script can end the server. -/
theorem C72_crash : letI := litExt; ∃ script, ∀ (reg : Registry) (pre : Bytes) (fuel : Nat) (p : Proc (Option McpAnswer)),
    McpCall reg pre (pre ++ b! "texted_eval") (.obj [(b! "input", .str (b! "a")), (b! "script", .str script)]) fuel p → p = .panic := by
  letI := litExt
  refine ⟨b! "delete-char -2", fun reg pre fuel p h => ?_⟩
  rw [call_textedEval.1 h]
  have : executeScript (b! "a") (b! "delete-char -2") = .panic := by decide +kernel
  have hr : textedEvalHandler (evalRequest (.obj [(b! "input", .str (b! "a")), (b! "script", .str (b! "delete-char -2"))])) = .panic := by
    change (match executeScript (b! "a") (b! "delete-char -2") with
        | .panic => Proc.panic
        | .err e => Proc.ret (ToolResult.error (b! "script execution failed: " ++ e))
        | .ok output => Proc.ret (ToolResult.text output)) = _
    rw [this]
  rw [hr]; rfl

end Texted
