import Verif.Spec.Schemas
import Verif.Props.Mcp
/-
C84: the parameters that the tools declare to their clients, and what the handlers do with them.
-/
namespace Texted
open Spec

theorem same_arg {args args' : Json} {key : Bytes} (h : ∀ v, Given args key v ↔ Given args' key v) : args.arg key = args'.arg key := by
  apply Option.ext
  intro v
  rw [arg_iff, arg_iff, h]

theorem getString_congr {a a' : Json} {k : Bytes} (d : Bytes) (h : a.arg k = a'.arg k) : getString a k d = getString a' k d := by
  simp only [getString, h]
theorem requireString_congr {a a' : Json} {k : Bytes} (h : a.arg k = a'.arg k) : requireString a k = requireString a' k := by
  simp only [requireString, h]
theorem requireStringSlice_congr {a a' : Json} {k : Bytes} (h : a.arg k = a'.arg k) : requireStringSlice a k = requireStringSlice a' k := by
  simp only [requireStringSlice, h]
theorem getBool_congr {a a' : Json} {k : Bytes} (d : Bool) (h : a.arg k = a'.arg k) : getBool a k d = getBool a' k d := by
  simp only [getBool, h]

section
variable [Ext]

omit [Ext] in
/-- The tools by their names. -/
theorem tool_cases {pre name : Bytes} {params : List ToolParam} (h : (name, params) ∈ mcpTools pre) :
    (name = pre ++ b! "edit_file" ∧ params = editFileParams) ∨ (name = pre ++ b! "texted_eval" ∧ params = textedEvalParams) ∨
    (name = pre ++ b! "texted_doc" ∧ params = textedDocParams) := by
  simpa [mcpTools, toolName_eq] using h

/-- A call depends only on what it reads of the arguments. -/
theorem call_same_reads {reg : Registry} {pre name : Bytes} {args args' : Json} {fuel : Nat}
    (he : name = pre ++ b! "edit_file" → editFileRequest args = editFileRequest args')
    (hv : name = pre ++ b! "texted_eval" → evalRequest args = evalRequest args')
    (hd : name = pre ++ b! "texted_doc" → ∀ out, DocCall reg args out ↔ DocCall reg args' out) (p : Proc (Option McpAnswer)) :
    McpCall reg pre name args fuel p ↔ McpCall reg pre name args' fuel p := by
  by_cases h1 : name = pre ++ b! "edit_file"
  · have := he h1; subst h1; rw [call_editFile, call_editFile, this]
  · by_cases h2 : name = pre ++ b! "texted_eval"
    · have := hv h2; subst h2; rw [call_textedEval, call_textedEval, this]
    · by_cases h3 : name = pre ++ b! "texted_doc"
      · have := hd h3; subst h3; rw [call_textedDoc, call_textedDoc]; simp only [this]
      · have h : ∀ t ∈ [b! "edit_file", b! "texted_eval", b! "texted_doc"], name ≠ pre ++ t := by
          simp only [List.mem_cons, List.not_mem_nil, or_false, forall_eq_or_imp, forall_eq]
          exact ⟨h1, h2, h3⟩
        rw [C72_unknown_tool _ _ _ _ _ _ h, C72_unknown_tool _ _ _ _ _ _ h]

/-- **C84**: only the declared parameters matter. Two calls of a tool that give the same for each declared parameter have the same
possible runs, whatever else they give, and in whatever order. -/
theorem C84_only_declared (reg : Registry) (pre name : Bytes) (params : List ToolParam) (args args' : Json) (fuel : Nat)
    (ht : (name, params) ∈ mcpTools pre) (hs : SameGiven params args args') (p : Proc (Option McpAnswer)) :
    McpCall reg pre name args fuel p ↔ McpCall reg pre name args' fuel p := by
  have key : ∀ q ∈ params, args.arg q.name = args'.arg q.name := fun q hq => same_arg (hs q hq)
  have c := C72_names pre
  rcases tool_cases ht with ⟨rfl, rfl⟩ | ⟨rfl, rfl⟩ | ⟨rfl, rfl⟩
  · simp only [editFileParams, List.mem_cons, List.not_mem_nil, or_false, forall_eq_or_imp, forall_eq] at key
    refine call_same_reads (fun _ => ?_) (fun h => ?_) (fun h => ?_) p
    · rw [editFileRequest, editFileRequest, requireString_congr key.1, requireStringSlice_congr key.2.1, getBool_congr _ key.2.2]
    · exact absurd (List.append_cancel_left h) (by decide)
    · exact absurd (List.append_cancel_left h) (by decide)
  · simp only [textedEvalParams, List.mem_cons, List.not_mem_nil, or_false, forall_eq_or_imp, forall_eq] at key
    refine call_same_reads (fun h => ?_) (fun _ => ?_) (fun h => ?_) p
    · exact absurd (List.append_cancel_left h) (by decide)
    · rw [evalRequest, evalRequest, requireString_congr key.1, requireString_congr key.2.1, getString_congr _ key.2.2]
    · exact absurd (List.append_cancel_left h) (by decide)
  · simp only [textedDocParams, List.mem_cons, List.not_mem_nil, or_false, forall_eq_or_imp, forall_eq] at key
    refine call_same_reads (fun h => ?_) (fun h => ?_) (fun _ out => ?_) p
    · exact absurd (List.append_cancel_left h) (by decide)
    · exact absurd (List.append_cancel_left h) (by decide)
    · rw [DocCall, DocCall, getString_congr _ key.1, getString_congr _ key.2.1, getBool_congr _ key.2.2]

/-- **C84**: a required parameter is required: a call that does not give it, or gives a value of another type, is answered with an error
at once; no file is read or written. -/
theorem C84_required (reg : Registry) (pre name : Bytes) (params : List ToolParam) (args : Json) (fuel : Nat)
    (ht : (name, params) ∈ mcpTools pre) (q : ToolParam) (hq : q ∈ params) (hr : q.required = true)
    (hn : ∀ v, Given args q.name v → ¬ OfType q.type v) (p : Proc (Option McpAnswer)) (hc : McpCall reg pre name args fuel p) :
    ∃ e, p = .ret (some (.result (.error e))) := by
  rcases tool_cases ht with ⟨rfl, rfl⟩ | ⟨rfl, rfl⟩ | ⟨rfl, rfl⟩
  · refine C72_edit_refused reg pre args fuel p hc ?_
    simp only [editFileParams, List.mem_cons, List.not_mem_nil, or_false] at hq
    rcases hq with rfl | rfl | rfl
    · exact fun s l h => hn _ h.1 (.string _)
    · exact fun s l h => hn _ h.2.1 (.array _)
    · cases hr
  · refine C72_eval_refused reg pre args fuel p hc ?_
    simp only [textedEvalParams, List.mem_cons, List.not_mem_nil, or_false] at hq
    rcases hq with rfl | rfl | rfl
    · exact Or.inl fun s h => hn _ h (.string _)
    · exact Or.inr (Or.inl fun s h => hn _ h (.string _))
    · cases hr
  · simp only [textedDocParams, List.mem_cons, List.not_mem_nil, or_false] at hq
    rcases hq with rfl | rfl | rfl <;> cases hr

/-- **C84**: the others are optional: giving `null` for a parameter that is not required is the same as not giving it. -/
theorem C84_optional (reg : Registry) (pre name : Bytes) (params : List ToolParam) (args args' : Json) (fuel : Nat)
    (ht : (name, params) ∈ mcpTools pre) (q : ToolParam) (hq : q ∈ params) (hr : q.required = false)
    (hn : Given args q.name .null) (hn' : NotGiven args' q.name)
    (hs : ∀ q' ∈ params, q'.name ≠ q.name → ∀ v, Given args q'.name v ↔ Given args' q'.name v) (p : Proc (Option McpAnswer)) :
    McpCall reg pre name args fuel p ↔ McpCall reg pre name args' fuel p := by
  have h0 := (arg_iff _ _ _).2 hn
  have h0' := (arg_none _ _).2 hn'
  have key : ∀ q' ∈ params, q'.name ≠ q.name → args.arg q'.name = args'.arg q'.name := fun q' hq' hne => same_arg (hs q' hq' hne)
  rcases tool_cases ht with ⟨rfl, rfl⟩ | ⟨rfl, rfl⟩ | ⟨rfl, rfl⟩
  · simp only [editFileParams, List.mem_cons, List.not_mem_nil, or_false, forall_eq_or_imp, forall_eq] at hq key
    refine call_same_reads (fun _ => ?_) (fun h => absurd (List.append_cancel_left h) (by decide)) (fun h => absurd (List.append_cancel_left h) (by decide)) p
    rcases hq with rfl | rfl | rfl
    · cases hr
    · cases hr
    · rw [editFileRequest, editFileRequest, requireString_congr (key.1 (by decide)), requireStringSlice_congr (key.2.1 (by decide))]
      simp only [getBool, h0, h0']
  · simp only [textedEvalParams, List.mem_cons, List.not_mem_nil, or_false, forall_eq_or_imp, forall_eq] at hq key
    refine call_same_reads (fun h => absurd (List.append_cancel_left h) (by decide)) (fun _ => ?_) (fun h => absurd (List.append_cancel_left h) (by decide)) p
    rcases hq with rfl | rfl | rfl
    · cases hr
    · cases hr
    · rw [evalRequest, evalRequest, requireString_congr (key.1 (by decide)), requireString_congr (key.2.1 (by decide))]
      simp only [getString, h0, h0']
  · simp only [textedDocParams, List.mem_cons, List.not_mem_nil, or_false, forall_eq_or_imp, forall_eq] at hq key
    refine call_same_reads (fun h => absurd (List.append_cancel_left h) (by decide)) (fun h => absurd (List.append_cancel_left h) (by decide)) (fun _ out => ?_) p
    rw [DocCall, DocCall]
    rcases hq with rfl | rfl | rfl
    · rw [getString_congr _ (key.2.1 (by decide)), getBool_congr _ (key.2.2 (by decide))]
      simp only [getString, h0, h0']
    · rw [getString_congr _ (key.1 (by decide)), getBool_congr _ (key.2.2 (by decide))]
      simp only [getString, h0, h0']
    · rw [getString_congr _ (key.1 (by decide)), getString_congr _ (key.2.1 (by decide))]
      simp only [getBool, h0, h0']

/-! ### Calls that follow the declaration -/

/-- **C84**: a call of edit_file that follows the declaration is refused exactly if its list of files is empty or contains something that
is no string (which the declaration allows). -/
theorem C84_edit_follows (reg : Registry) (pre : Bytes) (args : Json) (fuel : Nat) (p : Proc (Option McpAnswer)) (w w' : World) (ans : McpAnswer)
    (hf : Follows editFileParams args) (hc : McpCall reg pre (pre ++ b! "edit_file") args fuel p) (he : Ends p w (some ans) w') :
    (∃ e, ans = .result (.error e)) ↔ ∃ l, Given args (b! "files") (.arr l) ∧ (l = [] ∨ ∃ j ∈ l, ∀ s, j ≠ .str s) := by
  rw [C72_edit_error_mark reg pre args fuel p w w' ans hc he]
  simp only [Follows, editFileParams, List.mem_cons, List.not_mem_nil, or_false, forall_eq_or_imp, forall_eq, true_imp_iff] at hf
  obtain ⟨⟨⟨v, hv⟩, hvt⟩, ⟨⟨u, hu⟩, hut⟩, _⟩ := hf
  cases hvt v hv with | string script =>
  cases hut u hu with | array l =>
  constructor
  · intro h
    refine ⟨l, hu, ?_⟩
    cases hl : stringItems [] 0 l with
    | error e =>
      refine Or.inr (Classical.byContradiction fun hno => ?_)
      have : ∀ j ∈ l, ∃ s, j = .str s := fun j hj => Classical.byContradiction fun hj' => hno ⟨j, hj, fun s h => hj' ⟨s, h⟩⟩
      have : ∃ ss : List Bytes, l = ss.map .str := by
        clear hu hl hut h hno
        induction l with
        | nil => exact ⟨[], rfl⟩
        | cons j l ih =>
          obtain ⟨s, rfl⟩ := this j (by simp)
          obtain ⟨ss, rfl⟩ := ih fun j hj => this j (by simp [hj])
          exact ⟨s :: ss, rfl⟩
      obtain ⟨ss, rfl⟩ := this
      rw [(stringItems_iff [] _ 0 ss).2 rfl] at hl
      cases hl
    | ok ss =>
      have := (stringItems_iff [] l 0 ss).1 hl
      subst this
      refine Or.inl ?_
      cases ss with
      | nil => rfl
      | cons s ss => exact absurd ⟨hv, hu, by simp⟩ (h script (s :: ss))
  · rintro ⟨l', hl', h⟩ s files ⟨_, hg, hne⟩
    have := given_unique hl' hg
    cases this
    rcases h with h | ⟨j, hj, h⟩
    · simp at h; exact hne h
    · obtain ⟨x, _, rfl⟩ := List.mem_map.1 hj
      exact h x rfl

/-- **C84**: a call of texted_eval that follows the declaration is refused exactly if its `output` is another string than the two; every
other one runs the script on the input. -/
theorem C84_eval_follows (reg : Registry) (pre : Bytes) (args : Json) (fuel : Nat) (p : Proc (Option McpAnswer))
    (hf : Follows textedEvalParams args) (hc : McpCall reg pre (pre ++ b! "texted_eval") args fuel p) :
    ∃ input script, Given args (b! "input") (.str input) ∧ Given args (b! "script") (.str script) ∧
      (((∃ o, Given args (b! "output") (.str o) ∧ o ≠ b! "buffer" ∧ o ≠ b! "expression") ∧
          p = .ret (some (.result (.error (b! "output parameter must be 'buffer' or 'expression'"))))) ∨
        ∃ mode, (mode = b! "buffer" ∧ (NotGiven args (b! "output") ∨ Given args (b! "output") (.str (b! "buffer"))) ∨
            mode = b! "expression" ∧ Given args (b! "output") (.str (b! "expression"))) ∧
          p = (textedEvalHandler { input := .ok input, script := .ok script, output := mode }).bind fun r => .ret (some (.result r))) := by
  simp only [Follows, textedEvalParams, List.mem_cons, List.not_mem_nil, or_false, forall_eq_or_imp, forall_eq, true_imp_iff] at hf
  obtain ⟨⟨⟨v, hv⟩, hvt⟩, ⟨⟨u, hu⟩, hut⟩, _, hot⟩ := hf
  cases hvt v hv with | string input =>
  cases hut u hu with | string script =>
  refine ⟨input, script, hv, hu, ?_⟩
  have hp := call_textedEval.1 hc
  rw [evalRequest, (requireString_iff _ _ _).2 hv, (requireString_iff _ _ _).2 hu] at hp
  cases ho : args.arg (b! "output") with
  | none =>
    refine Or.inr ⟨b! "buffer", Or.inl ⟨rfl, Or.inl ((arg_none _ _).1 ho)⟩, ?_⟩
    rw [hp]
    have : getString args (b! "output") (b! "buffer") = b! "buffer" := by simp only [getString, ho]
    rw [this]
  | some j =>
    have hg := (arg_iff _ _ _).1 ho
    cases hot j hg with | string o =>
    have : getString args (b! "output") (b! "buffer") = o := by simp only [getString, ho]
    rw [this] at hp
    by_cases h1 : o = b! "buffer"
    · subst h1; exact Or.inr ⟨_, Or.inl ⟨rfl, Or.inr hg⟩, hp⟩
    · by_cases h2 : o = b! "expression"
      · subst h2; exact Or.inr ⟨_, Or.inr ⟨rfl, hg⟩, hp⟩
      · refine Or.inl ⟨⟨o, hg, h1, h2⟩, ?_⟩
        rw [hp, textedEvalHandler]
        simp only
        rw [if_pos ⟨h1, h2⟩]
        rfl

omit [Ext] in
theorem face_text {args : Json} {key : Bytes} (h : ∀ v, Given args key v → OfType .string v) : FaceValue args key Json.str [] (getString args key []) := by
  unfold FaceValue getString
  rw [← arg_iff, ← arg_none]
  cases ha : args.arg key with
  | none => exact .inr ⟨rfl, rfl⟩
  | some v => cases h v ((arg_iff _ _ _).1 ha); exact .inl rfl

omit [Ext] in
theorem face_bool {args : Json} {key : Bytes} (h : ∀ v, Given args key v → OfType .boolean v) : FaceValue args key Json.bool false (getBool args key false) := by
  unfold FaceValue getBool
  rw [← arg_iff, ← arg_none]
  cases ha : args.arg key with
  | none => exact .inr ⟨rfl, rfl⟩
  | some v => cases h v ((arg_iff _ _ _).1 ha); exact .inl rfl

/-- **C84**: in a call of texted_doc that follows the declaration every parameter means what it says: the function and the category are the
strings given, verbose is the truth value given; what is not given is empty or false. -/
theorem C84_doc_follows (reg : Registry) (pre : Bytes) (args : Json) (fuel : Nat) (p : Proc (Option McpAnswer)) (hf : Follows textedDocParams args) :
    ∃ functionName category verbose, FaceValue args (b! "function_name") Json.str [] functionName ∧ FaceValue args (b! "category") Json.str [] category ∧
      FaceValue args (b! "verbose") Json.bool false verbose ∧
      (McpCall reg pre (pre ++ b! "texted_doc") args fuel p ↔ ∃ out, TextedDoc reg functionName category verbose out ∧ p = .ret (some (.result out))) := by
  simp only [Follows, textedDocParams, List.mem_cons, List.not_mem_nil, or_false, forall_eq_or_imp, forall_eq] at hf
  refine ⟨_, _, _, face_text hf.1.2, face_text hf.2.1.2, face_bool hf.2.2.2, ?_⟩
  rw [call_textedDoc]
  rfl

/-- **C84**: in a call of edit_file that follows the declaration, the script is the string given, and it is repeated until it fails exactly if
loopUntilError is given as true. -/
theorem C84_edit_values (pre : Bytes) (reg : Registry) (args : Json) (fuel : Nat) (p : Proc (Option McpAnswer)) (hf : Follows editFileParams args)
    (hc : McpCall reg pre (pre ++ b! "edit_file") args fuel p) :
    ∃ script again, Given args (b! "script") (.str script) ∧ FaceValue args (b! "loopUntilError") Json.bool false again ∧
      p = (editFileHandler fuel { script := .ok script, files := requireStringSlice args (b! "files"), loopUntilError := again }).bind fun r => .ret (r.map .result) := by
  simp only [Follows, editFileParams, List.mem_cons, List.not_mem_nil, or_false, forall_eq_or_imp, forall_eq, true_imp_iff] at hf
  obtain ⟨⟨⟨v, hv⟩, hvt⟩, _, hb⟩ := hf
  cases hvt v hv with | string script =>
  refine ⟨script, _, hv, face_bool hb.2, ?_⟩
  rw [call_editFile.1 hc, editFileRequest, (requireString_iff _ _ _).2 hv]

/-- **C84**: a call of texted_doc needs no parameters: it is answered with an error exactly if both a function and a category are named, or
a function that is not documented, or a category without functions, or nothing is documented at all. -/
theorem C84_doc_errors (calls : List FunctionDoc) (pre : Bytes) (args : Json) (fuel : Nat) (out : ToolResult)
    (functionName category : Bytes) (hf : TextOr args (b! "function_name") [] functionName) (hca : TextOr args (b! "category") [] category)
    (hc : McpCall (registryOf calls) pre (pre ++ b! "texted_doc") args fuel (.ret (some (.result out)))) :
    (∃ e, out = .error e) ↔
      (functionName ≠ [] ∧ category ≠ []) ∨
      (functionName ≠ [] ∧ category = [] ∧ ∀ d, Registered calls d → d.name ≠ functionName) ∨
      (functionName = [] ∧ category ≠ [] ∧ ∀ d, Registered calls d → d.category ≠ category) ∨
      (functionName = [] ∧ category = [] ∧ calls = []) := by
  obtain ⟨out', verbose, _, h, ho⟩ := (C72_doc _ pre functionName category args fuel _ hf hca).1 hc
  injection ho with ho; injection ho with ho; injection ho with ho
  subst ho
  rw [TextedDoc] at h
  by_cases h1 : functionName = []
  · by_cases h2 : category = []
    · subst h1 h2
      simp only [ne_eq, not_true_eq_false, and_self, if_false, HandleAllFunctions] at h
      obtain ⟨docs, hd, h⟩ := h
      obtain ⟨_, hm⟩ := (C54_all calls docs).1 hd
      have hcalls : docs = [] ↔ calls = [] := by
        constructor
        · rintro rfl
          cases calls with
          | nil => rfl
          | cons c cs =>
            obtain ⟨d, hd⟩ : ∃ d, Registered (c :: cs) d := ⟨(c :: cs).getLast (by simp), (c :: cs).dropLast, [], by
              rw [List.dropLast_concat_getLast], by simp⟩
            exact absurd ((hm d).2 hd) (by simp)
        · rintro rfl
          cases docs with
          | nil => rfl
          | cons d ds =>
            obtain ⟨a, b, hab, _⟩ := (hm d).1 (by simp)
            simp at hab
      split at h
      · rename_i hdn
        rw [h]; simp [hcalls.1 hdn]
      · rename_i hdn
        obtain ⟨t, _, h⟩ := h
        rw [h]
        simp
        exact fun h => hdn (hcalls.2 h)
    · subst h1
      simp only [ne_eq, not_true_eq_false, false_and, if_false, h2, not_false_eq_true, if_true, HandleCategoryListing] at h
      obtain ⟨docs, hd, h⟩ := h
      obtain ⟨_, hm⟩ := (C54_by_category calls category docs).1 hd
      have hcalls : docs = [] ↔ ∀ d, Registered calls d → d.category ≠ category := by
        constructor
        · rintro rfl d hd hcat
          exact absurd ((hm d).2 ⟨hd, hcat⟩) (by simp)
        · intro hall
          cases docs with
          | nil => rfl
          | cons d ds =>
            obtain ⟨ha, hb⟩ := (hm d).1 (by simp)
            exact absurd hb (hall d ha)
      split at h
      · rename_i hdn
        obtain ⟨cats, _, h⟩ := h
        rw [h]; simp [h2]; exact hcalls.1 hdn
      · rename_i hdn
        obtain ⟨t, _, h⟩ := h
        rw [h]
        simp only [reduceCtorEq, exists_false, ne_eq, not_true_eq_false, h2, not_false_eq_true, false_and, true_and, and_false, or_false, false_or, false_iff]
        exact fun h => hdn (hcalls.2 h)
  · by_cases h2 : category = []
    · subst h2
      simp only [ne_eq, not_true_eq_false, and_false, if_false, h1, not_false_eq_true, if_true, HandleFunctionDoc] at h
      cases hl : (registryOf calls).lookup functionName with
      | some d =>
        rw [hl] at h
        obtain ⟨hd, hn⟩ := (C54_lookup calls functionName d).1 hl
        simp only at h
        rw [h]
        simp only [reduceCtorEq, exists_false, ne_eq, not_true_eq_false, h1, not_false_eq_true, false_and, true_and, and_false, or_false, false_or, false_iff]
        exact fun h => h d hd hn
      | none =>
        rw [hl] at h
        obtain ⟨all, _, h⟩ := h
        rw [h]
        simp only [ToolResult.error.injEq, exists_eq', ne_eq, not_true_eq_false, h1, not_false_eq_true, false_and, true_and, and_false, or_false, false_or, true_iff]
        intro d hd hn
        rw [(C54_lookup calls functionName d).2 ⟨hd, hn⟩] at hl
        cases hl
    · simp only [ne_eq, h1, h2, not_false_eq_true, and_self, if_true] at h
      rw [h]; simp [h1, h2]

/-! ### The declarations promise less, and more, than the handlers do -/

/-- **C84**, refuted: "a call that follows the declaration is not refused". An empty list of files, a list of numbers, another output. -/
theorem C84_false_follows (reg : Registry) (fuel : Nat) :
    (∀ files ∈ [[], [Json.num (.fin false 1 0)]], Follows editFileParams (.obj [(b! "script", .str []), (b! "files", .arr files)]) ∧
      ∀ p, McpCall reg [] (b! "edit_file") (.obj [(b! "script", .str []), (b! "files", .arr files)]) fuel p → ∃ e, p = .ret (some (.result (.error e)))) ∧
    Follows textedEvalParams (.obj [(b! "input", .str []), (b! "script", .str []), (b! "output", .str (b! "Buffer"))]) ∧
      ∀ p, McpCall reg [] (b! "texted_eval") (.obj [(b! "input", .str []), (b! "script", .str []), (b! "output", .str (b! "Buffer"))]) fuel p →
        ∃ e, p = .ret (some (.result (.error e))) := by
  refine ⟨fun files hfiles => ⟨?_, fun p hp => ?_⟩, ?_, fun p hp => ?_⟩
  · simp only [Follows, editFileParams, List.mem_cons, List.not_mem_nil, or_false, forall_eq_or_imp, forall_eq, true_imp_iff, ← arg_iff]
    refine ⟨⟨⟨_, rfl⟩, fun v h => ?_⟩, ⟨⟨_, rfl⟩, fun v h => ?_⟩, (fun h => nomatch h), fun v h => ?_⟩
    · cases (show some (Json.str []) = some v from h); exact .string _
    · cases (show some (Json.arr files) = some v from h); exact .array _
    · exact (nomatch (show none = some v from h))
  · refine C72_edit_refused reg [] _ fuel p hp ?_
    rintro s l ⟨_, h, hne⟩
    have h' := (arg_iff _ _ _).2 h
    have : Json.arr files = .arr (l.map .str) := Option.some.inj h'
    injection this with this
    subst this
    simp only [List.mem_cons, List.not_mem_nil, or_false] at hfiles
    rcases hfiles with hl | hl
    · exact hne (by simpa using hl)
    · cases l with
      | nil => cases hl
      | cons a l => simp at hl
  · simp only [Follows, textedEvalParams, List.mem_cons, List.not_mem_nil, or_false, forall_eq_or_imp, forall_eq, true_imp_iff, ← arg_iff]
    refine ⟨⟨⟨_, rfl⟩, fun v h => ?_⟩, ⟨⟨_, rfl⟩, fun v h => ?_⟩, (fun h => nomatch h), fun v h => ?_⟩
    · cases (show some (Json.str []) = some v from h); exact .string _
    · cases (show some (Json.str []) = some v from h); exact .string _
    · cases (show some (Json.str (b! "Buffer")) = some v from h); exact .string _
  · refine C72_eval_refused reg [] _ fuel p hp (Or.inr (Or.inr ⟨b! "Buffer", (arg_iff _ _ _).1 rfl, by decide, by decide⟩))

omit [Ext] in
/-- **C84**, refuted: "an option of another type than declared has no effect". `"loopUntilError": "T"` loops, `"loopUntilError": 1` too. -/
theorem C84_false_types : ∀ v ∈ [Json.str (b! "T"), .num (.fin false 1 0)], ¬ OfType .boolean v ∧
    OptionOn (.obj [(b! "loopUntilError", v)]) (b! "loopUntilError") := by
  simp only [List.mem_cons, List.not_mem_nil, or_false, forall_eq_or_imp, forall_eq, ← getBool_iff]
  exact ⟨⟨fun h => (nomatch h), by decide⟩, ⟨fun h => (nomatch h), by decide⟩⟩

/-! ### The hypotheses are met -/

/-- Other parameters and another order; here an undeclared parameter is added and an earlier duplicate dropped. -/
example (reg : Registry) (fuel : Nat) (p : Proc (Option McpAnswer)) (s : Bytes) :
    McpCall reg (b! "x_") (b! "x_texted_eval") (.obj [(b! "script", .str s), (b! "input", .str (b! "a"))]) fuel p ↔
    McpCall reg (b! "x_") (b! "x_texted_eval") (.obj [(b! "input", .null), (b! "foo", .null), (b! "input", .str (b! "a")), (b! "script", .str s)]) fuel p := by
  refine C84_only_declared reg _ _ textedEvalParams _ _ fuel (by decide) ?_ p
  simp only [SameGiven, textedEvalParams, List.mem_cons, List.not_mem_nil, or_false, forall_eq_or_imp, forall_eq, ← arg_iff]
  exact ⟨fun v => Iff.rfl, fun v => Iff.rfl, fun v => Iff.rfl⟩

/-- A call that follows the declaration. -/
example : Follows editFileParams (sampleArgs (b! "point") (.bool true)) := by
  simp only [Follows, editFileParams, List.mem_cons, List.not_mem_nil, or_false, forall_eq_or_imp, forall_eq, true_imp_iff, ← arg_iff]
  refine ⟨⟨⟨_, rfl⟩, fun v h => ?_⟩, ⟨⟨_, rfl⟩, fun v h => ?_⟩, (fun h => nomatch h), fun v h => ?_⟩
  · cases (show some (Json.str (b! "point")) = some v from h); exact .string _
  · cases (show some (Json.arr [.str (b! "a"), .str (b! "b")]) = some v from h); exact .array _
  · cases (show some (Json.bool true) = some v from h); exact .boolean _

/-- So does this call of texted_doc. -/
example : Follows textedDocParams (.obj [(b! "category", .str (b! "buffer")), (b! "verbose", .bool true)]) := by
  simp only [Follows, textedDocParams, List.mem_cons, List.not_mem_nil, or_false, forall_eq_or_imp, forall_eq, ← arg_iff]
  refine ⟨⟨(fun h => nomatch h), fun v h => ?_⟩, ⟨(fun h => nomatch h), fun v h => ?_⟩, (fun h => nomatch h), fun v h => ?_⟩
  · exact nomatch (show (none : Option Json) = some v from h)
  · cases (show some (Json.str (b! "buffer")) = some v from h); exact .string _
  · cases (show some (Json.bool true) = some v from h); exact .boolean _

end

end Texted
