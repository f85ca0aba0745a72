import Verif.Props.Docs
import Verif.Lemmas.LexState
/- C74: what the documentation shows. -/
namespace Texted
open Spec

theorem Spec.InOrder.gap {ps : List Bytes} {t : Bytes} (g : Bytes) (h : InOrder ps t) : InOrder ps (g ++ t) := by
  cases h with
  | nil => exact .nil _
  | cons gap part parts rest h => rw [← List.append_assoc, ← List.append_assoc]; exact .cons (g ++ gap) part parts rest h

theorem Spec.InOrder.tail {ps : List Bytes} {t : Bytes} (g : Bytes) (h : InOrder ps t) : InOrder ps (t ++ g) := by
  induction h with
  | nil => exact .nil _
  | cons gap part parts rest _ ih => rw [List.append_assoc]; exact .cons gap part parts _ ih

theorem Spec.InOrder.append {ps qs : List Bytes} {t u : Bytes} (h : InOrder ps t) (h' : InOrder qs u) : InOrder (ps ++ qs) (t ++ u) := by
  induction h with
  | nil => exact h'.gap _
  | cons gap part parts rest _ ih => rw [List.append_assoc, List.cons_append]; exact .cons gap part _ _ ih

theorem Spec.InOrder.self (g p r : Bytes) : InOrder [p] (g ++ p ++ r) := .cons g p [] r (.nil r)

theorem Spec.InOrder.one (p : Bytes) : InOrder [p] p := by
  have := InOrder.self [] p []
  simpa using this

theorem Spec.InOrder.flatMap {α : Type} (f : α → List Bytes) (g : α → Bytes) (h : ∀ a, InOrder (f a) (g a)) :
    ∀ l : List α, InOrder (l.flatMap f) (l.flatMap g)
  | [] => .nil _
  | a :: l => by rw [List.flatMap_cons, List.flatMap_cons]; exact (h a).append (InOrder.flatMap f g h l)

theorem Spec.InOrder.map {α : Type} (f : α → Bytes) (l : List α) : InOrder (l.map f) (l.flatMap f) := by
  have := InOrder.flatMap (fun a => [f a]) f (fun a => .one _) l
  have e : ∀ l : List α, l.flatMap (fun a => [f a]) = l.map f := by intro l; induction l <;> simp_all
  rwa [e] at this

theorem Spec.InOrder.join {sep : Bytes} {α : Type} (f : α → List Bytes) (g : α → Bytes) (h : ∀ a, InOrder (f a) (g a)) :
    ∀ l : List α, InOrder (l.flatMap f) (joinWith sep (l.map g))
  | [] => .nil _
  | [a] => by simpa [joinWith] using h a
  | a :: b :: l => by
    have ih := InOrder.join (sep := sep) f g h (b :: l)
    rw [List.flatMap_cons]
    simp only [List.map_cons, joinWith] at ih ⊢
    rw [List.append_assoc]
    exact (h a).append (ih.gap sep)

theorem cmdParamText_eq (p : ParameterDoc) : cmdParamText p = parameterLine p := by
  unfold cmdParamText parameterLine
  split <;> simp

theorem Spec.InOrder.when {c : Prop} [Decidable c] {ps : List Bytes} {t : Bytes} (h : ¬ c → InOrder ps t) :
    InOrder (if c then [] else ps) (if ¬ c then t else []) := by
  by_cases hc : c
  · rw [if_pos hc]; exact .nil _
  · rw [if_neg hc, if_pos hc]; exact h hc

theorem cmdExample_parts (x : ExampleDoc) : InOrder (exampleParts x) (cmdExampleText x) := by
  have e : cmdExampleText x = (([] ++ (b! "### " ++ x.description ++ b! "\n") ++ b! "\n") ++
      (if ¬ x.buffer = [] then b! "**Initial buffer:**\n" ++ (b! "```\n" ++ x.buffer ++ b! "\n```\n") ++ b! "\n" else [])) ++
      (([] ++ (b! "**Command:**\n```\n" ++ x.input ++ b! "\n```\n") ++ b! "\n") ++ ([] ++ (b! "**Result:**\n" ++ x.output ++ b! "\n") ++ [])) := by
    unfold cmdExampleText
    simp
  rw [e]
  exact (((InOrder.self _ _ _).append (.when fun _ => .self _ _ _))).append ((InOrder.self _ _ _).append (.self _ _ _))

/-- **The command shows the documentation of a function**: its name, summary, description, every parameter with its type and whether it
can be left out, every example, the category and all references, in that order. A name without documentation is refused. -/
theorem C74_command (title : Bytes → Bytes) (calls : List FunctionDoc) (name category : Bytes) (verbose : Bool) (out : Except Bytes Bytes)
    (h : RunDoc title (registryOf calls) [name] category verbose out) :
    (∀ d, Registered calls d → d.name = name → ∃ text, out = .ok text ∧ InOrder (docParts d) text) ∧
    ((∀ d, Registered calls d → d.name ≠ name) → out = .error (b! "no documentation found for function: " ++ name)) := by
  have h : out = showFunctionDoc (registryOf calls) name := h
  refine ⟨fun d hd hn => ?_, fun hd => ?_⟩
  · have hl := (C54_lookup calls name d).2 ⟨hd, hn⟩
    rw [showFunctionDoc, hl] at h
    refine ⟨_, h, ?_⟩
    unfold docParts
    have hp : InOrder (d.parameters.map parameterLine) (if d.parameters ≠ [] then b! "## Parameters\n\n" ++ d.parameters.flatMap cmdParamText ++ b! "\n" else []) := by
      by_cases hc : d.parameters = []
      · rw [hc]; exact .nil _
      · rw [if_pos hc]
        have : d.parameters.flatMap cmdParamText = d.parameters.flatMap parameterLine := by
          rw [show cmdParamText = parameterLine from funext cmdParamText_eq]
        rw [this]
        exact ((InOrder.map _ _).gap _).tail _
    have hx : InOrder (d.examples.flatMap exampleParts)
        (if d.examples ≠ [] then b! "## Examples\n\n" ++ joinWith b! "\n" (d.examples.map cmdExampleText) ++ b! "\n" else []) := by
      by_cases hc : d.examples = []
      · rw [hc]; exact .nil _
      · rw [if_pos hc]
        exact ((InOrder.join _ _ cmdExample_parts _).gap _).tail _
    have hs : InOrder (d.seeAlso.map fun r => b! "- " ++ r ++ b! "\n")
        (if d.seeAlso ≠ [] then b! "## See Also\n\n" ++ (d.seeAlso.flatMap fun r => b! "- " ++ r ++ b! "\n") ++ b! "\n" else []) := by
      by_cases hc : d.seeAlso = []
      · rw [hc]; exact .nil _
      · rw [if_pos hc]
        exact ((InOrder.map _ _).gap _).tail _
    have hd1 : InOrder [b! "# " ++ d.name ++ b! "\n", b! "**" ++ d.summary ++ b! "**\n"]
        (b! "# " ++ d.name ++ b! "\n\n" ++ b! "**" ++ d.summary ++ b! "**\n\n") := by
      have := (InOrder.self [] (b! "# " ++ d.name ++ b! "\n") b! "\n").append (InOrder.self [] (b! "**" ++ d.summary ++ b! "**\n") b! "\n")
      simpa using this
    have hd2 : InOrder (if d.description = [] then [] else [d.description ++ b! "\n"])
        (if d.description ≠ [] then b! "## Description\n\n" ++ d.description ++ b! "\n\n" else []) := by
      refine .when fun _ => ?_
      have := InOrder.self (b! "## Description\n\n") (d.description ++ b! "\n") b! "\n"
      simpa using this
    have hc : InOrder (if d.category = [] then [] else [d.category ++ b! "\n"])
        (if d.category ≠ [] then b! "## Category\n\n" ++ d.category ++ b! "\n\n" else []) := by
      refine .when fun _ => ?_
      have := InOrder.self (b! "## Category\n\n") (d.category ++ b! "\n") b! "\n"
      simpa using this
    exact ((((hd1.append hd2).append hp).append hx).append hc).append hs
  · have hl : (registryOf calls).lookup name = none := by
      rcases hx : (registryOf calls).lookup name with _ | d
      · rfl
      · have := (C54_lookup calls name d).1 hx
        exact absurd this.2 (hd d this.1)
    rw [showFunctionDoc, hl] at h
    exact h


/-! ### The tool -/

theorem chunksAux_parts (f : Nat) : ∀ s : Bytes, s.length ≤ f →
    (chunksAux f s).flatMap (·.2) = s ∧ ∀ p ∈ chunksAux f s, isSpace p.1 = true → p.2 = encodeRune p.1 := by
  induction f with
  | zero => intro s hs; have e : s = [] := List.eq_nil_of_length_eq_zero (by omega)
            subst e; simp [chunksAux]
  | succ f ih =>
    intro s hs
    rcases s with _ | ⟨x, s⟩
    · simp [chunksAux]
    · have hp := decodeRune_pos x s
      have hr := ih ((x :: s).drop (decodeRune (x :: s)).2) (by simp at hs ⊢; omega)
      rw [chunksAux]
      · refine ⟨?_, fun p hp hsp => ?_⟩
        · rw [List.flatMap_cons, hr.1]; exact List.take_append_drop _ _
        · rcases List.mem_cons.mp hp with rfl | hp
          · refine (encode_decode (x :: s) (by simp) fun h => ?_).1.symm
            rw [h.2] at hsp
            exact absurd hsp (by decide)
          · exact hr.2 p hp hsp
      · simp

theorem blank_chunks (l : List (Char × Bytes)) (h : ∀ p ∈ l, isSpace p.1 = true ∧ p.2 = encodeRune p.1) : Blank (l.flatMap (·.2)) := by
  refine ⟨l.map (·.1), ?_, ?_⟩
  · induction l with
    | nil => rfl
    | cons p l ih =>
      rw [List.flatMap_cons, List.map_cons, encodeAll_cons, ih fun q hq => h q (by simp [hq]), (h p (by simp)).2]
  · intro c hc
    obtain ⟨p, hp, rfl⟩ := List.mem_map.mp hc
    exact (h p hp).1

theorem trimSpace_split (s : Bytes) : ∃ l r, s = l ++ trimSpace s ++ r ∧ Blank l ∧ Blank r := by
  have hc := chunksAux_parts s.length s (Nat.le_refl _)
  change (chunks s).flatMap (·.2) = s ∧ ∀ p ∈ chunks s, _ at hc
  let f : Char × Bytes → Bool := fun p => isSpace p.1
  let a := (chunks s).takeWhile f
  let m := (chunks s).dropWhile f
  let z := (m.reverse.takeWhile f).reverse
  have e1 : chunks s = a ++ m := (List.takeWhile_append_dropWhile).symm
  have e2 : m = (m.reverse.dropWhile f).reverse ++ z := by
    rw [← List.reverse_append, List.takeWhile_append_dropWhile, List.reverse_reverse]
  refine ⟨a.flatMap (·.2), z.flatMap (·.2), ?_, ?_, ?_⟩
  · conv => lhs; rw [← hc.1, e1, e2]
    rw [List.flatMap_append, List.flatMap_append, List.append_assoc]
    rfl
  · refine blank_chunks _ fun p hp => ?_
    have h1 : f p = true := List.all_eq_true.mp (List.all_takeWhile) p hp
    exact ⟨h1, hc.2 p ((List.takeWhile_sublist f).subset hp) h1⟩
  · refine blank_chunks _ fun p hp => ?_
    have hp' := List.mem_reverse.mp hp
    have h1 : f p = true := List.all_eq_true.mp (List.all_takeWhile) p hp'
    exact ⟨h1, hc.2 p ((List.dropWhile_sublist f).subset (List.mem_reverse.mp ((List.takeWhile_sublist f).subset hp'))) h1⟩

theorem Spec.InOrder.trimmed {ps : List Bytes} {t : Bytes} (h : InOrder ps t) : InOrderTrimmed ps (trimSpace t) := by
  obtain ⟨l, r, e, hl, hr⟩ := trimSpace_split t
  exact ⟨l, r, hl, hr, e ▸ h⟩

theorem paramText_parts (p : ParameterDoc) : InOrder [b! "- **" ++ p.name ++ b! "** (" ++ p.type ++ b! ")", p.description] (paramText p) := by
  have e : paramText p = (b! "- **" ++ p.name ++ b! "** (" ++ p.type ++ b! ")") ++ ((if p.description ≠ [] then b! ": " ++ p.description else []) ++ [nl]) := by
    unfold paramText; simp
  rw [e]
  refine InOrder.append (ps := [_]) (qs := [_]) (.one _) ?_
  by_cases hd : p.description = []
  · rw [hd]; exact .self [] [] _
  · rw [if_pos hd]; exact .self _ _ _

theorem exampleText_parts (x : ExampleDoc) : InOrder [x.description, b! "```\n" ++ x.input ++ b! "\n```\n"] (exampleText x) := by
  have e : exampleText x = (if x.description ≠ [] then x.description ++ b! "\n\n" else []) ++ ([] ++ (b! "```\n" ++ x.input ++ b! "\n```\n") ++ b! "\n") := by
    unfold exampleText; simp
  rw [e]
  refine InOrder.append (ps := [_]) (qs := [_]) ?_ (.self _ _ _)
  by_cases hd : x.description = []
  · rw [hd]; exact .self [] [] []
  · rw [if_pos hd]; exact (InOrder.one _).tail _

/-- **The tool shows the documentation of a function** asked for by name: its name, summary, description, every parameter with its type,
every example, the category and all references, in that order. -/
theorem C74_tool (calls : List FunctionDoc) (name : Bytes) (verbose : Bool) (out : ToolResult) (hn : name ≠ [])
    (h : TextedDoc (registryOf calls) name [] verbose out) (d : FunctionDoc) (hd : Registered calls d) (hdn : d.name = name) :
    ∃ text, out = .text text ∧ InOrderTrimmed (toolParts d) text := by
  have hl := (C54_lookup calls name d).2 ⟨hd, hdn⟩
  simp only [TextedDoc, hn, ne_eq, not_true_eq_false, not_false_eq_true, and_false, if_false, if_true, HandleFunctionDoc, hl] at h
  refine ⟨_, h, InOrder.trimmed ?_⟩
  unfold toolParts
  have h1 : InOrder [b! "# " ++ d.name] (b! "# " ++ d.name ++ b! "\n\n") := (InOrder.one _).tail _
  have h2 : InOrder (if d.summary = [] then [] else [d.summary]) (if d.summary ≠ [] then b! "**" ++ d.summary ++ b! "**\n\n" else []) :=
    .when fun _ => .self _ _ _
  have h3 : InOrder (if d.description = [] then [] else [d.description]) (if d.description ≠ [] then d.description ++ b! "\n\n" else []) :=
    .when fun _ => (InOrder.one _).tail _
  have h4 : InOrder (d.parameters.flatMap fun p => [b! "- **" ++ p.name ++ b! "** (" ++ p.type ++ b! ")", p.description])
      (if d.parameters ≠ [] then b! "## Parameters\n\n" ++ d.parameters.flatMap paramText ++ b! "\n" else []) := by
    by_cases hc : d.parameters = []
    · rw [hc]; exact .nil _
    · rw [if_pos hc]
      exact ((InOrder.flatMap _ _ paramText_parts _).gap _).tail _
  have h5 : InOrder (d.examples.flatMap fun x => [x.description, b! "```\n" ++ x.input ++ b! "\n```\n"])
      (if d.examples ≠ [] then b! "## Examples\n\n" ++ d.examples.flatMap exampleText else []) := by
    by_cases hc : d.examples = []
    · rw [hc]; exact .nil _
    · rw [if_pos hc]
      exact (InOrder.flatMap _ _ exampleText_parts _).gap _
  have h6 : InOrder (if d.category = [] then [] else [b! "**Category:** " ++ d.category])
      (if d.category ≠ [] then b! "**Category:** " ++ d.category ++ b! "\n\n" else []) :=
    .when fun _ => (InOrder.one _).tail _
  have h7 : InOrder d.seeAlso (if d.seeAlso ≠ [] then b! "**See also:** " ++ joinWith b! ", " d.seeAlso ++ b! "\n" else []) := by
    by_cases hc : d.seeAlso = []
    · rw [hc]; exact .nil _
    · rw [if_pos hc]
      have := InOrder.join (sep := b! ", ") (fun r : Bytes => [r]) id (fun r => .one r) d.seeAlso
      rw [List.map_id, show d.seeAlso.flatMap (fun r => [r]) = d.seeAlso by simp [List.flatMap_singleton']] at this
      exact (this.gap _).tail _
  exact (((((h1.append h2).append h3).append h4).append h5).append h6).append h7

/-- **What the tool leaves out**: two entries that differ only in which parameters are optional, and in the starting texts and results of
their examples, are shown alike. So someone who asks the tool cannot see which parameters may be missing (the command tells). -/
theorem C74_tool_leaves_out (calls calls' : List FunctionDoc) (name : Bytes) (verbose : Bool) (hn : name ≠ []) (d d' : FunctionDoc)
    (hd : Registered calls d) (hd' : Registered calls' d') (he : d.name = name) (he' : d'.name = name)
    (h1 : d.summary = d'.summary) (h2 : d.description = d'.description) (h3 : d.category = d'.category) (h4 : d.seeAlso = d'.seeAlso)
    (hp : d.parameters.map (fun p => (p.name, p.type, p.description)) = d'.parameters.map fun p => (p.name, p.type, p.description))
    (hx : d.examples.map (fun x => (x.description, x.input)) = d'.examples.map fun x => (x.description, x.input)) (out : ToolResult) :
    TextedDoc (registryOf calls) name [] verbose out ↔ TextedDoc (registryOf calls') name [] verbose out := by
  have hl := (C54_lookup calls name d).2 ⟨hd, he⟩
  have hl' := (C54_lookup calls' name d').2 ⟨hd', he'⟩
  simp only [TextedDoc, hn, ne_eq, not_true_eq_false, not_false_eq_true, and_false, if_false, if_true, HandleFunctionDoc, hl, hl']
  have e1 : ∀ l l' : List ParameterDoc, l.map (fun p => (p.name, p.type, p.description)) = l'.map (fun p => (p.name, p.type, p.description)) →
      l.flatMap paramText = l'.flatMap paramText ∧ (l = [] ↔ l' = []) := by
    intro l
    induction l with
    | nil => intro l' h; cases l' with
      | nil => simp
      | cons => simp at h
    | cons p l ih => intro l' h; cases l' with
      | nil => simp at h
      | cons q l' =>
        simp only [List.map_cons, List.cons.injEq, Prod.mk.injEq] at h
        rw [List.flatMap_cons, List.flatMap_cons, (ih l' h.2).1, paramText, paramText, h.1.1, h.1.2.1, h.1.2.2]
        simp
  have e2 : ∀ l l' : List ExampleDoc, l.map (fun x => (x.description, x.input)) = l'.map (fun x => (x.description, x.input)) →
      l.flatMap exampleText = l'.flatMap exampleText ∧ (l = [] ↔ l' = []) := by
    intro l
    induction l with
    | nil => intro l' h; cases l' with
      | nil => simp
      | cons => simp at h
    | cons p l ih => intro l' h; cases l' with
      | nil => simp at h
      | cons q l' =>
        simp only [List.map_cons, List.cons.injEq, Prod.mk.injEq] at h
        rw [List.flatMap_cons, List.flatMap_cons, (ih l' h.2).1, exampleText, exampleText, h.1.1, h.1.2]
        simp
  have := e1 _ _ hp
  have := e2 _ _ hx
  have : formatFunctionDoc d = formatFunctionDoc d' := by
    simp only [formatFunctionDoc, he, he', h1, h2, h3, h4, (e1 _ _ hp).1, (e1 _ _ hp).2, (e2 _ _ hx).1, (e2 _ _ hx).2, ne_eq]
  rw [this]

/-! ### The lists -/

theorem listed_docs (calls : List FunctionDoc) (category : Bytes) (ds out : List FunctionDoc) (hl : Listed calls category ds) :
    (if category ≠ [] then DocumentationByCategory (registryOf calls) category out else AllDocumentation (registryOf calls) out) ↔ out = ds := by
  by_cases hc : category = []
  · rw [if_neg (by simp [hc]), C54_all]
    refine ⟨fun h => alphabetical_unique h.1 hl.1 fun d => by rw [h.2, hl.2]; simp [hc], ?_⟩
    rintro rfl
    exact ⟨hl.1, fun d => by rw [hl.2]; simp [hc]⟩
  · rw [if_pos hc, C54_by_category]
    refine ⟨fun h => alphabetical_unique h.1 hl.1 fun d => by rw [h.2, hl.2]; simp [hc], ?_⟩
    rintro rfl
    exact ⟨hl.1, fun d => by rw [hl.2]; simp [hc]⟩

/-- There is exactly one such list. -/
theorem C74_listed_exists (calls : List FunctionDoc) (category : Bytes) : ∃ ds, ∀ ds', Listed calls category ds' ↔ ds' = ds := by
  by_cases hc : category = []
  · obtain ⟨ds, h⟩ := C54_all_deterministic calls
    refine ⟨ds, fun ds' => ?_⟩
    rw [← h, C54_all]
    simp [Listed, hc]
  · obtain ⟨ds, h⟩ := C54_by_category_deterministic calls category
    refine ⟨ds, fun ds' => ?_⟩
    rw [← h, C54_by_category]
    simp [Listed, hc]

/-- **`texted doc` lists the functions**: without `--verbose` the names of all documented functions (or of those in the category), one on a
line, in alphabetical order, each once, and nothing else but a heading and the closing hints. -/
theorem C74_list (title : Bytes → Bytes) (calls : List FunctionDoc) (category : Bytes) (ds : List FunctionDoc) (hl : Listed calls category ds)
    (out : Except Bytes Bytes) (h : RunDoc title (registryOf calls) [] category false out) :
    (ds = [] → out = if category = [] then .ok b! "No documented functions found.\n" else .error (b! "no functions found in category: " ++ category)) ∧
    (ds ≠ [] → out = .ok ((if category = [] then b! "Available functions (" ++ natDec ds.length ++ b! " total):\n\n"
        else b! "Functions in category '" ++ category ++ b! "':\n\n") ++ (ds.flatMap fun d => b! "  " ++ d.name ++ b! "\n") ++
      b! "\nUse 'texted doc <function-name>' for detailed documentation.\nUse 'texted doc --verbose' to see function summaries.\n")) := by
  obtain ⟨docs, hd, h⟩ := h
  have e := (listed_docs calls category ds docs hl).1 hd
  subst e
  refine ⟨fun hn => ?_, fun hn => ?_⟩
  · rw [if_pos hn] at h
    rw [h]
    by_cases hc : category = [] <;> simp [hc]
  · rw [if_neg hn] at h
    rw [if_neg (show ¬ (false = true) by simp)] at h
    rw [h]
    by_cases hc : category = [] <;> simp [hc]

/-- With `--verbose`: the same functions with their summaries, grouped by category. -/
theorem C74_list_verbose (title : Bytes → Bytes) (calls : List FunctionDoc) (category : Bytes) (ds : List FunctionDoc) (hl : Listed calls category ds)
    (out : Except Bytes Bytes) (h : RunDoc title (registryOf calls) [] category true out) (hn : ds ≠ []) :
    ∃ body, InSections b! "other" title (fun d => b! "- **" ++ d.name ++ b! "**: " ++ d.summary ++ b! "\n") ds body ∧
      out = .ok ((if category = [] then b! "Available functions (" ++ natDec ds.length ++ b! " total):\n\n"
        else b! "Functions in category '" ++ category ++ b! "':\n\n") ++ body) := by
  obtain ⟨docs, hd, h⟩ := h
  have e := (listed_docs calls category ds docs hl).1 hd
  subst e
  rw [if_neg hn] at h
  obtain ⟨keys, ⟨hk1, hk2⟩, h⟩ := h
  refine ⟨keys.flatMap (cmdGroupText title docs), ⟨keys, hk1, fun c => by rw [hk2]; simp [groupName], rfl⟩, ?_⟩
  rw [h]
  by_cases hc : category = [] <;> simp [hc]

/-- **texted_doc lists the functions** in the same way. -/
theorem C74_tool_list (calls : List FunctionDoc) (category : Bytes) (ds : List FunctionDoc) (hl : Listed calls category ds) (hn : ds ≠ [])
    (out : ToolResult) (h : TextedDoc (registryOf calls) [] category false out) :
    out = .text (trimSpace (b! "# " ++ (if category = [] then b! "All functions" else b! "Functions in category '" ++ category ++ b! "'") ++
      b! "\n\nFound " ++ natDec ds.length ++ b! " function(s):\n\n" ++ ds.flatMap fun d => b! "- " ++ d.name ++ b! "\n")) := by
  have key := fun docs => listed_docs calls category ds docs hl
  by_cases hc : category = []
  · subst hc
    simp only [ne_eq, not_true_eq_false, if_false] at key
    simp only [TextedDoc, ne_eq, not_true_eq_false, and_self, if_false, HandleAllFunctions, key, exists_eq_left, if_neg hn, FormatFunctionList,
      Bool.false_eq_true] at h
    rw [h]; simp
  · simp only [ne_eq, hc, not_false_eq_true, if_true] at key
    simp only [TextedDoc, hc, ne_eq, not_true_eq_false, not_false_eq_true, false_and, if_false, if_true, HandleCategoryListing, key,
        exists_eq_left, if_neg hn, FormatFunctionList, Bool.false_eq_true] at h
    rw [h]; simp [hc]

/-- And with `verbose`, in sections. -/
theorem C74_tool_list_verbose (calls : List FunctionDoc) (category : Bytes) (ds : List FunctionDoc) (hl : Listed calls category ds) (hn : ds ≠ [])
    (out : ToolResult) (h : TextedDoc (registryOf calls) [] category true out) :
    ∃ body, InSections b! "Uncategorized" id (fun d => b! "- **" ++ d.name ++ b! "**" ++ (if d.summary = [] then [] else b! ": " ++ d.summary) ++ b! "\n") ds body ∧
      out = .text (trimSpace (b! "# " ++ (if category = [] then b! "All functions" else b! "Functions in category '" ++ category ++ b! "'") ++
        b! "\n\nFound " ++ natDec ds.length ++ b! " function(s):\n\n" ++ body)) := by
  have key := fun docs => listed_docs calls category ds docs hl
  have hg : ∀ keys : List Bytes, keys.flatMap (groupText ds) = keys.flatMap fun c => b! "## " ++ id c ++ b! "\n\n" ++
      (ds.filter fun d => (if d.category = [] then b! "Uncategorized" else d.category) = c).flatMap
        (fun d => b! "- **" ++ d.name ++ b! "**" ++ (if d.summary = [] then [] else b! ": " ++ d.summary) ++ b! "\n") ++ b! "\n" := by
    intro keys
    have : groupText ds = fun c => b! "## " ++ id c ++ b! "\n\n" ++
      (ds.filter fun d => (if d.category = [] then b! "Uncategorized" else d.category) = c).flatMap
        (fun d => b! "- **" ++ d.name ++ b! "**" ++ (if d.summary = [] then [] else b! ": " ++ d.summary) ++ b! "\n") ++ b! "\n" := by
      funext c
      simp only [groupText, groupName, id, ne_eq, ite_not]
      rfl
    rw [this]
  have hm : ∀ keys, MapKeys (ds.map (groupName b! "Uncategorized")) keys → keys.Nodup ∧
      ∀ c, c ∈ keys ↔ ∃ d ∈ ds, (if d.category = [] then b! "Uncategorized" else d.category) = c :=
    fun keys hk => ⟨hk.1, fun c => by rw [hk.2]; simp [groupName]⟩
  by_cases hc : category = []
  · subst hc
    simp only [ne_eq, not_true_eq_false, if_false] at key
    simp only [TextedDoc, ne_eq, not_true_eq_false, and_self, if_false, HandleAllFunctions, key, exists_eq_left, if_neg hn, FormatFunctionList,
      if_true] at h
    obtain ⟨t, ⟨keys, hk, ht⟩, ho⟩ := h
    refine ⟨_, ⟨keys, (hm keys hk).1, (hm keys hk).2, rfl⟩, ?_⟩
    rw [ho, ht, hg]; simp
  · simp only [ne_eq, hc, not_false_eq_true, if_true] at key
    simp only [TextedDoc, hc, ne_eq, not_true_eq_false, not_false_eq_true, false_and, if_false, if_true, HandleCategoryListing, key,
        exists_eq_left, if_neg hn, FormatFunctionList] at h
    obtain ⟨t, ⟨keys, hk, ht⟩, ho⟩ := h
    refine ⟨_, ⟨keys, (hm keys hk).1, (hm keys hk).2, rfl⟩, ?_⟩
    rw [ho, ht, hg]; simp [hc]

/-- **texted_doc and a category that has no functions**: the message offers all the categories there are, each once, in alphabetical order
(nothing is offered if no function has a category). -/
theorem C74_tool_unknown_category (calls : List FunctionDoc) (category : Bytes) (verbose : Bool) (hc : category ≠ [])
    (hn : ∀ d, Registered calls d → d.category ≠ category) (cats : List Bytes) (hs : cats.Pairwise (· < ·))
    (hm : ∀ c, c ∈ cats ↔ c ≠ [] ∧ ∃ d, Registered calls d ∧ d.category = c)
    (out : ToolResult) (h : TextedDoc (registryOf calls) [] category verbose out) :
    out = .error (if cats = [] then b! "No functions found in category '" ++ category ++ b! "'"
      else b! "No functions found in category '" ++ category ++ b! "'. Available categories: " ++ joinWith b! ", " cats) := by
  have hl : Listed calls category [] := ⟨by simp [Alphabetical], fun d => by
    constructor
    · intro h; cases h
    · rintro ⟨h1, h2⟩
      exact absurd (h2.resolve_left hc) (hn d h1)⟩
  have key := fun docs => listed_docs calls category [] docs hl
  simp only [ne_eq, hc, not_false_eq_true, if_true] at key
  have hcats : Categories (registryOf calls) cats := (C54_categories calls cats).2 ⟨hs, fun c => by
    rw [hm]⟩
  obtain ⟨o, ho⟩ := C54_categories_deterministic calls
  have e := (ho cats).1 hcats
  subst e
  simp only [TextedDoc, hc, ne_eq, not_true_eq_false, not_false_eq_true, false_and, if_false, if_true, HandleCategoryListing, key,
    exists_eq_left, ho] at h
  rw [h]
  by_cases hcs : cats = [] <;> simp [hcs]

/-- A misspelt category, with the calls below. -/
example : TextedDoc (registryOf [bareDoc b! "kill-line" b! "editing", bareDoc b! "point" b! "buffer", bareDoc b! "x" b! "editing"]) [] b! "edit" false
    (.error b! "No functions found in category 'edit'. Available categories: buffer, editing") := by
  obtain ⟨out, h⟩ : ∃ out, TextedDoc (registryOf [bareDoc b! "kill-line" b! "editing", bareDoc b! "point" b! "buffer", bareDoc b! "x" b! "editing"]) [] b! "edit" false out := by
    obtain ⟨out, h⟩ := C54_tool_deterministic [bareDoc b! "kill-line" b! "editing", bareDoc b! "point" b! "buffer", bareDoc b! "x" b! "editing"] [] b! "edit" false (.inl rfl)
    exact ⟨out, (h out).2 rfl⟩
  have hr : ∀ d, Registered [bareDoc b! "kill-line" b! "editing", bareDoc b! "point" b! "buffer", bareDoc b! "x" b! "editing"] d ↔
      d = bareDoc b! "x" b! "editing" ∨ d = bareDoc b! "point" b! "buffer" ∨ d = bareDoc b! "kill-line" b! "editing" := by
    intro d
    rw [← C54_registry]
    have e : ∀ d, d ∈ registryOf [bareDoc b! "kill-line" b! "editing", bareDoc b! "point" b! "buffer", bareDoc b! "x" b! "editing"] ↔
        d ∈ [bareDoc b! "x" b! "editing", bareDoc b! "point" b! "buffer", bareDoc b! "kill-line" b! "editing"] := by
      have : (registryOf [bareDoc b! "kill-line" b! "editing", bareDoc b! "point" b! "buffer", bareDoc b! "x" b! "editing"]).Perm
        [bareDoc b! "x" b! "editing", bareDoc b! "point" b! "buffer", bareDoc b! "kill-line" b! "editing"] := by decide
      exact fun d => this.mem_iff
    rw [e]; simp
  have := C74_tool_unknown_category [bareDoc b! "kill-line" b! "editing", bareDoc b! "point" b! "buffer", bareDoc b! "x" b! "editing"] b! "edit" false (by decide)
    (by intro d hd; rcases (hr d).1 hd with rfl | rfl | rfl <;> decide) [b! "buffer", b! "editing"] (by decide)
    (by
      intro c
      simp only [hr]
      constructor
      · intro hc
        rcases List.mem_cons.mp hc with rfl | hc
        · exact ⟨by decide, _, .inr (.inl rfl), rfl⟩
        · rw [List.mem_singleton.mp hc]; exact ⟨by decide, _, .inl rfl, rfl⟩
      · rintro ⟨_, d, rfl | rfl | rfl, rfl⟩ <;> decide) out h
  rw [this] at h
  exact h

/-! ### A case -/

/-- An entry with a mandatory and an optional parameter, and an example. -/
def sampleDoc : FunctionDoc :=
  ⟨b! "kill-line", b! "Delete lines", b! "Deletes to the end of the line.", [⟨b! "count", b! "number", b! "how many", true⟩, ⟨b! "x", b! "string", b! "", false⟩],
    [⟨b! "One line", b! "kill-line", b! "ab", b! "b"⟩], [b! "delete-line"], b! "editing"⟩

/-- An earlier registration of the same name, and one of another. -/
def sampleCalls : List FunctionDoc := [bareDoc b! "kill-line" b! "old", sampleDoc, bareDoc b! "delete-line" b! "editing"]

theorem sample_registered : Registered sampleCalls sampleDoc := ⟨[bareDoc b! "kill-line" b! "old"], [bareDoc b! "delete-line" b! "editing"], rfl, by decide⟩

/-- What is shown of it says that the first parameter is optional and the second is not. -/
example (title : Bytes → Bytes) (out : Except Bytes Bytes) (h : RunDoc title (registryOf sampleCalls) [b! "kill-line"] [] false out) :
    ∃ text, out = .ok text ∧ InOrder [b! "# kill-line\n", b! "**Delete lines**\n", b! "Deletes to the end of the line.\n",
      b! "- **count** (number) (optional): how many\n", b! "- **x** (string): \n", b! "### One line\n", b! "```\nab\n```\n",
      b! "**Command:**\n```\nkill-line\n```\n", b! "**Result:**\nb\n", b! "editing\n", b! "- delete-line\n"] text :=
  (C74_command title sampleCalls _ _ _ out h).1 sampleDoc sample_registered rfl

/-- The list of these calls: the entry registered first is gone. -/
theorem sample_listed : Listed sampleCalls b! "editing" [bareDoc b! "delete-line" b! "editing", sampleDoc] := by
  refine ⟨by unfold Alphabetical; decide, fun d => ?_⟩
  rw [← C54_registry]
  have e : registryOf sampleCalls = [bareDoc b! "delete-line" b! "editing", sampleDoc] := by decide
  rw [e]
  constructor
  · intro h
    refine ⟨h, .inr ?_⟩
    rcases List.mem_cons.mp h with rfl | h
    · rfl
    · rw [List.mem_singleton.mp h]; rfl
  · exact fun h => h.1

example (title : Bytes → Bytes) : RunDoc title (registryOf sampleCalls) [] b! "editing" false
    (.ok b! "Functions in category 'editing':\n\n  delete-line\n  kill-line\n\nUse 'texted doc <function-name>' for detailed documentation.\nUse 'texted doc --verbose' to see function summaries.\n") := by
  obtain ⟨out, h⟩ := C54_command_deterministic title sampleCalls [] b! "editing" false (.inl rfl)
  have h1 := (h out).2 rfl
  rw [(C74_list title sampleCalls _ _ sample_listed out h1).2 (by simp)] at h1
  exact h1

example : ∃ out, TextedDoc (registryOf sampleCalls) b! "kill-line" [] false out := ⟨_, rfl⟩

end Texted
