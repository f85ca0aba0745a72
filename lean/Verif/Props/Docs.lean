import Verif.Spec.Docs
import Verif.Model.DocTable
import Verif.Props.Frame
/- C54: listings do not depend on the order of map iteration (except the verbose ones). C55, C63: the documentation and the functions. -/
namespace Texted
open Spec

/-! ### The registry -/

theorem mem_register (reg : Registry) (d x : FunctionDoc) : x ∈ reg.register d ↔ x = d ∨ (x ∈ reg ∧ x.name ≠ d.name) := by
  simp [Registry.register]

theorem registered_snoc (calls : List FunctionDoc) (d x : FunctionDoc) :
    Registered (calls ++ [d]) x ↔ x = d ∨ (Registered calls x ∧ x.name ≠ d.name) := by
  constructor
  · rintro ⟨pre, post, h, hp⟩
    rcases List.eq_nil_or_concat post with rfl | ⟨post', y, rfl⟩
    · have := List.append_inj_right' h rfl
      simp at this; exact .inl this.symm
    · rw [List.concat_eq_append, ← List.cons_append, ← List.append_assoc] at h
      obtain ⟨h1, h2⟩ := List.append_inj' h rfl
      simp at h2
      subst h2
      exact .inr ⟨⟨pre, post', h1, fun z hz => hp z (by simp [hz])⟩, fun he => hp d (by simp) he.symm⟩
  · rintro (rfl | ⟨⟨pre, post, rfl, hp⟩, hn⟩)
    · exact ⟨calls, [], rfl, by simp⟩
    · refine ⟨pre, post ++ [d], by simp, fun z hz => ?_⟩
      rcases List.mem_append.mp hz with hz | hz
      · exact hp z hz
      · simp at hz; subst hz; exact fun he => hn he.symm

/-- Registering keeps, under each name, exactly what was registered last. -/
theorem C54_registry (calls : List FunctionDoc) (d : FunctionDoc) : d ∈ registryOf calls ↔ Registered calls d := by
  have key : ∀ n (calls : List FunctionDoc), calls.length = n → ∀ d, d ∈ registryOf calls ↔ Registered calls d := by
    intro n
    induction n with
    | zero =>
      intro calls h d
      have : calls = [] := List.length_eq_zero_iff.mp h
      subst this
      simp [registryOf, Registered]
    | succ n ih =>
      intro calls h d
      rcases List.eq_nil_or_concat calls with rfl | ⟨cs, y, rfl⟩
      · simp at h
      · rw [List.concat_eq_append] at h ⊢
        rw [registered_snoc, show registryOf (cs ++ [y]) = (registryOf cs).register y by simp [registryOf], mem_register, ih cs (by simpa using h)]
  exact key _ calls rfl d

theorem registry_names (calls : List FunctionDoc) : ((registryOf calls).map (·.name)).Nodup := by
  have key : ∀ (calls : List FunctionDoc) (reg : Registry), (reg.map (·.name)).Nodup → ((calls.foldl Registry.register reg).map (·.name)).Nodup := by
    intro calls
    induction calls with
    | nil => exact fun reg h => h
    | cons d ds ih =>
      intro reg h
      refine ih _ ?_
      simp only [Registry.register, List.map_cons, List.nodup_cons]
      refine ⟨by simp, h.sublist (List.Sublist.map _ List.filter_sublist)⟩
  exact key calls [] (by simp)

theorem registered_inj {calls : List FunctionDoc} {d e : FunctionDoc} (hd : d ∈ registryOf calls) (he : e ∈ registryOf calls) (h : d.name = e.name) : d = e := by
  have hn : ∀ (l : List FunctionDoc), (l.map (·.name)).Nodup → d ∈ l → e ∈ l → d = e := by
    intro l
    induction l with
    | nil => simp
    | cons x xs ih =>
      intro hn hd he
      simp only [List.map_cons, List.nodup_cons] at hn
      rcases List.mem_cons.mp hd with rfl | hd <;> rcases List.mem_cons.mp he with rfl | he
      · rfl
      · exact absurd (List.mem_map.mpr ⟨e, he, h.symm⟩) hn.1
      · exact absurd (List.mem_map.mpr ⟨d, ‹d ∈ xs›, h⟩) hn.1
      · exact ih hn.2 hd he
  exact hn _ (registry_names calls) hd he

/-- Looking a name up finds what was registered last under it, and nothing else. -/
theorem C54_lookup (calls : List FunctionDoc) (name : Bytes) (d : FunctionDoc) :
    (registryOf calls).lookup name = some d ↔ Registered calls d ∧ d.name = name := by
  rw [← C54_registry, Registry.lookup]
  constructor
  · intro h
    exact ⟨List.mem_of_find?_eq_some h, by simpa using List.find?_some h⟩
  · rintro ⟨h, rfl⟩
    rcases hx : (registryOf calls).find? (fun x => x.name = d.name) with _ | e
    · exact absurd (List.find?_eq_none.mp hx d h) (by simp)
    · rw [hx, registered_inj (List.mem_of_find?_eq_some hx) h (by simpa using List.find?_some hx)]

/-! ### Sorting -/

theorem bytes_lt_of_not (a b : Bytes) (h : ¬ b < a) (hn : a ≠ b) : a < b := by
  rcases Std.lt_trichotomy a b with h' | h' | h'
  · exact h'
  · exact absurd h' hn
  · exact absurd h' h

theorem bytes_lt_asymm {a b : Bytes} (h : a < b) : ¬ b < a := fun h' => absurd (List.lt_trans h h') (List.lt_irrefl _)

theorem sorted_exists (docs : List FunctionDoc) : ∃ out, SortedByName docs out := by
  refine ⟨docs.mergeSort (fun a b => decide (¬ b.name < a.name)), List.mergeSort_perm _ _, ?_⟩
  have := List.pairwise_mergeSort (le := fun a b : FunctionDoc => decide (¬ b.name < a.name)) ?_ ?_ docs
  · exact this.imp (by intro a b h; simpa using h)
  · intro a b c h1 h2
    simp only [decide_eq_true_eq] at h1 h2 ⊢
    exact fun h => by
      rcases Std.lt_trichotomy b.name c.name with h' | h' | h'
      · exact h1 (List.lt_trans h' h)
      · rw [h'] at h1; exact h1 h
      · exact h2 h'
  · intro a b
    by_cases h : b.name < a.name
    · simp [h, bytes_lt_asymm h]
    · simp [h]

/-- A sorted list without repeated names is in strict alphabetical order. -/
theorem sorted_strict {docs out : List FunctionDoc} (h : SortedByName docs out) (hn : (docs.map (·.name)).Nodup) : Alphabetical out := by
  have hn' : (out.map (·.name)).Nodup := (h.1.map _).nodup_iff.mpr hn
  rw [List.Nodup, List.pairwise_map] at hn'
  exact (h.2.and hn').imp fun h => bytes_lt_of_not _ _ h.1 h.2

theorem alphabetical_sorted {out : List FunctionDoc} (h : Alphabetical out) : out.Pairwise fun a b => ¬ b.name < a.name :=
  h.imp fun h => bytes_lt_asymm h

/-- Alphabetical lists with the same entries are equal. -/
theorem alphabetical_unique {a b : List FunctionDoc} (ha : Alphabetical a) (hb : Alphabetical b) (h : ∀ d, d ∈ a ↔ d ∈ b) : a = b := by
  have nd : ∀ {l : List FunctionDoc}, Alphabetical l → l.Nodup := fun hl => hl.imp fun h e => by rw [e] at h; exact List.lt_irrefl _ h
  refine ((List.perm_ext_iff_of_nodup (nd ha) (nd hb)).mpr h).eq_of_pairwise ?_ ha hb
  intro x y _ _ h1 h2
  exact absurd h2 (bytes_lt_asymm h1)

/-- What GetAllDocumentation returns, whatever the order of map iteration and the sorting method: the registered entries, each once, in
alphabetical order. -/
theorem C54_all (calls : List FunctionDoc) (out : List FunctionDoc) :
    AllDocumentation (registryOf calls) out ↔ Alphabetical out ∧ ∀ d, d ∈ out ↔ Registered calls d := by
  constructor
  · rintro ⟨order, ho, hs⟩
    refine ⟨sorted_strict hs ((ho.map _).nodup_iff.mpr (registry_names calls)), fun d => ?_⟩
    rw [← C54_registry, hs.1.mem_iff, ho.mem_iff]
  · rintro ⟨ha, hm⟩
    obtain ⟨out', hs⟩ := sorted_exists (registryOf calls)
    have : out = out' := alphabetical_unique ha (sorted_strict hs (registry_names calls)) fun d => by rw [hm, ← C54_registry, hs.1.mem_iff]
    exact ⟨registryOf calls, .refl _, this ▸ hs⟩

/-- There is exactly one possible answer. -/
theorem C54_all_deterministic (calls : List FunctionDoc) : ∃ out, ∀ out', AllDocumentation (registryOf calls) out' ↔ out' = out := by
  obtain ⟨out, hs⟩ := sorted_exists (registryOf calls)
  have h : AllDocumentation (registryOf calls) out := ⟨_, .refl _, hs⟩
  refine ⟨out, fun out' => ⟨fun h' => ?_, fun e => e ▸ h⟩⟩
  rw [C54_all] at h h'
  exact alphabetical_unique h'.1 h.1 fun d => by rw [h'.2, h.2]

/-- GetDocumentationByCategory: the registered entries of that category, each once, in alphabetical order. -/
theorem C54_by_category (calls : List FunctionDoc) (category : Bytes) (out : List FunctionDoc) :
    DocumentationByCategory (registryOf calls) category out ↔
      Alphabetical out ∧ ∀ d, d ∈ out ↔ Registered calls d ∧ d.category = category := by
  have hnd : ∀ {order : List FunctionDoc}, order.Perm (registryOf calls) → ((order.filter fun d => d.category = category).map (·.name)).Nodup :=
    fun ho => ((ho.map _).nodup_iff.mpr (registry_names calls)).sublist (List.Sublist.map _ List.filter_sublist)
  constructor
  · rintro ⟨order, ho, hs⟩
    refine ⟨sorted_strict hs (hnd ho), fun d => ?_⟩
    rw [← C54_registry, hs.1.mem_iff, List.mem_filter, ho.mem_iff]
    simp
  · rintro ⟨ha, hm⟩
    obtain ⟨out', hs⟩ := sorted_exists ((registryOf calls).filter fun d => d.category = category)
    have : out = out' := alphabetical_unique ha (sorted_strict hs (hnd (.refl _))) fun d => by
      rw [hm, ← C54_registry, hs.1.mem_iff, List.mem_filter]; simp
    exact ⟨registryOf calls, .refl _, this ▸ hs⟩

/-- There is exactly one possible answer. -/
theorem C54_by_category_deterministic (calls : List FunctionDoc) (category : Bytes) :
    ∃ out, ∀ out', DocumentationByCategory (registryOf calls) category out' ↔ out' = out := by
  obtain ⟨out, hs⟩ := sorted_exists ((registryOf calls).filter fun d => d.category = category)
  have h : DocumentationByCategory (registryOf calls) category out := ⟨_, .refl _, hs⟩
  refine ⟨out, fun out' => ⟨fun h' => ?_, fun e => e ▸ h⟩⟩
  rw [C54_by_category] at h h'
  exact alphabetical_unique h'.1 h.1 fun d => by rw [h'.2, h.2]

/-- GetCategories: the non-empty categories of the registered entries, each once, in alphabetical order. -/
theorem C54_categories (calls : List FunctionDoc) (out : List Bytes) :
    Categories (registryOf calls) out ↔
      out.Pairwise (· < ·) ∧ ∀ c, c ∈ out ↔ c ≠ [] ∧ ∃ d, Registered calls d ∧ d.category = c := by
  have hmem : ∀ c, c ∈ ((registryOf calls).map (·.category)).filter (fun c => c ≠ []) ↔ c ≠ [] ∧ ∃ d, Registered calls d ∧ d.category = c := by
    intro c
    simp only [List.mem_filter, List.mem_map, decide_eq_true_eq, ← C54_registry]
    exact And.comm
  have nd : ∀ {l : List Bytes}, l.Pairwise (· < ·) → l.Nodup := fun hl => hl.imp fun h e => by rw [e] at h; exact List.lt_irrefl _ h
  constructor
  · rintro ⟨keys, ⟨hn, hk⟩, hp, hs⟩
    refine ⟨(hs.and (hp.nodup_iff.mpr hn)).imp fun h => bytes_lt_of_not _ _ h.1 h.2, fun c => ?_⟩
    rw [hp.mem_iff, hk, hmem]
  · rintro ⟨ha, hm⟩
    exact ⟨out, ⟨nd ha, fun c => by rw [hm, hmem]⟩, .refl _, ha.imp fun h => bytes_lt_asymm h⟩

theorem mapKeys_exists (l : List Bytes) : ∃ keys, MapKeys l keys := by
  induction l with
  | nil => exact ⟨[], by simp [MapKeys]⟩
  | cons a l ih =>
    obtain ⟨keys, hn, hk⟩ := ih
    by_cases h : a ∈ l
    · exact ⟨keys, hn, fun k => by rw [hk, List.mem_cons]; exact ⟨.inr, fun h' => h'.elim (fun e => e ▸ h) id⟩⟩
    · exact ⟨a :: keys, List.nodup_cons.mpr ⟨fun h' => h ((hk a).mp h'), hn⟩, fun k => by simp [hk]⟩

/-- There is exactly one possible answer. -/
theorem C54_categories_deterministic (calls : List FunctionDoc) : ∃ out, ∀ out', Categories (registryOf calls) out' ↔ out' = out := by
  have nd : ∀ {l : List Bytes}, l.Pairwise (· < ·) → l.Nodup := fun hl => hl.imp fun h e => by rw [e] at h; exact List.lt_irrefl _ h
  have ex : ∃ out, Categories (registryOf calls) out := by
    let cs := ((registryOf calls).map (·.category)).filter fun c => c ≠ []
    obtain ⟨keys, hk⟩ := mapKeys_exists cs
    have hp := List.mergeSort_perm keys (fun a b => decide (¬ b < a))
    have := List.pairwise_mergeSort (le := fun a b : Bytes => decide (¬ b < a)) ?_ ?_ keys
    · exact ⟨_, keys, hk, hp, this.imp (by intro a b h; simpa using h)⟩
    · intro a b c h1 h2
      simp only [decide_eq_true_eq] at h1 h2 ⊢
      exact fun h => by
        rcases Std.lt_trichotomy b c with h' | h' | h'
        · exact h1 (List.lt_trans h' h)
        · rw [h'] at h1; exact h1 h
        · exact h2 h'
    · intro a b
      by_cases h : b < a
      · simp [h, bytes_lt_asymm h]
      · simp [h]
  obtain ⟨out, h⟩ := ex
  refine ⟨out, fun out' => ⟨fun h' => ?_, fun e => e ▸ h⟩⟩
  rw [C54_categories] at h h'
  refine ((List.perm_ext_iff_of_nodup (nd h'.1) (nd h.1)).mpr fun d => by rw [h'.2, h.2]).eq_of_pairwise ?_ h'.1 h.1
  intro x y _ _ h1 h2
  exact absurd h2 (bytes_lt_asymm h1)

/-! ### The tool and the command -/

/-- Without `verbose`, and whenever a function is named, texted_doc has exactly one possible answer. -/
theorem C54_tool_deterministic (calls : List FunctionDoc) (functionName category : Bytes) (verbose : Bool)
    (h : verbose = false ∨ functionName ≠ []) :
    ∃ out, ∀ out', TextedDoc (registryOf calls) functionName category verbose out' ↔ out' = out := by
  obtain ⟨all, hall⟩ := C54_all_deterministic calls
  obtain ⟨bycat, hbycat⟩ := C54_by_category_deterministic calls category
  obtain ⟨cats, hcats⟩ := C54_categories_deterministic calls
  by_cases hf : functionName = []
  · have hv : verbose = false := h.resolve_right (fun h => h hf)
    by_cases hc : category = []
    · simp only [TextedDoc, hf, hc, ne_eq, not_true_eq_false, and_self, if_false, HandleAllFunctions, hall, exists_eq_left, FormatFunctionList, hv, Bool.false_eq_true]
      split
      · exact ⟨_, fun _ => Iff.rfl⟩
      · exact ⟨_, fun _ => Iff.rfl⟩
    · simp only [TextedDoc, hf, hc, ne_eq, not_true_eq_false, not_false_eq_true, false_and, if_false, if_true, HandleCategoryListing, hbycat, hcats,
        exists_eq_left, FormatFunctionList, hv, Bool.false_eq_true]
      split
      · exact ⟨_, fun _ => Iff.rfl⟩
      · exact ⟨_, fun _ => Iff.rfl⟩
  · by_cases hc : category = []
    · simp only [TextedDoc, hf, hc, ne_eq, not_true_eq_false, not_false_eq_true, and_false, if_false, if_true, HandleFunctionDoc, hall, exists_eq_left]
      split
      · exact ⟨_, fun _ => Iff.rfl⟩
      · exact ⟨_, fun _ => Iff.rfl⟩
    · simp only [TextedDoc, hf, hc, ne_eq, not_false_eq_true, and_self, if_true]
      exact ⟨_, fun _ => Iff.rfl⟩

/-- Without `--verbose`, and whenever a function is named, `texted doc` has exactly one possible outcome. -/
theorem C54_command_deterministic (title : Bytes → Bytes) (calls : List FunctionDoc) (args : List Bytes) (category : Bytes) (verbose : Bool)
    (h : verbose = false ∨ args ≠ []) :
    ∃ out, ∀ out', RunDoc title (registryOf calls) args category verbose out' ↔ out' = out := by
  obtain ⟨all, hall⟩ := C54_all_deterministic calls
  obtain ⟨bycat, hbycat⟩ := C54_by_category_deterministic calls category
  rcases args with _ | ⟨a, _ | ⟨b, rest⟩⟩
  · have hv : verbose = false := h.resolve_right (fun h => h rfl)
    by_cases hc : category = []
    · simp only [RunDoc, ListFunctions, hc, ne_eq, not_true_eq_false, if_false, hall, exists_eq_left, hv, Bool.false_eq_true]
      split
      · exact ⟨_, fun _ => Iff.rfl⟩
      · exact ⟨_, fun _ => Iff.rfl⟩
    · simp only [RunDoc, ListFunctions, hc, ne_eq, not_false_eq_true, if_true, hbycat, exists_eq_left, hv, Bool.false_eq_true, if_false]
      split
      · exact ⟨_, fun _ => Iff.rfl⟩
      · exact ⟨_, fun _ => Iff.rfl⟩
  · exact ⟨_, fun _ => Iff.rfl⟩
  · exact ⟨_, fun _ => Iff.rfl⟩

theorem suggest_acc (f : Bytes) (docs : List FunctionDoc) (acc : List Bytes) (h : acc.length < 3) :
    suggestLoop f docs acc =
      acc ++ ((docs.map (·.name)).filter fun n => containsSub n f || containsSub f n).take (3 - acc.length) := by
  induction docs generalizing acc with
  | nil => simp [suggestLoop]
  | cons d docs ih =>
    simp only [suggestLoop, List.map_cons, List.filter_cons]
    by_cases hm : containsSub d.name f || containsSub f d.name
    · simp only [hm, if_true]
      by_cases hl : (acc ++ [d.name]).length ≥ 3
      · have : 3 - acc.length = 1 := by simp at hl; omega
        rw [if_pos hl, this]; simp
      · rw [if_neg hl, ih _ (by omega)]
        have e : 3 - acc.length = (3 - (acc ++ [d.name]).length) + 1 := by simp at hl ⊢; omega
        rw [e, List.take_succ_cons]; simp
    · rw [if_neg hm, if_neg hm, ih acc h]

/-- An unknown function name is refused; the message suggests the first three documented names, in alphabetical order, that contain the
name or are contained in it. -/
theorem C54_suggestions (calls : List FunctionDoc) (functionName : Bytes) (verbose : Bool) (hf : functionName ≠ [])
    (hu : ∀ d, Registered calls d → d.name ≠ functionName) (names : List Bytes)
    (hs : names.Pairwise (· < ·)) (hn : ∀ n, n ∈ names ↔ ∃ d, Registered calls d ∧ d.name = n) :
    let similar := (names.filter fun n => containsSub n functionName || containsSub functionName n).take 3
    TextedDoc (registryOf calls) functionName [] verbose
      (.error (b! "Function '" ++ functionName ++ b! "' not found" ++ (if similar ≠ [] then b! ". Did you mean: " ++ joinWith b! ", " similar else []))) := by
  have hl : (registryOf calls).lookup functionName = none := by
    rcases hx : (registryOf calls).lookup functionName with _ | d
    · rfl
    · rw [C54_lookup] at hx; exact absurd hx.2 (hu d hx.1)
  obtain ⟨all, hall⟩ := C54_all_deterministic calls
  have ha := (C54_all calls all).mp ((hall all).mpr rfl)
  have hnames : all.map (·.name) = names := by
    have h1 : (all.map (·.name)).Pairwise (· < ·) := List.pairwise_map.mpr ha.1
    have nd : ∀ {l : List Bytes}, l.Pairwise (· < ·) → l.Nodup := fun hl => hl.imp fun h e => by rw [e] at h; exact List.lt_irrefl _ h
    refine ((List.perm_ext_iff_of_nodup (nd h1) (nd hs)).mpr fun n => ?_).eq_of_pairwise ?_ h1 hs
    · rw [hn, List.mem_map]
      exact ⟨fun ⟨d, h, e⟩ => ⟨d, (ha.2 d).mp h, e⟩, fun ⟨d, h, e⟩ => ⟨d, (ha.2 d).mpr h, e⟩⟩
    · intro x y _ _ h1 h2; exact absurd h2 (bytes_lt_asymm h1)
  have hsug : suggestLoop functionName all [] = (names.filter fun n => containsSub n functionName || containsSub functionName n).take 3 := by
    rw [suggest_acc _ _ _ (by simp), hnames]; simp
  simp only [TextedDoc, hf, ne_eq, not_true_eq_false, not_false_eq_true, and_false, if_false, if_true, HandleFunctionDoc, hl]
  exact ⟨all, (hall all).mpr rfl, by rw [hsug]⟩

/-- Whatever the order, the verbose list of texted_doc has one section for each category, and the functions in a section are in
alphabetical order; only the order of the sections is left open. -/
theorem C54_verbose_sections (calls : List FunctionDoc) (out out' : ToolResult)
    (h : TextedDoc (registryOf calls) [] [] true out) (h' : TextedDoc (registryOf calls) [] [] true out') :
    out = out' ∨ ∃ head, ∃ s s' : List Bytes, s.Perm s' ∧ out = .text (trimSpace (head ++ s.flatten)) ∧ out' = .text (trimSpace (head ++ s'.flatten)) := by
  obtain ⟨all, hall⟩ := C54_all_deterministic calls
  simp only [TextedDoc, ne_eq, not_true_eq_false, and_self, if_false, HandleAllFunctions, hall, exists_eq_left, FormatFunctionList, if_true] at h h'
  by_cases he : all = []
  · rw [if_pos he] at h h'
    exact .inl (h.trans h'.symm)
  · rw [if_neg he] at h h'
    obtain ⟨t, ⟨k, ⟨hn, hk⟩, ht⟩, ho⟩ := h
    obtain ⟨t', ⟨k', ⟨hn', hk'⟩, ht'⟩, ho'⟩ := h'
    rw [ho, ho', ht, ht', List.flatMap_def, List.flatMap_def]
    refine .inr ⟨_, k.map (groupText all), k'.map (groupText all), ?_, rfl, rfl⟩
    exact ((List.perm_ext_iff_of_nodup hn hn').mpr fun x => by rw [hk, hk']).map _

/-- An entry with nothing but a name and a category. -/
def bareDoc (name category : Bytes) : FunctionDoc := ⟨name, [], [], [], [], [], category⟩

/-- The verbose list is not determined: with one function each in two categories there are two possible answers. -/
theorem C54_verbose_order : ∃ calls out out', out ≠ out' ∧
    TextedDoc (registryOf calls) [] [] true out ∧ TextedDoc (registryOf calls) [] [] true out' := by
  refine ⟨[bareDoc b! "insert" b! "editing", bareDoc b! "point" b! "position"],
    .text (trimSpace (b! "# All functions\n\nFound 2 function(s):\n\n" ++ [b! "editing", b! "position"].flatMap (groupText [bareDoc b! "insert" b! "editing", bareDoc b! "point" b! "position"]))),
    .text (trimSpace (b! "# All functions\n\nFound 2 function(s):\n\n" ++ [b! "position", b! "editing"].flatMap (groupText [bareDoc b! "insert" b! "editing", bareDoc b! "point" b! "position"]))),
    by decide +kernel, ?_, ?_⟩
  · refine ⟨[bareDoc b! "insert" b! "editing", bareDoc b! "point" b! "position"], ?_, ?_⟩
    · exact ⟨_, .swap _ _ _, .refl _, by decide⟩
    · exact ⟨_, ⟨[b! "editing", b! "position"], by simp [MapKeys, bareDoc, groupName], rfl⟩, rfl⟩
  · refine ⟨[bareDoc b! "insert" b! "editing", bareDoc b! "point" b! "position"], ?_, ?_⟩
    · exact ⟨_, .swap _ _ _, .refl _, by decide⟩
    · exact ⟨_, ⟨[b! "position", b! "editing"], by simp [MapKeys, bareDoc, groupName, or_comm], rfl⟩, rfl⟩

/-! ### C55 -/

/-- The names the environment defines, written out. -/
def envNames : List Bytes := [b! "insert", b! "goto-char", b! "goto-line", b! "search-forward", b! "search-backward", b! "re-search-forward", b! "end-of-buffer", b! "set-mark", b! "mark", b! "point", b! "line-number-at-pos", b! "replace-match", b! "delete-region", b! "buffer-substring", b! "mark-word", b! "replace-region", b! "region-beginning", b! "region-end", b! "forward-char", b! "length", b! "substring", b! "string-match", b! "backward-char", b! "beginning-of-buffer", b! "beginning-of-line", b! "end-of-line", b! "buffer-size", b! "point-max", b! "point-min", b! "current-column", b! "upcase", b! "downcase", b! "capitalize", b! "concat", b! "set-mark-command", b! "exchange-point-and-mark", b! "mark-whole-buffer", b! "delete-char", b! "delete-backward-char", b! "forward-word", b! "backward-word", b! "looking-at", b! "looking-back", b! "mark-line", b! "delete-line", b! "kill-line", b! "kill-word", b! "backward-kill-word", b! "re-search-backward", b! "replace-regexp-in-string"]

theorem allNames_eq [Ext] : allNames = envNames := rfl

/-- The environment knows exactly the documented names. -/
theorem C55_documented_iff_defined [Ext] (name : Bytes) : (defaultEnv name : Option Builtin).isSome ↔ ∃ d ∈ docTable, d.name = name := by
  have h1 : (defaultEnv name : Option Builtin).isSome ↔ name ∈ allNames := by
    constructor
    · intro h
      refine Classical.byContradiction fun hn => ?_
      rw [show (defaultEnv name : Option Builtin) = none from tableLookup_none _ _ hn] at h
      exact nomatch h
    · intro h
      each_name h <;> rfl
  rw [h1]
  have h2 : (∃ d ∈ docTable, d.name = name) ↔ name ∈ docTable.map (·.name) := by simp
  rw [h2]
  rw [allNames_eq]
  have ha : ∀ n ∈ envNames, n ∈ docTable.map (·.name) := by decide +kernel
  have hb : ∀ n ∈ docTable.map (·.name), n ∈ envNames := by decide +kernel
  exact ⟨ha name, hb name⟩

/-- No name is documented twice, every entry has a category, and every function mentioned under "see also" exists and is another one. -/
theorem C55_cross_references :
    (docTable.map (·.name)).Nodup ∧ (∀ d ∈ docTable, d.category ≠ []) ∧
    ∀ d ∈ docTable, ∀ s ∈ d.seeAlso, s ≠ d.name ∧ ∃ d' ∈ docTable, d'.name = s := by
  refine ⟨by decide +kernel, by decide +kernel, by decide +kernel⟩

/-! ### C63: the documented parameters -/

theorem fits_nil (args : List Value) : Fits [] args ↔ args = [] := by
  constructor
  · intro h; cases h; rfl
  · rintro rfl; exact .none _ (by simp)

theorem fits_cons (p : ParamSig) (ps : List ParamSig) (args : List Value) :
    Fits (p :: ps) args ↔ (args = [] ∧ ∀ q ∈ p :: ps, q.optional = true) ∨ ∃ v vs, args = v :: vs ∧ HasType p.type v ∧ Fits ps vs := by
  constructor
  · intro h
    cases h with
    | none _ h => exact .inl ⟨rfl, h⟩
    | cons _ _ v vs h hs => exact .inr ⟨v, vs, rfl, h, hs⟩
  · rintro (⟨rfl, h⟩ | ⟨v, vs, rfl, h, hs⟩)
    · exact .none _ h
    · exact .cons _ _ _ _ h hs

theorem hasType_str (v : Value) : HasType b! "string" v ↔ ∃ s, v = .str s := by
  cases v <;> simp [HasType]

theorem hasType_num (v : Value) : HasType b! "number" v ↔ ∃ x, v = .num x := by
  cases v <;> simp [HasType]

/-- `call` was refused because of its arguments: the message says what the function expects, and nothing has changed. -/
def Refused (name : Bytes) (r : Res Bytes Value × Buffer) (b : Buffer) : Prop := ∃ what, r = (.err (name ++ b! " expects " ++ what), b)

theorem arity_expects (name what : Bytes) (n : Nat) (b : Buffer) : Refused name (fail (arity name what n) b) b :=
  ⟨what ++ b! ", got " ++ natDec n, by simp only [fail, arity, List.append_assoc]⟩

theorem noArgs_misuse {name : Bytes} {args : List Value} {b : Buffer} {k} (h : args ≠ []) : Refused name (noArgs name args b k) b := by
  cases args with
  | nil => exact absurd rfl h
  | cons v vs => exact arity_expects _ _ _ _

theorem oneStr_misuse {name : Bytes} {args : List Value} {b : Buffer} {k} (h : ¬ ∃ s, args = [.str s]) : Refused name (oneStr name args b k) b := by
  rcases args with _ | ⟨v, _ | ⟨w, vs⟩⟩
  · exact arity_expects _ _ _ _
  · cases v with
    | str s => exact absurd ⟨s, rfl⟩ h
    | sym _ | num _ | list _ => exact ⟨b! "a string argument", by simp only [oneStr, fail]; rw [List.append_assoc]; rfl⟩
  · cases v <;> exact arity_expects _ _ _ _

variable [Ext]

theorem oneNum_misuse {name : Bytes} {args : List Value} {b : Buffer} {k} (h : ¬ ∃ x, args = [.num x]) : Refused name (oneNum name args b k) b := by
  rcases args with _ | ⟨v, _ | ⟨w, vs⟩⟩
  · exact arity_expects _ _ _ _
  · cases v with
    | num s => exact absurd ⟨s, rfl⟩ h
    | sym _ | str _ | list _ => exact ⟨b! "a number argument", by simp only [oneNum, fail]; rw [List.append_assoc]; rfl⟩
  · cases v <;> exact arity_expects _ _ _ _

theorem withCount_misuse {name : Bytes} {args : List Value} {b : Buffer} {k} (h : ¬ (args = [] ∨ ∃ x, args = [.num x])) :
    Refused name (withCount name args b k) b := by
  rcases args with _ | ⟨v, _ | ⟨w, vs⟩⟩
  · exact absurd (.inl rfl) h
  · cases v with
    | num s => exact absurd (.inr ⟨s, rfl⟩) h
    | sym _ | str _ | list _ => exact ⟨b! "a number argument", by simp only [withCount, optCount, fail]; rw [List.append_assoc]; rfl⟩
  · cases v <;> exact arity_expects _ _ _ _

theorem setMarkCommand_misuse {args : List Value} {b : Buffer} (h : ¬ (args = [] ∨ ∃ x, args = [.num x])) :
    Refused b! "set-mark-command" (builtinSetMarkCommand args b) b := by
  rcases args with _ | ⟨v, _ | ⟨w, vs⟩⟩
  · exact absurd (.inl rfl) h
  · cases v with
    | num s => exact absurd (.inr ⟨s, rfl⟩) h
    | sym _ | str _ | list _ => exact ⟨b! "a number argument", rfl⟩
  · cases v <;> exact arity_expects _ _ _ _

theorem bufferSubstring_misuse {args : List Value} {b : Buffer} (h : ¬ ∃ x y, args = [.num x, .num y]) :
    Refused b! "buffer-substring" (builtinBufferSubstring args b) b := by
  rcases args with _ | ⟨v, _ | ⟨w, _ | ⟨u, vs⟩⟩⟩
  · exact arity_expects _ _ _ _
  · cases v <;> exact arity_expects _ _ _ _
  · cases v <;> cases w <;> first
      | exact absurd ⟨_, _, rfl⟩ h
      | exact ⟨b! "number arguments", rfl⟩
  · cases v <;> cases w <;> exact arity_expects _ _ _ _

theorem stringMatch_misuse {args : List Value} {b : Buffer} (h : ¬ ∃ x y, args = [.str x, .str y]) :
    Refused b! "string-match" (builtinStringMatch args b) b := by
  rcases args with _ | ⟨v, _ | ⟨w, _ | ⟨u, vs⟩⟩⟩
  · exact arity_expects _ _ _ _
  · cases v <;> exact arity_expects _ _ _ _
  · cases v <;> cases w <;> first
      | exact absurd ⟨_, _, rfl⟩ h
      | exact ⟨b! "string arguments", rfl⟩
  · cases v <;> cases w <;> exact arity_expects _ _ _ _

theorem replaceRegexp_misuse {args : List Value} {b : Buffer} (h : ¬ ∃ x y z, args = [.str x, .str y, .str z]) :
    Refused b! "replace-regexp-in-string" (builtinReplaceRegexpInString args b) b := by
  rcases args with _ | ⟨v, _ | ⟨w, _ | ⟨u, _ | ⟨t, vs⟩⟩⟩⟩
  · exact arity_expects _ _ _ _
  · cases v <;> exact arity_expects _ _ _ _
  · cases v <;> cases w <;> exact arity_expects _ _ _ _
  · cases v <;> cases w <;> cases u <;> first
      | exact absurd ⟨_, _, _, rfl⟩ h
      | exact ⟨b! "string arguments", rfl⟩
  · cases v <;> cases w <;> cases u <;> exact arity_expects _ _ _ _

theorem substring_misuse {args : List Value} {b : Buffer} (h : ¬ ∃ s x, args = [.str s, .num x] ∨ ∃ y, args = [.str s, .num x, .num y]) :
    Refused b! "substring" (builtinSubstring args b) b := by
  rcases args with _ | ⟨v, _ | ⟨w, _ | ⟨u, _ | ⟨t, vs⟩⟩⟩⟩
  · exact arity_expects _ _ _ _
  · cases v <;> exact arity_expects _ _ _ _
  · cases v <;> cases w <;> first
      | exact absurd ⟨_, _, .inl rfl⟩ h
      | exact ⟨b! "a number as second argument", rfl⟩
      | exact ⟨b! "a string as first argument", rfl⟩
  · cases v <;> cases w <;> cases u <;> first
      | exact absurd ⟨_, _, .inr ⟨_, rfl⟩⟩ h
      | exact ⟨b! "a number as third argument", rfl⟩
      | exact ⟨b! "a number as second argument", rfl⟩
      | exact ⟨b! "a string as first argument", rfl⟩
  · cases v <;> cases w <;> cases u <;> exact arity_expects _ _ _ _

omit [Ext] in
theorem fits_str (n : Bytes) (args : List Value) : Fits [⟨n, b! "string", false⟩] args ↔ ∃ s, args = [.str s] := by
  simp only [fits_cons, fits_nil, hasType_str, List.mem_singleton, forall_eq, Bool.false_eq_true, and_false, false_or]
  exact ⟨fun ⟨v, vs, h, ⟨s, hs⟩, hn⟩ => ⟨s, by rw [h, hs, hn]⟩, fun ⟨s, h⟩ => ⟨_, _, h, ⟨s, rfl⟩, rfl⟩⟩

omit [Ext] in
theorem fits_num (n : Bytes) (args : List Value) : Fits [⟨n, b! "number", false⟩] args ↔ ∃ s, args = [.num s] := by
  simp only [fits_cons, fits_nil, hasType_num, List.mem_singleton, forall_eq, Bool.false_eq_true, and_false, false_or]
  exact ⟨fun ⟨v, vs, h, ⟨s, hs⟩, hn⟩ => ⟨s, by rw [h, hs, hn]⟩, fun ⟨s, h⟩ => ⟨_, _, h, ⟨s, rfl⟩, rfl⟩⟩

omit [Ext] in
theorem fits_opt (n : Bytes) (args : List Value) : Fits [⟨n, b! "number", true⟩] args ↔ args = [] ∨ ∃ s, args = [.num s] := by
  simp only [fits_cons, fits_nil, hasType_num, List.mem_singleton, forall_eq, and_true]
  exact or_congr Iff.rfl ⟨fun ⟨v, vs, h, ⟨s, hs⟩, hn⟩ => ⟨s, by rw [h, hs, hn]⟩, fun ⟨s, h⟩ => ⟨_, _, h, ⟨s, rfl⟩, rfl⟩⟩

omit [Ext] in
theorem fits_str_cons (n : Bytes) (ps : List ParamSig) (args : List Value) :
    Fits (⟨n, b! "string", false⟩ :: ps) args ↔ ∃ s vs, args = .str s :: vs ∧ Fits ps vs := by
  simp only [fits_cons, hasType_str, List.forall_mem_cons, Bool.false_eq_true, false_and, and_false, false_or]
  exact ⟨fun ⟨v, vs, h, ⟨s, hs⟩, hn⟩ => ⟨s, vs, by rw [h, hs], hn⟩, fun ⟨s, vs, h, hn⟩ => ⟨_, _, h, ⟨s, rfl⟩, hn⟩⟩

omit [Ext] in
theorem fits_num_cons (n : Bytes) (ps : List ParamSig) (args : List Value) :
    Fits (⟨n, b! "number", false⟩ :: ps) args ↔ ∃ s vs, args = .num s :: vs ∧ Fits ps vs := by
  simp only [fits_cons, hasType_num, List.forall_mem_cons, Bool.false_eq_true, false_and, and_false, false_or]
  exact ⟨fun ⟨v, vs, h, ⟨s, hs⟩, hn⟩ => ⟨s, vs, by rw [h, hs], hn⟩, fun ⟨s, vs, h, hn⟩ => ⟨_, _, h, ⟨s, rfl⟩, hn⟩⟩

omit [Ext] in
theorem fits_substring (n m k : Bytes) (args : List Value) : Fits [⟨n, b! "string", false⟩, ⟨m, b! "number", false⟩, ⟨k, b! "number", true⟩] args ↔
    ∃ s x, args = [.str s, .num x] ∨ ∃ y, args = [.str s, .num x, .num y] := by
  simp only [fits_str_cons, fits_num_cons, fits_opt]
  constructor
  · rintro ⟨s, _, rfl, x, _, rfl, rfl | ⟨y, rfl⟩⟩
    · exact ⟨s, x, .inl rfl⟩
    · exact ⟨s, x, .inr ⟨y, rfl⟩⟩
  · rintro ⟨s, x, rfl | ⟨y, rfl⟩⟩
    · exact ⟨s, _, rfl, x, _, rfl, .inl rfl⟩
    · exact ⟨s, _, rfl, x, _, rfl, .inr ⟨y, rfl⟩⟩

omit [Ext] in
theorem fits_two_nums (n m : Bytes) (args : List Value) : Fits [⟨n, b! "number", false⟩, ⟨m, b! "number", false⟩] args ↔ ∃ x y, args = [.num x, .num y] := by
  rw [fits_num_cons]; simp only [fits_num]
  exact ⟨fun ⟨s, _, h, x, h'⟩ => ⟨s, x, by rw [h, h']⟩, fun ⟨x, y, h⟩ => ⟨x, _, h, y, rfl⟩⟩

omit [Ext] in
theorem fits_two_strs (n m : Bytes) (args : List Value) : Fits [⟨n, b! "string", false⟩, ⟨m, b! "string", false⟩] args ↔ ∃ x y, args = [.str x, .str y] := by
  rw [fits_str_cons]; simp only [fits_str]
  exact ⟨fun ⟨s, _, h, x, h'⟩ => ⟨s, x, by rw [h, h']⟩, fun ⟨x, y, h⟩ => ⟨x, _, h, y, rfl⟩⟩

omit [Ext] in
theorem fits_three_strs (n m k : Bytes) (args : List Value) : Fits [⟨n, b! "string", false⟩, ⟨m, b! "string", false⟩, ⟨k, b! "string", false⟩] args ↔
    ∃ x y z, args = [.str x, .str y, .str z] := by
  rw [fits_str_cons]; simp only [fits_two_strs]
  exact ⟨fun ⟨s, _, h, x, z, h'⟩ => ⟨s, x, z, by rw [h, h']⟩, fun ⟨x, y, z, h⟩ => ⟨x, _, h, y, z, rfl⟩⟩

/-- The 50 entries, one by one. -/
macro "each_doc " h:ident : tactic => `(tactic| (
  simp only [docTable, List.mem_cons, List.not_mem_nil, or_false] at $h:ident
  rcases $h:ident with h | h | h | h | h | h | h | h | h | h | h | h | h | h | h | h | h | h | h | h | h | h | h | h | h |
    h | h | h | h | h | h | h | h | h | h | h | h | h | h | h | h | h | h | h | h | h | h | h | h | h <;> subst h))

set_option maxHeartbeats 1000000 in
/-- Arguments other than the documented ones are refused with a message that says what the function expects, and nothing changes: every
function, every argument list, every buffer; only concat takes more than it documents (`C63_concat`). -/
theorem C63_misuse_refused (d : DocEntry) (hd : d ∈ docTable) (hc : d.name ≠ b! "concat") (args : List Value) (b : Buffer)
    (h : ¬ Fits d.parameters args) : ∃ what, call d.name args b = (.err (d.name ++ b! " expects " ++ what), b) := by
  each_doc hd <;> first
    | exact absurd rfl hc
    | exact noArgs_misuse fun hx => h ((fits_nil _).mpr hx)
    | exact oneStr_misuse fun hx => h ((fits_str _ _).mpr hx)
    | (show Refused b! "goto-char" (builtinGotoChar args b) b; exact oneNum_misuse fun hx => h ((fits_num _ _).mpr hx))
    | (show Refused b! "goto-line" (builtinGotoLine args b) b; exact oneNum_misuse fun hx => h ((fits_num _ _).mpr hx))
    | exact withCount_misuse fun hx => h ((fits_opt _ _).mpr hx)
    | exact setMarkCommand_misuse fun hx => h ((fits_opt _ _).mpr hx)
    | exact bufferSubstring_misuse fun hx => h ((fits_two_nums _ _ _).mpr hx)
    | exact stringMatch_misuse fun hx => h ((fits_two_strs _ _ _).mpr hx)
    | exact replaceRegexp_misuse fun hx => h ((fits_three_strs _ _ _ _).mpr hx)
    | exact substring_misuse fun hx => h ((fits_substring _ _ _ _).mpr hx)

theorem concat_ok (args : List Value) (h : ∀ v ∈ args, HasType b! "string" v) (b : Buffer) : ∃ s, call b! "concat" args b = (.ok (.str s), b) := by
  have key : ∀ i, ∃ s, concatLoop i args = .ok s := by
    induction args with
    | nil => exact fun i => ⟨_, rfl⟩
    | cons v vs ih =>
      intro i
      obtain ⟨s, hs⟩ := (hasType_str v).mp (h v (by simp))
      obtain ⟨t, ht⟩ := ih (fun v hv => h v (by simp [hv])) (i + 1)
      subst hs
      exact ⟨s ++ t, by simp only [concatLoop, ht]⟩
  obtain ⟨s, hs⟩ := key 0
  exact ⟨s, by rw [call_concat]; simp only [builtinConcat, hs, ret]⟩

/-- The one exception: the documentation of concat shows one string parameter (its text says "zero or more"), and the function takes any
number of strings. Anything else among its arguments is refused as usual. -/
theorem C63_concat (args : List Value) (b : Buffer) :
    ((∀ v ∈ args, HasType b! "string" v) → ∃ s, call b! "concat" args b = (.ok (.str s), b)) ∧
    ((∃ v ∈ args, ¬ HasType b! "string" v) → ∃ what, call b! "concat" args b = (.err (b! "concat" ++ b! " expects " ++ what), b)) := by
  refine ⟨fun h => concat_ok args h b, ?_⟩
  have key : ∀ i, (∃ v ∈ args, ¬ HasType b! "string" v) → ∃ w, concatLoop i args = .error (b! "concat" ++ b! " expects " ++ w) := by
    induction args with
    | nil => simp
    | cons v vs ih =>
      intro i h
      cases v with
      | str s =>
        have h' : ∃ v ∈ vs, ¬ HasType b! "string" v := by
          obtain ⟨v, hv, hn⟩ := h
          rcases List.mem_cons.mp hv with rfl | hv
          · exact absurd rfl hn
          · exact ⟨v, hv, hn⟩
        obtain ⟨w, hw⟩ := ih (i + 1) h'
        exact ⟨w, by simp only [concatLoop, hw]⟩
      | num x | sym x | list x => exact ⟨_, by simp only [concatLoop]; rfl⟩
  intro h
  obtain ⟨w, hw⟩ := key 0 h
  exact ⟨w, by rw [call_concat]; simp only [builtinConcat, hw, fail]⟩

/-- Look at every branch of a built-in; every error must be one of the reasons. -/
macro "reasons" : tactic => `(tactic| (branches <;> (intro h; subst h; first | (simp [Reason]; done) | (rename_i hx; exact nomatch hx))))

set_option maxHeartbeats 4000000 in
/-- Used with the documented arguments, a function can only fail for one of the four other reasons. -/
theorem C63_documented_use (d : DocEntry) (hd : d ∈ docTable) (args : List Value) (b : Buffer) (h : Fits d.parameters args)
    (e : Bytes) (he : (call d.name args b).1 = .err e) : Reason e := by
  revert he
  each_doc hd <;> first
    | (have h := (fits_nil _).mp h; subst h; reasons)
    | (obtain ⟨s, hs⟩ := (fits_num _ _).mp h; subst hs; reasons)
    | (obtain hs | ⟨s, hs⟩ := (fits_opt _ _).mp h <;> subst hs <;> reasons)
    | (obtain ⟨x, y, hs⟩ := (fits_two_nums _ _ _).mp h; subst hs; reasons)
    | (obtain ⟨x, y, hs⟩ := (fits_two_strs _ _ _).mp h; subst hs; reasons)
    | (obtain ⟨x, y, z, hs⟩ := (fits_three_strs _ _ _ _).mp h; subst hs; reasons)
    | (obtain ⟨x, y, hs | ⟨z, hs⟩⟩ := (fits_substring _ _ _ _).mp h <;> subst hs <;> reasons)
    | (obtain ⟨x, hs⟩ := (fits_str _ _).mp h
       obtain ⟨t, ht⟩ := concat_ok args (by subst hs; simp [HasType]) b
       intro he
       rw [show (call _ args b).1 = _ from congrArg Prod.fst ht] at he
       exact nomatch he)
    | (obtain ⟨s, hs⟩ := (fits_str _ _).mp h; subst hs; reasons)

/-- One entry of the table, arguments that do not fit it and arguments that do. -/
example : ⟨b! "goto-char", b! "movement", [⟨b! "position", b! "number", false⟩],
      [b! "point", b! "goto-line", b! "beginning-of-buffer", b! "end-of-buffer", b! "current-column"]⟩ ∈ docTable ∧
    ¬ Fits [⟨b! "position", b! "number", false⟩] [.str b! "x"] ∧ Fits [⟨b! "position", b! "number", false⟩] [.num (F64.ofInt 3)] ∧
    call b! "goto-char" [.str b! "x"] (newBuffer b! "abc") = (.err b! "goto-char expects a number argument", newBuffer b! "abc") :=
  ⟨by decide +kernel, by rw [fits_num]; simp, (fits_num _ _).mpr ⟨_, rfl⟩, rfl⟩

/-- Misspelling `search-forward` in a registry of four functions. -/
example : TextedDoc (registryOf [bareDoc b! "point" [], bareDoc b! "search-forward" [], bareDoc b! "search" [], bareDoc b! "re-search-forward" []])
    b! "search-for" [] false (.error b! "Function 'search-for' not found. Did you mean: re-search-forward, search, search-forward") := by
  have := C54_suggestions [bareDoc b! "point" [], bareDoc b! "search-forward" [], bareDoc b! "search" [], bareDoc b! "re-search-forward" []]
    b! "search-for" false (by decide) ?_ [b! "point", b! "re-search-forward", b! "search", b! "search-forward"] (by decide +kernel) ?_
  · exact this
  · intro d hd
    rw [← C54_registry] at hd
    revert d
    decide +kernel
  · intro n
    simp only [← C54_registry]
    constructor
    · intro h
      have : ∀ n ∈ [b! "point", b! "re-search-forward", b! "search", b! "search-forward"],
          ∃ d ∈ registryOf [bareDoc b! "point" [], bareDoc b! "search-forward" [], bareDoc b! "search" [], bareDoc b! "re-search-forward" []], d.name = n := by
        decide +kernel
      exact this n h
    · rintro ⟨d, hd, rfl⟩
      revert d
      decide +kernel

end Texted
