import Verif.Lemmas.TgDocCommand
import Verif.Props.TgSource
/-
C97: the documentation as it is written in Go (/repo/edlisp/documentation_registry.go, /repo/tools/texted_doc.go, /repo/commands/doc.go).

Go leaves open in which order the entries of a map come and in which order a sort leaves things that compare equal; `LawfulOrder` allows every
order. The theorems about the tool and the command say that the answers that the Go text can give, for some order, are those of the model.
-/
set_option linter.unusedSectionVars false
namespace Texted
open Spec
variable [Ext]

/-! ### For the choices that are made, an answer that the model allows -/

theorem allDocs_sound (x : TgX) (hx : LawfulOrder x.order) (w : TgW) : AllDocumentation w.reg (x.allDocs w) :=
  ⟨_, taken_perm x hx _ _, (sortBy_perm _ _).trans (taken_perm x hx _ _), sortBy_sorted _ _⟩

theorem inCategory_sound (x : TgX) (hx : LawfulOrder x.order) (w : TgW) (c : Bytes) : DocumentationByCategory w.reg c (x.inCategory w c) :=
  ⟨_, taken_perm x hx _ _, (sortBy_perm _ _).trans (taken_perm x hx _ _), sortBy_sorted _ _⟩

theorem categorySet_nodup : ∀ (docs : List FunctionDoc) (m : List (Bytes × Bool)), (m.map (·.1)).Nodup → ((categorySet docs m).map (·.1)).Nodup
  | [], _, h => h
  | d :: ds, m, h => by
    refine categorySet_nodup ds _ ?_
    show ((if d.category ≠ [] then putAt d.category true m else m).map (·.1)).Nodup
    split
    · exact putAt_nodup _ _ _ h
    · exact h

theorem categorySet_mem (c : Bytes) : ∀ (docs : List FunctionDoc) (m : List (Bytes × Bool)),
    c ∈ (categorySet docs m).map (·.1) ↔ (c ≠ [] ∧ ∃ d ∈ docs, d.category = c) ∨ c ∈ m.map (·.1)
  | [], m => by simp [categorySet]
  | d :: ds, m => by
    show c ∈ (categorySet ds (if d.category ≠ [] then putAt d.category true m else m)).map (·.1) ↔ _
    rw [categorySet_mem c ds]
    by_cases hd : d.category = []
    · rw [if_neg (by simp [hd])]
      constructor
      · rintro (⟨h, e, he, h'⟩ | h)
        · exact .inl ⟨h, e, List.mem_cons_of_mem _ he, h'⟩
        · exact .inr h
      · rintro (⟨h, e, he, h'⟩ | h)
        · rcases List.mem_cons.mp he with rfl | he
          · exact absurd (h'.symm.trans hd) h
          · exact .inl ⟨h, e, he, h'⟩
        · exact .inr h
    · rw [if_pos hd, putAt_mem]
      constructor
      · rintro (⟨h, e, he, h'⟩ | rfl | h)
        · exact .inl ⟨h, e, List.mem_cons_of_mem _ he, h'⟩
        · exact .inl ⟨hd, d, List.mem_cons_self .., rfl⟩
        · exact .inr h
      · rintro (⟨h, e, he, h'⟩ | h)
        · rcases List.mem_cons.mp he with rfl | he
          · exact .inr (.inl h'.symm)
          · exact .inl ⟨h, e, he, h'⟩
        · exact .inr (.inr h)

theorem allCategories_sound (x : TgX) (hx : LawfulOrder x.order) (w : TgW) : Categories w.reg (x.allCategories w) := by
  refine ⟨(categorySet (x.taken w.tick w.reg) []).map (·.1), ⟨categorySet_nodup (x.taken w.tick w.reg) [] List.nodup_nil, fun k => ?_⟩,
    (sortBy_perm _ _).trans (taken_perm x hx _ _), sortBy_sorted _ _⟩
  rw [categorySet_mem, List.mem_filter]
  simp only [(taken_perm x hx w.tick w.reg).mem_iff, List.map_nil, List.not_mem_nil, or_false, decide_eq_true_eq, List.mem_map]
  exact And.comm

theorem listing_sound (x : TgX) (hx : LawfulOrder x.order) (t : Nat) (docs : List FunctionDoc) (title : Bytes) (verbose : Bool) :
    FormatFunctionList docs title verbose (x.listing t docs title verbose) := by
  cases verbose with
  | false => exact rfl
  | true => exact ⟨_, (groupsOf_keys _ _ _).2 (taken_perm x hx _ _), rfl⟩

theorem docTool_sound (x : TgX) (hx : LawfulOrder x.order) (w : TgW) (name category : Bytes) (verbose : Bool) :
    TextedDoc w.reg name category verbose (x.docTool w name category verbose) := by
  unfold TextedDoc TgX.docTool
  split
  · rfl
  split
  · unfold HandleFunctionDoc TgX.functionDoc
    cases w.reg.lookup name with
    | some d => rfl
    | none => exact ⟨_, allDocs_sound x hx w, rfl⟩
  split
  · refine ⟨_, inCategory_sound x hx w category, ?_⟩
    unfold TgX.categoryListing
    split
    · exact ⟨_, allCategories_sound x hx (w.chose 2), rfl⟩
    · exact ⟨_, listing_sound x hx _ _ _ _, rfl⟩
  · refine ⟨_, allDocs_sound x hx w, ?_⟩
    unfold TgX.allListing
    split
    · rfl
    · exact ⟨_, listing_sound x hx _ _ _ _, rfl⟩

theorem cmdDoc_sound (x : TgX) (hx : LawfulOrder x.order) (w : TgW) (args : List Bytes) (category : Bytes) (verbose : Bool) :
    RunDoc (strTitle x.title) w.reg args category verbose (x.cmdDoc w args category verbose) := by
  match args with
  | [name] => rfl
  | a :: b :: r => rfl
  | [] =>
    refine ⟨if category ≠ [] then x.inCategory w category else x.allDocs w, ?_, ?_⟩
    · split
      · exact inCategory_sound x hx w category
      · exact allDocs_sound x hx w
    · unfold TgX.cmdDoc TgX.cmdList
      generalize (if category ≠ [] then x.inCategory w category else x.allDocs w) = docs
      dsimp only
      by_cases hd : docs = []
      · rw [if_pos hd, if_pos hd]
      · rw [if_neg hd, if_neg hd]
        cases verbose with
        | false => rfl
        | true => exact ⟨_, (groupsOf_keys _ _ _).2 (taken_perm x hx _ _), rfl⟩

/-! ### For every answer that the model allows, choices that lead to it -/

/-- An order in which the `t`-th choice takes the things of `l` as in `keys`. -/
theorem order_for {keys l : List Bytes} (hk : keys.Perm l) (hn : l.Nodup) (t : Nat) :
    ∃ order, LawfulOrder order ∧ ∀ x : TgX, ({ x with order := order } : TgX).taken t l = keys := by
  obtain ⟨idx, hi, e⟩ := inOrder_exists hk hn
  refine ⟨fun k n => if k = t ∧ n = l.length then idx else List.range n, fun k n => ?_, fun x => ?_⟩
  · dsimp only
    split
    · rename_i h; rw [h.2]; exact hi
    · exact .refl _
  · unfold TgX.taken
    dsimp only
    rw [if_pos ⟨rfl, rfl⟩]
    exact e

theorem range_lawful : LawfulOrder fun _ n => List.range n := fun _ _ => .refl _

theorem docTool_complete (x : TgX) (calls : List FunctionDoc) (w : TgW) (hw : w.reg = registryOf calls) (name category : Bytes) (verbose : Bool) (out : ToolResult)
    (h : TextedDoc (registryOf calls) name category verbose out) :
    ∃ order, LawfulOrder order ∧ ({ x with order := order } : TgX).docTool w name category verbose = out := by
  by_cases hd : verbose = false ∨ name ≠ []
  · refine ⟨_, range_lawful, ?_⟩
    obtain ⟨r, hr⟩ := C54_tool_deterministic calls name category verbose hd
    have := docTool_sound { x with order := fun _ n => List.range n } range_lawful w name category verbose
    rw [hw] at this
    rw [(hr _).1 this, (hr _).1 h]
  · have hv : verbose = true := by cases verbose <;> simp_all
    have hn : name = [] := by cases name <;> simp_all
    subst hv hn
    unfold TextedDoc at h
    simp only [ne_eq, not_true, false_and, if_false] at h
    by_cases hc : category = []
    · subst hc
      simp only [not_true, if_false] at h
      obtain ⟨docs, ha, h⟩ := h
      obtain ⟨all, hall⟩ := C54_all_deterministic calls
      have e : ∀ x : TgX, LawfulOrder x.order → x.allDocs w = docs := fun x hx => by
        have := allDocs_sound x hx w
        rw [hw] at this
        exact ((hall _).1 this).trans ((hall _).1 ha).symm
      by_cases hd : docs = []
      · rw [if_pos hd] at h
        refine ⟨_, range_lawful, ?_⟩
        have e := e { x with order := fun _ n => List.range n } range_lawful
        simp only [TgX.docTool, TgX.allListing, ne_eq, not_true, false_and, if_false, e, hd, if_true, h]
      · rw [if_neg hd] at h
        obtain ⟨t, ⟨keys, hk, ht⟩, h⟩ := h
        obtain ⟨order, ho, hk'⟩ := order_for ((groupsOf_keys _ _ _).1 hk) (groupsOf_nodup _ docs [] List.nodup_nil) (w.tick + 2)
        refine ⟨order, ho, ?_⟩
        have e := e { x with order := order } ho
        have hk' := hk' x
        simp only [TgX.docTool, TgX.allListing, ne_eq, not_true, false_and, if_false, e, hd, h, TgX.listing, if_true, groupKeys, hk', ht]
        rfl
    · simp only [hc, not_false_eq_true, if_true] at h
      obtain ⟨docs, ha, h⟩ := h
      obtain ⟨all, hall⟩ := C54_by_category_deterministic calls category
      have e : ∀ x : TgX, LawfulOrder x.order → x.inCategory w category = docs := fun x hx => by
        have := inCategory_sound x hx w category
        rw [hw] at this
        exact ((hall _).1 this).trans ((hall _).1 ha).symm
      by_cases hd : docs = []
      · rw [if_pos hd] at h
        obtain ⟨cats, hcs, h⟩ := h
        obtain ⟨all, hall⟩ := C54_categories_deterministic calls
        refine ⟨_, range_lawful, ?_⟩
        have e := e { x with order := fun _ n => List.range n } range_lawful
        have e' : ({ x with order := fun _ n => List.range n } : TgX).allCategories (w.chose 2) = cats := by
          have := allCategories_sound { x with order := fun _ n => List.range n } range_lawful (w.chose 2)
          rw [show (w.chose 2).reg = registryOf calls from hw] at this
          exact ((hall _).1 this).trans ((hall _).1 hcs).symm
        simp only [TgX.docTool, TgX.categoryListing, ne_eq, not_true, false_and, if_false, hc, not_false_eq_true, e, hd, if_true, h, e']
      · rw [if_neg hd] at h
        obtain ⟨t, ⟨keys, hk, ht⟩, h⟩ := h
        obtain ⟨order, ho, hk'⟩ := order_for ((groupsOf_keys _ _ _).1 hk) (groupsOf_nodup _ docs [] List.nodup_nil) (w.tick + 2)
        refine ⟨order, ho, ?_⟩
        have e := e { x with order := order } ho
        have hk' := hk' x
        simp only [TgX.docTool, TgX.categoryListing, ne_eq, not_true, false_and, if_false, hc, not_false_eq_true, e, hd, h, TgX.listing, if_true, groupKeys, hk', ht]
        rfl

theorem cmdDoc_complete (x : TgX) (calls : List FunctionDoc) (w : TgW) (hw : w.reg = registryOf calls) (args : List Bytes) (category : Bytes) (verbose : Bool) (out : Except Bytes Bytes)
    (h : RunDoc (strTitle x.title) (registryOf calls) args category verbose out) :
    ∃ order, LawfulOrder order ∧ ({ x with order := order } : TgX).cmdDoc w args category verbose = out := by
  by_cases hd : verbose = false ∨ args ≠ []
  · refine ⟨_, range_lawful, ?_⟩
    obtain ⟨r, hr⟩ := C54_command_deterministic (strTitle x.title) calls args category verbose hd
    have := cmdDoc_sound { x with order := fun _ n => List.range n } range_lawful w args category verbose
    rw [hw] at this
    rw [(hr _).1 this, (hr _).1 h]
  · have hv : verbose = true := by cases verbose <;> simp_all
    have hn : args = [] := by cases args <;> simp_all
    subst hv hn
    obtain ⟨docs, ha, h⟩ := h
    have e : ∀ x : TgX, LawfulOrder x.order → (if category ≠ [] then x.inCategory w category else x.allDocs w) = docs := fun x hx => by
      split
      · rename_i hc
        rw [if_pos hc] at ha
        obtain ⟨all, hall⟩ := C54_by_category_deterministic calls category
        have := inCategory_sound x hx w category
        rw [hw] at this
        exact ((hall _).1 this).trans ((hall _).1 ha).symm
      · rename_i hc
        rw [if_neg hc] at ha
        obtain ⟨all, hall⟩ := C54_all_deterministic calls
        have := allDocs_sound x hx w
        rw [hw] at this
        exact ((hall _).1 this).trans ((hall _).1 ha).symm
    by_cases hd : docs = []
    · rw [if_pos hd] at h
      refine ⟨_, range_lawful, ?_⟩
      have e := e { x with order := fun _ n => List.range n } range_lawful
      simp only [TgX.cmdDoc, TgX.cmdList, e, hd, if_true, h]
    · rw [if_neg hd] at h
      obtain ⟨keys, hk, ht⟩ := h
      obtain ⟨order, ho, hk'⟩ := order_for ((groupsOf_keys _ _ _).1 hk) (groupsOf_nodup _ docs [] List.nodup_nil) (w.tick + 2)
      refine ⟨order, ho, ?_⟩
      have e := e { x with order := order } ho
      have hk' := hk' x
      simp only [TgX.cmdDoc, TgX.cmdList, e, hd, if_false, TgX.cmdListing, if_true, groupKeys, hk', ht, cmdHead]

theorem always (x : TgX) (f : TgFn) (args : List TgV) (w : TgW) (o : TgOut) (d : Nat) (h : ∀ n k, tgRun x n (k + d) f args w = o) : TgEnds x f args w o :=
  ⟨d, fun n k _ hk => by
    obtain ⟨j, rfl⟩ := Nat.exists_eq_add_of_le' hk
    exact h n j⟩

/-! ### The registry -/

/-- `RegisterDocumentation` (/repo/edlisp/documentation_registry.go:18-22), as it is written. -/
theorem C97_register (x : TgX) (calls : List FunctionDoc) (d : FunctionDoc) (w : TgW) (hw : w.reg = registryOf calls) (o : TgOut) :
    TgEnds x .registerDocumentation [.doc d] w o ↔ o = .ret [] { w with reg := registryOf (calls ++ [d]) } := by
  rw [tgEnds_iff (always x _ _ _ _ 1 fun n k => register_tg x d n k w), hw]
  simp only [registryOf, List.foldl_append, List.foldl_cons, List.foldl_nil]

/-- `GetDocumentation` (/repo/edlisp/documentation_registry.go:26-31), as it is written: what was registered last under the name, and that
there is something. -/
theorem C97_getDocumentation (x : TgX) (calls : List FunctionDoc) (name : Bytes) (w : TgW) (hw : w.reg = registryOf calls) :
    (∀ d, TgEnds x .getDocumentation [.str name] w (.ret [.doc d, .bool true] w) ↔ Registered calls d ∧ d.name = name) ∧
    ((∃ d, TgEnds x .getDocumentation [.str name] w (.ret [.doc d, .bool false] w)) ↔ ∀ d, Registered calls d → d.name ≠ name) ∧
    ∃ d t, TgEnds x .getDocumentation [.str name] w (.ret [.doc d, .bool t] w) := by
  have h := always x _ _ _ _ 1 fun n k => getDocumentation_tg x name n k w
  rw [hw] at h
  cases hl : (registryOf calls).lookup name with
  | some d =>
    rw [hl] at h
    have hd := (C54_lookup calls name d).1 hl
    refine ⟨fun e => ?_, ?_, d, true, h⟩
    · rw [← C54_lookup, hl, tgEnds_iff h]
      constructor
      · intro he; injection he with he _; injection he with he _; injection he with he; rw [he]
      · intro he; injection he with he; rw [he]
    · constructor
      · rintro ⟨e, he⟩
        rw [tgEnds_iff h] at he
        injection he with he _; injection he with _ he; injection he with he; injection he with he; exact nomatch he
      · intro he; exact absurd hd.2 (he d hd.1)
  | none =>
    rw [hl] at h
    refine ⟨fun e => ?_, ?_, _, false, h⟩
    · rw [← C54_lookup, hl, tgEnds_iff h]
      constructor
      · intro he; injection he with he _; injection he with _ he; injection he with he; injection he with he; exact nomatch he
      · intro he; exact nomatch he
    · refine ⟨fun _ d hd he => ?_, fun _ => ⟨_, h⟩⟩
      have := (C54_lookup calls name d).2 ⟨hd, he⟩
      rw [hl] at this
      exact nomatch this

/-- `GetAllDocumentation` (/repo/edlisp/documentation_registry.go:35-50), as it is written: whatever the order of the map and the sorting method,
the registered entries, each once, in alphabetical order. -/
theorem C97_getAllDocumentation (x : TgX) (hx : LawfulOrder x.order) (calls : List FunctionDoc) (w : TgW) (hw : w.reg = registryOf calls) (out : List FunctionDoc) :
    (∃ j, TgEnds x .getAllDocumentation [] w (.ret [.docs out] { w with tick := j })) ↔ Alphabetical out ∧ ∀ d, d ∈ out ↔ Registered calls d := by
  rw [← C54_all]
  have h := always x _ _ _ _ 1 fun n k => getAll_tg x n k w
  have hs := allDocs_sound x hx w
  rw [hw] at hs
  constructor
  · rintro ⟨j, he⟩
    rw [tgEnds_iff h] at he
    injection he with he _; injection he with he _; injection he with he
    rw [he]; exact hs
  · intro ho
    obtain ⟨all, hall⟩ := C54_all_deterministic calls
    rw [(hall _).1 ho, ← (hall _).1 hs]
    exact ⟨_, h⟩

/-- `GetDocumentationByCategory` (/repo/edlisp/documentation_registry.go:54-71), as it is written. -/
theorem C97_getDocumentationByCategory (x : TgX) (hx : LawfulOrder x.order) (calls : List FunctionDoc) (category : Bytes) (w : TgW) (hw : w.reg = registryOf calls)
    (out : List FunctionDoc) :
    (∃ j, TgEnds x .getDocumentationByCategory [.str category] w (.ret [.docs out] { w with tick := j })) ↔
      Alphabetical out ∧ ∀ d, d ∈ out ↔ Registered calls d ∧ d.category = category := by
  rw [← C54_by_category]
  have h := always x _ _ _ _ 1 fun n k => byCategory_tg x category n k w
  have hs := inCategory_sound x hx w category
  rw [hw] at hs
  constructor
  · rintro ⟨j, he⟩
    rw [tgEnds_iff h] at he
    injection he with he _; injection he with he _; injection he with he
    rw [he]; exact hs
  · intro ho
    obtain ⟨all, hall⟩ := C54_by_category_deterministic calls category
    rw [(hall _).1 ho, ← (hall _).1 hs]
    exact ⟨_, h⟩

/-- `GetCategories` (/repo/edlisp/documentation_registry.go:75-93), as it is written. -/
theorem C97_getCategories (x : TgX) (hx : LawfulOrder x.order) (calls : List FunctionDoc) (w : TgW) (hw : w.reg = registryOf calls) (out : List Bytes) :
    (∃ j, TgEnds x .getCategories [] w (.ret [.strs out] { w with tick := j })) ↔
      out.Pairwise (· < ·) ∧ ∀ c, c ∈ out ↔ c ≠ [] ∧ ∃ d, Registered calls d ∧ d.category = c := by
  rw [← C54_categories]
  have h := always x _ _ _ _ 1 fun n k => categories_tg x n k w
  have hs := allCategories_sound x hx w
  rw [hw] at hs
  constructor
  · rintro ⟨j, he⟩
    rw [tgEnds_iff h] at he
    injection he with he _; injection he with he _; injection he with he
    rw [he]; exact hs
  · intro ho
    obtain ⟨all, hall⟩ := C54_categories_deterministic calls
    rw [(hall _).1 ho, ← (hall _).1 hs]
    exact ⟨_, h⟩

/-- `GetRegisteredFunctionCount` (/repo/edlisp/documentation_registry.go:96-100), as it is written: the number of different names. -/
theorem C97_count (x : TgX) (calls : List FunctionDoc) (w : TgW) (hw : w.reg = registryOf calls) (names : List Bytes) (hn : names.Nodup)
    (hm : ∀ n, n ∈ names ↔ ∃ d ∈ calls, d.name = n) (o : TgOut) :
    TgEnds x .getRegisteredFunctionCount [] w o ↔ o = .ret [.int names.length] w := by
  rw [tgEnds_iff (always x _ _ _ _ 1 fun n k => count_tg x n k w)]
  have : w.reg.length = names.length := by
    rw [hw, ← List.length_map (f := (·.name))]
    refine ((List.perm_ext_iff_of_nodup (registry_names calls) hn).mpr fun n => ?_).length_eq
    rw [hm, List.mem_map]
    constructor
    · rintro ⟨d, hd, rfl⟩
      obtain ⟨pre, post, rfl, _⟩ := (C54_registry calls d).1 hd
      exact ⟨d, by simp, rfl⟩
    · rintro ⟨d, hd, rfl⟩
      have key : ∀ (calls : List FunctionDoc), d ∈ calls → ∃ e, Registered calls e ∧ e.name = d.name := by
        intro calls
        induction calls using List.reverseRecOn with
        | nil => intro h; exact nomatch h
        | append_singleton l a ih =>
          intro h
          by_cases ha : a.name = d.name
          · exact ⟨a, ⟨l, [], rfl, fun _ h => nomatch h⟩, ha⟩
          · rcases List.mem_append.mp h with h | h
            · obtain ⟨e, ⟨pre, post, e1, e2⟩, e3⟩ := ih h
              refine ⟨e, ⟨pre, post ++ [a], by rw [e1]; simp, fun z hz => ?_⟩, e3⟩
              rcases List.mem_append.mp hz with hz | hz
              · exact e2 z hz
              · rw [List.mem_singleton] at hz; subst hz; rw [e3]; exact ha
            · rw [List.mem_singleton] at h; exact absurd (by rw [h]) ha
      obtain ⟨e, he, hn⟩ := key calls hd
      exact ⟨e, (C54_registry calls e).2 he, hn⟩
  rw [this]

/-! ### The tool and the command -/

/-- `formatFunctionDoc` (/repo/tools/texted_doc.go:112-165), as it is written. -/
theorem C97_formatFunctionDoc (x : TgX) (d : FunctionDoc) (w : TgW) (o : TgOut) :
    TgEnds x .formatFunctionDoc [.doc d] w o ↔ o = .ret [.str (formatFunctionDoc d)] w :=
  tgEnds_iff (always x _ _ _ _ 1 fun n k => formatFunctionDoc_tg x d n k w) o

/-- `showFunctionDoc` (/repo/commands/doc.go:57-117), as it is written: a text that is printed, or an error and nothing printed. -/
theorem C97_showFunctionDoc (x : TgX) (name : Bytes) (w : TgW) (o : TgOut) :
    TgEnds x .showFunctionDoc [.str name] w o ↔ o = docOut w (showFunctionDoc w.reg name) := by
  refine tgEnds_iff (always x _ _ _ _ 2 fun n k => ?_) o
  rw [showFunctionDoc_tg x name n k w]
  cases showFunctionDoc w.reg name <;> rfl

/-- **C97.** The tool texted_doc (/repo/tools/texted_doc.go:36-58), as it is written: the answers that it can give to a call are those of the
model, each for some order of the maps; it prints nothing and leaves the registry alone. -/
theorem C97_tool (x : TgX) (calls : List FunctionDoc) (args : Json) (w : TgW) (hw : w.reg = registryOf calls) (out : ToolResult) :
    DocCall (registryOf calls) args out ↔
      ∃ order, LawfulOrder order ∧ ∃ j, TgEnds { x with order := order } .textedDocHandler [.request args] w (.ret [.tool out, .nil] { w with tick := j }) := by
  constructor
  · intro h
    obtain ⟨order, ho, e⟩ := docTool_complete x calls w hw _ _ _ out h
    obtain ⟨j, hj⟩ := docTool_tg { x with order := order } args w
    rw [e] at hj
    exact ⟨order, ho, _, always _ _ _ _ _ 3 hj⟩
  · rintro ⟨order, ho, j, h⟩
    obtain ⟨j', hj⟩ := docTool_tg { x with order := order } args w
    rw [tgEnds_iff (always _ _ _ _ _ 3 hj)] at h
    injection h with h _; injection h with h _; injection h with h
    rw [h]
    have := docTool_sound { x with order := order } ho w (getString args (b! "function_name") []) (getString args (b! "category") []) (getBool args (b! "verbose") false)
    rw [hw] at this
    exact this

/-- **C97.** Whatever the order, the tool answers. -/
theorem C97_tool_answers (x : TgX) (args : Json) (w : TgW) :
    ∃ out j, TgEnds x .textedDocHandler [.request args] w (.ret [.tool out, .nil] { w with tick := j }) := by
  obtain ⟨j, hj⟩ := docTool_tg x args w
  exact ⟨_, _, always _ _ _ _ _ 3 hj⟩

/-- **C97.** Without `verbose`, and whenever a function is named, the answer of the Go text does not depend on the order of the maps. -/
theorem C97_tool_deterministic (x : TgX) (hx : LawfulOrder x.order) (calls : List FunctionDoc) (args : Json) (w : TgW) (hw : w.reg = registryOf calls)
    (h : getBool args (b! "verbose") false = false ∨ getString args (b! "function_name") [] ≠ []) (out : ToolResult) :
    (∃ j, TgEnds x .textedDocHandler [.request args] w (.ret [.tool out, .nil] { w with tick := j })) ↔ DocCall (registryOf calls) args out := by
  constructor
  · intro h; exact (C97_tool x calls args w hw out).2 ⟨_, hx, h⟩
  · intro ho
    obtain ⟨r, hr⟩ := C54_tool_deterministic calls _ (getString args (b! "category") []) _ h
    obtain ⟨out', j, h'⟩ := C97_tool_answers x args w
    have := (C97_tool x calls args w hw out').2 ⟨_, hx, j, h'⟩
    rw [(hr _).1 ho, ← (hr _).1 this]
    exact ⟨j, h'⟩

/-- **C97.** The command `texted doc` (/repo/commands/doc.go:41-54), as it is written: what it can print, and the errors it can return, are those
of the model, each for some order of the maps; with an error it prints nothing. -/
theorem C97_command (x : TgX) (calls : List FunctionDoc) (args : List Bytes) (category : Bytes) (verbose : Bool) (w : TgW) (hw : w.reg = registryOf calls)
    (out : Except Bytes Bytes) :
    RunDoc (strTitle x.title) (registryOf calls) args category verbose out ↔
      ∃ order, LawfulOrder order ∧ ∃ j, TgEnds { x with order := order } .runDoc [.strs args, .str category, .bool verbose] w (docOut { w with tick := j } out) := by
  constructor
  · intro h
    obtain ⟨order, ho, e⟩ := cmdDoc_complete x calls w hw _ _ _ out h
    obtain ⟨j, hj⟩ := runDoc_tg { x with order := order } args category verbose w
    rw [e] at hj
    exact ⟨order, ho, _, always _ _ _ _ _ 3 hj⟩
  · rintro ⟨order, ho, j, h⟩
    obtain ⟨j', hj⟩ := runDoc_tg { x with order := order } args category verbose w
    rw [tgEnds_iff (always _ _ _ _ _ 3 hj)] at h
    have := cmdDoc_sound { x with order := order } ho w args category verbose
    rw [hw] at this
    have e : ∀ (r r' : Except Bytes Bytes), docOut { w with tick := j } r = docOut (w.chose j') r' → r = r' := by
      intro r r' e
      cases r <;> cases r' <;> simp only [docOut] at e
      · injection e with e _; injection e with e _; injection e with e; rw [e]
      · injection e with e _; injection e with e _; exact nomatch e
      · injection e with e _; injection e with e _; exact nomatch e
      · injection e with _ e
        simp only [TgW.say, TgW.chose, TgW.mk.injEq, List.append_cancel_left_eq] at e
        rw [e.1]
    rw [e _ _ h]
    exact this

/-- **C97.** Whatever the order, the command returns. -/
theorem C97_command_returns (x : TgX) (args : List Bytes) (category : Bytes) (verbose : Bool) (w : TgW) :
    ∃ out j, TgEnds x .runDoc [.strs args, .str category, .bool verbose] w (docOut { w with tick := j } out) := by
  obtain ⟨j, hj⟩ := runDoc_tg x args category verbose w
  exact ⟨_, _, always _ _ _ _ _ 3 hj⟩

/-! ### Concrete cases -/

/-- Four registrations, one of them replaced by a later one. -/
def fourDocs : List FunctionDoc :=
  [⟨b! "point", b! "old", [], [], [], [], b! "position"⟩, ⟨b! "insert", b! "Insert text", [], [⟨b! "text", b! "string", [], false⟩], [], [], b! "editing"⟩,
   ⟨b! "point", b! "Where point is", [], [], [], [], b! "position"⟩, ⟨b! "goto-char", [], [], [], [], [b! "point"], b! "position"⟩]

/-- What is outside, with an order of the maps. -/
def docWorld (order : Nat → Nat → List Nat) : TgX := { threeTests with order := order }

/-- What the tool answers. -/
def toolAnswer : TgOut → Option (Bool × Bytes)
  | .ret [.tool (.text s), .nil] _ => some (true, s)
  | .ret [.tool (.error s), .nil] _ => some (false, s)
  | _ => none

/-- What the command prints, or its error. -/
def docPrinted : TgOut → Option (Bool × Bytes)
  | .ret [.nil] w => some (true, w.out)
  | .ret [.err e] _ => some (false, e)
  | _ => none

/-- The list of all functions is alphabetical in the Go text, with both orders. -/
example : toolAnswer (@tgRun litExt (docWorld fun _ n => List.range n) 9 9 .textedDocHandler [.request (.obj [])] ⟨[], registryOf fourDocs, 0⟩) =
      some (true, b! "# All functions\n\nFound 3 function(s):\n\n- goto-char\n- insert\n- point") ∧
    toolAnswer (@tgRun litExt (docWorld fun _ n => (List.range n).reverse) 9 9 .textedDocHandler [.request (.obj [])] ⟨[], registryOf fourDocs, 0⟩) =
      some (true, b! "# All functions\n\nFound 3 function(s):\n\n- goto-char\n- insert\n- point") := by
  decide +kernel

/-- The sections of the verbose list come in the order of the map. -/
example : toolAnswer (@tgRun litExt (docWorld fun _ n => List.range n) 9 9 .textedDocHandler [.request (.obj [(b! "verbose", .bool true)])] ⟨[], registryOf fourDocs, 0⟩) =
      some (true, b! "# All functions\n\nFound 3 function(s):\n\n## position\n\n- **goto-char**\n- **point**: Where point is\n\n## editing\n\n- **insert**: Insert text") ∧
    toolAnswer (@tgRun litExt (docWorld fun _ n => (List.range n).reverse) 9 9 .textedDocHandler [.request (.obj [(b! "verbose", .bool true)])] ⟨[], registryOf fourDocs, 0⟩) =
      some (true, b! "# All functions\n\nFound 3 function(s):\n\n## editing\n\n- **insert**: Insert text\n\n## position\n\n- **goto-char**\n- **point**: Where point is") := by
  decide +kernel

/-- An unknown name, and an unknown category. -/
example : toolAnswer (@tgRun litExt (docWorld fun _ n => List.range n) 9 9 .textedDocHandler [.request (.obj [(b! "function_name", .str b! "int")])] ⟨[], registryOf fourDocs, 0⟩) =
      some (false, b! "Function 'int' not found. Did you mean: point") ∧
    toolAnswer (@tgRun litExt (docWorld fun _ n => List.range n) 9 9 .textedDocHandler [.request (.obj [(b! "category", .str b! "x")])] ⟨[], registryOf fourDocs, 0⟩) =
      some (false, b! "No functions found in category 'x'. Available categories: editing, position") := by
  decide +kernel

/-- `texted doc insert`, `texted doc --category position --verbose`, `texted doc a b`. -/
example : docPrinted (@tgRun litExt (docWorld fun _ n => List.range n) 9 9 .runDoc [.strs [b! "insert"], .str [], .bool false] ⟨[], registryOf fourDocs, 0⟩) =
      some (true, b! "# insert\n\n**Insert text**\n\n## Parameters\n\n- **text** (string): \n\n## Category\n\nediting\n\n") ∧
    docPrinted (@tgRun litExt (docWorld fun _ n => List.range n) 9 9 .runDoc [.strs [], .str b! "position", .bool true] ⟨[], registryOf fourDocs, 0⟩) =
      some (true, b! "Functions in category 'position':\n\n## Position\n\n- **goto-char**: \n- **point**: Where point is\n\n") ∧
    docPrinted (@tgRun litExt (docWorld fun _ n => List.range n) 9 9 .runDoc [.strs [b! "a", b! "b"], .str [], .bool false] ⟨[], registryOf fourDocs, 0⟩) =
      some (false, b! "doc command accepts at most one argument (function name)") := by
  decide +kernel

/-- The hypotheses of the theorems above are met: orders of both kinds are lawful, and the names of `fourDocs`. -/
example : LawfulOrder (fun _ n => List.range n) ∧ LawfulOrder (fun _ n => (List.range n).reverse) ∧
    ∀ n, n ∈ [b! "point", b! "insert", b! "goto-char"] ↔ ∃ d ∈ fourDocs, d.name = n := by
  refine ⟨range_lawful, fun _ n => List.reverse_perm _, fun n => ?_⟩
  simp only [fourDocs, List.mem_cons, List.not_mem_nil, or_false, exists_eq_or_imp, exists_eq_left]
  constructor
  · rintro (h | h | h)
    · exact .inl h.symm
    · exact .inr (.inl h.symm)
    · exact .inr (.inr (.inr h.symm))
  · rintro (h | h | h | h)
    · exact .inl h.symm
    · exact .inr (.inl h.symm)
    · exact .inl h.symm
    · exact .inr (.inr h.symm)

end Texted
