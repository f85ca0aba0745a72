import Verif.Lemmas.TgDoc
/-
The Go text of the registry of the documentation and of the lists of functions.
-/
set_option linter.unusedSectionVars false
set_option linter.unusedSimpArgs false
set_option linter.unusedVariables false
set_option linter.constructorNameAsVariable false
namespace Texted
variable [Ext]

/-- `k` more choices have been made. -/
def TgW.chose (w : TgW) (k : Nat) : TgW := { w with tick := w.tick + k }

/-- The things of `l` in the order of the `t`-th choice. -/
def TgX.taken (x : TgX) {α : Type} (t : Nat) (l : List α) : List α := inOrder l (x.order t l.length)

theorem taken_map (x : TgX) {α β : Type} (f : α → β) (t : Nat) (l : List α) : x.taken t (l.map f) = (x.taken t l).map f := by
  unfold TgX.taken
  rw [inOrder_map, List.length_map]

theorem taken_perm (x : TgX) (hx : LawfulOrder x.order) {α : Type} (t : Nat) (l : List α) : (x.taken t l).Perm l := inOrder_perm l (hx t l.length)

/-- What `GetAllDocumentation` returns, for the choices that are made. -/
def TgX.allDocs (x : TgX) (w : TgW) : List FunctionDoc := sortBy FunctionDoc.name (x.taken (w.tick + 1) (x.taken w.tick w.reg))

/-- What `GetDocumentationByCategory` returns, for the choices that are made. -/
def TgX.inCategory (x : TgX) (w : TgW) (c : Bytes) : List FunctionDoc :=
  sortBy FunctionDoc.name (x.taken (w.tick + 1) ((x.taken w.tick w.reg).filter fun d => d.category = c))

/-- The set of categories that `GetCategories` builds. -/
def categorySet (docs : List FunctionDoc) (m : List (Bytes × Bool)) : List (Bytes × Bool) :=
  docs.foldl (fun m d => if d.category ≠ [] then putAt d.category true m else m) m

/-- What `GetCategories` returns, for the choices that are made. -/
def TgX.allCategories (x : TgX) (w : TgW) : List Bytes :=
  sortBy id (x.taken (w.tick + 1) ((categorySet (x.taken w.tick w.reg) []).map (·.1)))

/-- `for …, y := range m { body }` with an invariant. -/
theorem rangeMap_inv {α β : Type} (x : TgX) (n : Nat) (call : TgFn → List TgV → TgW → TgOut) (k y : TgVar) (e : TgE) (body : TgS) (v : TgV) (l : List α)
    (mk : α → Bytes × TgV) (Inv : β → TgSt → Prop) (step : β → α → β) (ok : α → Prop) (b : β) (st : TgSt) (he : e.eval x st = .ok v) (hv : v.entries = .ok (l.map mk))
    (hok : ∀ a ∈ x.taken st.w.tick l, ok a)
    (h0 : Inv b { st with w := st.w.chose 1 })
    (h : ∀ a b st, ok a → Inv b st → ∃ st', body.exec x n call ((st.set k (.str (mk a).1)).set y (mk a).2) = .next st' ∧ Inv (step b a) st') :
    ∃ st', (TgS.rangeMap k y e body).exec x n call st = .next st' ∧ Inv ((x.taken st.w.tick l).foldl step b) st' := by
  obtain ⟨st', e', h'⟩ := entries_inv Inv step mk (fun st => body.exec x n call st) k y ok h (x.taken st.w.tick l) b _ hok h0
  refine ⟨st', ?_, h'⟩
  rw [tgexec_rangeMap, he, tgok_run, hv, tgok_run, inOrder_map, List.length_map]
  exact e'

theorem foldl_first {α β : Type} (f : α → β) : ∀ (l : List α) (s : List β), l.foldl (fun acc p => acc ++ [f p]) s = s ++ l.map f
  | [], s => by simp
  | a :: l, s => by simp [foldl_first f l, List.append_assoc]

theorem register_tg (x : TgX) (d : FunctionDoc) (n k : Nat) (w : TgW) :
    tgRun x n (k + 1) .registerDocumentation [.doc d] w = .ret [] { w with reg := w.reg.register d } := by
  rw [tgRun_succ _ _ _ _ _ _ _ rfl]
  simp only [TgFn.body, tgRegisterDocumentation]
  tg [tgRegister]

theorem count_tg (x : TgX) (n k : Nat) (w : TgW) : tgRun x n (k + 1) .getRegisteredFunctionCount [] w = .ret [.int w.reg.length] w := by
  rw [tgRun_succ _ _ _ _ _ _ _ rfl]
  simp only [TgFn.body, tgGetRegisteredFunctionCount]
  tg []

theorem getAll_tg (x : TgX) (n k : Nat) (w : TgW) : tgRun x n (k + 1) .getAllDocumentation [] w = .ret [.docs (x.allDocs w)] (w.chose 2) := by
  rw [tgRun_succ _ _ _ _ _ _ _ rfl]
  simp only [TgFn.body, tgGetAllDocumentation]
  refine next_then (by tg []; rfl) ?_
  obtain ⟨st', e, h₁, h₂⟩ := rangeMap_inv x n (tgRun x n k) .blank .doc .registry (.set .docs (.call .append (.cons (.var .docs) (.cons (.var .doc) .nil)))) (.docMap w.reg) w.reg
    (fun d => (d.name, .doc d)) (fun acc st => st.vars .docs = .docs acc ∧ st.w = w.chose 1) (fun acc d => acc ++ [d]) (fun _ => True) []
    (({ vars := fun _ => .nil, w := w } : TgSt).set .docs (.docs [])) rfl rfl (fun _ _ => trivial) ⟨rfl, rfl⟩ (fun d acc st _ h => by
      apply next_ex
      · tg [h.1]; rfl
      · exact ⟨by tg [], h.2⟩)
  refine next_then e ?_
  rw [foldl_snoc, List.nil_append] at h₁
  tg [tgSortDocs, h₁, h₂]
  rfl

theorem byCategory_tg (x : TgX) (c : Bytes) (n k : Nat) (w : TgW) :
    tgRun x n (k + 1) .getDocumentationByCategory [.str c] w = .ret [.docs (x.inCategory w c)] (w.chose 2) := by
  rw [tgRun_succ _ _ _ _ _ _ _ rfl]
  simp only [TgFn.body, tgGetDocumentationByCategory]
  refine next_then (by tg []; rfl) ?_
  obtain ⟨st', e, h₁, h₂, h₃⟩ := rangeMap_inv x n (tgRun x n k) .blank .doc .registry
    (.if_ (.bin .eq (.call (.field .category) (.cons (.var .doc) .nil)) (.var .category))
      (.set .docs (.call .append (.cons (.var .docs) (.cons (.var .doc) .nil)))) .skip) (.docMap w.reg) w.reg
    (fun d => (d.name, .doc d)) (fun acc st => st.vars .docs = .docs acc ∧ st.w = w.chose 1 ∧ st.vars .category = .str c)
    (fun acc d => acc ++ if d.category = c then [d] else []) (fun _ => True) []
    ((({ vars := fun _ => .nil, w := w } : TgSt).set .category (.str c)).set .docs (.docs [])) rfl rfl (fun _ _ => trivial) ⟨rfl, rfl, rfl⟩ (fun d acc st _ h => by
      by_cases hc : d.category = c
      · apply next_ex
        · tg [h.1, h.2.2, hc]; rfl
        · refine ⟨?_, h.2.1, ?_⟩ <;> tg [hc, h.2.2]
      · apply next_ex
        · tg [h.1, h.2.2, hc]; rfl
        · refine ⟨?_, h.2.1, ?_⟩ <;> tg [hc, h.1, h.2.2, List.append_nil])
  refine next_then e ?_
  rw [foldl_append, List.nil_append] at h₁
  have hf : (x.taken w.tick w.reg).flatMap (fun d => if d.category = c then [d] else []) = (x.taken w.tick w.reg).filter fun d => d.category = c := by
    induction x.taken w.tick w.reg with
    | nil => rfl
    | cons d l ih =>
      rw [List.flatMap_cons, List.filter_cons, ih]
      by_cases hc : d.category = c <;> simp [hc]
  have h₁' := h₁.trans (congrArg TgV.docs hf)
  tg [tgSortDocs, h₁', h₂]
  rfl

theorem categories_tg (x : TgX) (n k : Nat) (w : TgW) : tgRun x n (k + 1) .getCategories [] w = .ret [.strs (x.allCategories w)] (w.chose 2) := by
  rw [tgRun_succ _ _ _ _ _ _ _ rfl]
  simp only [TgFn.body, tgGetCategories]
  refine next_then (by tg []; rfl) ?_
  obtain ⟨st', e, h₁, h₂⟩ := rangeMap_inv x n (tgRun x n k) .blank .doc .registry
    (.if_ (.bin .ne (.call (.field .category) (.cons (.var .doc) .nil)) (.str (b! "")))
      (.setAt .categorySet (.call (.field .category) (.cons (.var .doc) .nil)) (.bool true)) .skip) (.docMap w.reg) w.reg
    (fun d => (d.name, .doc d)) (fun m st => st.vars .categorySet = .flags m ∧ st.w = w.chose 1)
    (fun m d => if d.category ≠ [] then putAt d.category true m else m) (fun _ => True) []
    (({ vars := fun _ => .nil, w := w } : TgSt).set .categorySet (.flags [])) rfl rfl (fun _ _ => trivial) ⟨rfl, rfl⟩ (fun d acc st _ h => by
      by_cases hc : d.category = []
      · apply next_ex
        · tg [h.1, hc]; rfl
        · refine ⟨?_, h.2⟩; tg [hc, h.1, ne_eq, not_true, if_false]
      · apply next_ex
        · tg [h.1, hc]; rfl
        · refine ⟨?_, h.2⟩; tg [hc, h.1, ne_eq, not_false_eq_true])
  refine next_then e ?_
  refine next_then (st' := st'.set .categories (.strs [])) (by tg []) ?_
  obtain ⟨st'', e', h₃, h₄⟩ := rangeMap_inv x n (tgRun x n k) .category .blank (.var .categorySet)
    (.set .categories (.call .append (.cons (.var .categories) (.cons (.var .category) .nil)))) (.flags (categorySet (x.taken w.tick w.reg) [])) (categorySet (x.taken w.tick w.reg) [])
    (fun p => (p.1, .bool p.2)) (fun acc st => st.vars .categories = .strs acc ∧ st.w = w.chose 2) (fun acc p => acc ++ [p.1]) (fun _ => True) []
    (st'.set .categories (.strs [])) (by tg [h₁]; rfl) rfl (fun _ _ => trivial) ⟨rfl, by show st'.w.chose 1 = _; rw [h₂]; rfl⟩ (fun d acc st _ h => by
      apply next_ex
      · tg [h.1]; rfl
      · exact ⟨by tg [], h.2⟩)
  refine next_then e' ?_
  have hw : (st'.set .categories (.strs [])).w.tick = w.tick + 1 := by show st'.w.tick = _; rw [h₂]; rfl
  rw [hw, show ∀ l : List (Bytes × Bool), l.foldl (fun acc p => acc ++ [p.1]) ([] : List Bytes) = l.map (·.1) from fun l => by
    rw [foldl_first, List.nil_append], ← taken_map] at h₃
  tg [tgSortStrs, h₃, h₄]
  rfl

/-- The headings of the list. -/
def listHead (docs : List FunctionDoc) (title : Bytes) : Bytes := b! "# " ++ title ++ b! "\n\nFound " ++ natDec docs.length ++ b! " function(s):\n\n"

/-- The names of the groups, in the order in which they came. -/
def groupKeys (dflt : Bytes) (docs : List FunctionDoc) : List Bytes := (groupsOf dflt docs []).map (·.1)

theorem groupsOf_group (dflt c : Bytes) (docs : List FunctionDoc) : groupAt (groupsOf dflt docs []) c = docs.filter fun d => groupName dflt d = c := by
  rw [groupsOf_at]; rfl

theorem formatList_plain_tg (x : TgX) (docs : List FunctionDoc) (title : Bytes) (n k : Nat) (w : TgW) :
    tgRun x n (k + 1) .formatFunctionList [.docs docs, .str title, .bool false] w =
      .ret [.str (trimSpace (listHead docs title ++ docs.flatMap fun d => b! "- " ++ d.name ++ b! "\n"))] w := by
  rw [tgRun_succ _ _ _ _ _ _ _ rfl]
  simp only [TgFn.body, tgFormatFunctionList]
  refine next_then (by tg []; rfl) ?_
  refine next_then (by tg []; rfl) ?_
  refine next_then (by tg []; rfl) ?_
  refine Does.then (s := listHead docs title) (t := docs.flatMap fun d => b! "- " ++ d.name ++ b! "\n")
    (P := fun s st => st.vars .output = .builder s ∧ st.vars .docs = .docs docs ∧ st.vars .verbose = .bool false ∧ st.w = w) ?_ ⟨?_, rfl, rfl, rfl⟩ fun st h => ?_
  · refine Does.congr (Does.ite False (u := docs.flatMap fun d => b! "- " ++ d.name ++ b! "\n") (t := []) ?_ (fun h => h.elim) fun _ => ?_) (if_neg id)
    · rintro s st ⟨h₁, h₂, h₃, h₄⟩
      tg [h₃]
    · refine Does.congr (Does.range .doc (.docs docs) docs (fun _ d => b! "- " ++ d.name ++ b! "\n")
        (fun _ d s st => (st.vars .output = .builder s ∧ st.vars .docs = .docs docs ∧ st.vars .verbose = .bool false ∧ st.w = w) ∧ st.vars .doc3 = .doc d)
        ?_ rfl ?_ (fun _ _ _ _ h => h.1) fun _ d => Does.congr (Does.write (t := b! "- " ++ (d.name ++ b! "\n")) ?_ (fun _ _ h => h.1.1) ?_) (List.append_assoc ..).symm) (mapIdx_flatMap ..)
      · rintro s st ⟨h₁, h₂, h₃, h₄⟩; tg [h₂]
      · rintro k a s st ⟨h₁, h₂, h₃, h₄⟩; refine ⟨⟨?_, ?_, ?_, ?_⟩, ?_⟩ <;> tg [h₁, h₂, h₃, h₄]
      · rintro s st ⟨⟨h₁, h₂, h₃, h₄⟩, h₅⟩; tg [h₅, List.append_nil]
      · rintro s st ⟨⟨h₁, h₂, h₃, h₄⟩, h₅⟩; refine ⟨⟨?_, ?_, ?_, ?_⟩, ?_⟩ <;> tg [h₁, h₂, h₃, h₄, h₅]
  · tg [listHead, List.nil_append, List.append_nil, List.append_assoc, intDec_natCast]
    rfl
  · tg [h.1, h.2.2.2]

/-- What the groups are while they are built. -/
theorem groups_tg (x : TgX) (n : Nat) (call : TgFn → List TgV → TgW → TgOut) (cat : TgVar) (hcat : cat ≠ .categoryMap) (hcat' : cat ≠ .doc) (dflt : Bytes) (docs : List FunctionDoc)
    (P : TgSt → Prop) (hp : ∀ st v y, y = cat ∨ y = .categoryMap ∨ y = .doc ∨ y = .blank → P st → P (st.set y v)) (st : TgSt) (h : P st) (hd : st.vars .docs = .docs docs) (hm : st.vars .categoryMap = .groups []) :
    ∃ st', (TgS.range .blank .doc (.var .docs)
      (.seq (.set cat (.call (.field .category) (.cons (.var .doc) .nil))) <|
      .seq (.if_ (.bin .eq (.var cat) (.str (b! ""))) (.set cat (.str dflt)) .skip) <|
      (.setAt .categoryMap (.var cat) (.call .append (.cons (.call .index (.cons (.var .categoryMap) (.cons (.var cat) .nil))) (.cons (.var .doc) .nil)))))).exec x n call st = .next st' ∧
      P st' ∧ st'.vars .categoryMap = .groups (groupsOf dflt docs []) := by
  obtain ⟨st', e, h'⟩ := range_inv (fun m st => P st ∧ st.vars .categoryMap = .groups m)
    (fun m d => putAt (groupName dflt d) (groupAt m (groupName dflt d) ++ [d]) m) TgV.doc
    (fun st => (TgS.seq (.set cat (.call (.field .category) (.cons (.var .doc) .nil))) <|
      .seq (.if_ (.bin .eq (.var cat) (.str (b! ""))) (.set cat (.str dflt)) .skip) <|
      (.setAt .categoryMap (.var cat) (.call .append (.cons (.call .index (.cons (.var .categoryMap) (.cons (.var cat) .nil))) (.cons (.var .doc) .nil))))).exec x n call st)
    .blank .doc (fun k d m st ⟨h₁, h₂⟩ => by
      have hd' : TgVar.doc ≠ cat := hcat'.symm
      have hm' : TgVar.categoryMap ≠ cat := hcat.symm
      by_cases hc : d.category = []
      · refine next_ex (((((st.set .blank (.int k)).set .doc (.doc d)).set cat (.str [])).set cat (.str dflt)).set .categoryMap (.groups (putAt dflt (groupAt m dflt ++ [d]) m))) ?_ ?_
        · tg [hc, h₂, hd', hm']
        · refine ⟨hp _ _ _ (by simp) (hp _ _ _ (by simp) (hp _ _ _ (by simp) (hp _ _ _ (by simp) (hp _ _ _ (by simp) h₁)))), ?_⟩
          tg [groupName, hc]
      · refine next_ex ((((st.set .blank (.int k)).set .doc (.doc d)).set cat (.str d.category)).set .categoryMap (.groups (putAt d.category (groupAt m d.category ++ [d]) m))) ?_ ?_
        · tg [hc, h₂, hd', hm']
        · refine ⟨hp _ _ _ (by simp) (hp _ _ _ (by simp) (hp _ _ _ (by simp) (hp _ _ _ (by simp) h₁))), ?_⟩
          tg [groupName, hc]) docs 0 [] st ⟨h, hm⟩
  refine ⟨st', ?_, h'⟩
  rw [tgexec_range, tgeval_var_y, tgok_run, hd]
  exact e

/-- The state while the groups are written. -/
def Grouping (m : List (Bytes × List FunctionDoc)) (w : TgW) (s : Bytes) (st : TgSt) : Prop := st.vars .output = .builder s ∧ st.vars .categoryMap = .groups m ∧ st.w = w

/-- The loop over the names of the groups. -/
def groupsLoop : TgS := tgFormatFunctionList.tl.tl.tl.hd.yes.tl.tl.tl.tl

theorem groupsLoop_does (x : TgX) (docs : List FunctionDoc) (keys : List Bytes) (n : Nat) (call : TgFn → List TgV → TgW → TgOut) (w : TgW) :
    Does x n call groupsLoop (fun s st => Grouping (groupsOf b! "Uncategorized" docs []) w s st ∧ st.vars .categories = .strs keys) (keys.flatMap (groupText docs)) := by
  refine Does.congr (Does.range .str (.strs keys) keys (fun _ => groupText docs)
    (fun _ c s st => (Grouping (groupsOf b! "Uncategorized" docs []) w s st ∧ st.vars .categories = .strs keys) ∧ st.vars .category3 = .str c)
    ?_ rfl ?_ (fun _ _ _ _ h => h.1) fun _ c => ?_) (mapIdx_flatMap ..)
  · rintro s st ⟨h, h'⟩; tg [h']
  · rintro k c s st ⟨⟨h₁, h₂, h₃⟩, h₄⟩
    refine ⟨⟨⟨?_, ?_, ?_⟩, ?_⟩, ?_⟩ <;> tg [h₁, h₂, h₃, h₄]
  · refine Does.congr (Does.seq (Does.write (t := b! "## " ++ (c ++ b! "\n\n")) ?_ (fun _ _ h => h.1.1.1) ?_) (Does.seq (Does.range .doc (.docs (docs.filter fun d => groupName b! "Uncategorized" d = c))
      (docs.filter fun d => groupName b! "Uncategorized" d = c) (fun _ d => b! "- **" ++ d.name ++ b! "**" ++ (if d.summary ≠ [] then b! ": " ++ d.summary else []) ++ b! "\n")
      (fun _ d s st => ((Grouping (groupsOf b! "Uncategorized" docs []) w s st ∧ st.vars .categories = .strs keys) ∧ st.vars .category3 = .str c) ∧ st.vars .doc2 = .doc d)
      ?_ rfl ?_ (fun _ _ _ _ h => h.1) fun _ d => ?_) (Does.write (t := b! "\n") ?_ (fun _ _ h => h.1.1.1) ?_))) ?_
    · rintro s st ⟨⟨h, h₁⟩, h₂⟩; tg [h₂, List.append_nil]
    · rintro s st ⟨⟨⟨h₁, h₂, h₃⟩, h₄⟩, h₅⟩
      refine ⟨⟨⟨?_, ?_, ?_⟩, ?_⟩, ?_⟩ <;> tg [h₁, h₂, h₃, h₄, h₅]
    · rintro s st ⟨⟨⟨h₁, h₂, h₃⟩, h₄⟩, h₅⟩; tg [h₂, h₅, groupsOf_group]
    · rintro k d s st ⟨⟨⟨h₁, h₂, h₃⟩, h₄⟩, h₅⟩
      refine ⟨⟨⟨⟨?_, ?_, ?_⟩, ?_⟩, ?_⟩, ?_⟩ <;> tg [h₁, h₂, h₃, h₄, h₅]
    · refine Does.congr (Does.seq (Does.write (t := b! "- **" ++ (d.name ++ b! "**")) ?_ (fun _ _ h => h.1.1.1.1) ?_)
        (Does.seq (Does.ite (d.summary ≠ []) (t := b! ": " ++ d.summary) (u := []) ?_ (fun _ => Does.write ?_ (fun _ _ h => h.1.1.1.1) ?_) fun _ => Does.skip)
        (Does.write (t := b! "\n") ?_ (fun _ _ h => h.1.1.1.1) ?_))) ?_
      · rintro s st ⟨⟨⟨⟨h₁, h₂, h₃⟩, h₄⟩, h₅⟩, h₆⟩; tg [h₆, List.append_nil]
      · rintro s st ⟨⟨⟨⟨h₁, h₂, h₃⟩, h₄⟩, h₅⟩, h₆⟩
        refine ⟨⟨⟨⟨?_, ?_, ?_⟩, ?_⟩, ?_⟩, ?_⟩ <;> tg [h₁, h₂, h₃, h₄, h₅, h₆]
      · rintro s st ⟨⟨⟨⟨h₁, h₂, h₃⟩, h₄⟩, h₅⟩, h₆⟩; tg [h₆]; exact ok_bool (decide_of_not Iff.rfl)
      · rintro s st ⟨⟨⟨⟨h₁, h₂, h₃⟩, h₄⟩, h₅⟩, h₆⟩; tg [h₆, List.append_nil]
      · rintro s st ⟨⟨⟨⟨h₁, h₂, h₃⟩, h₄⟩, h₅⟩, h₆⟩
        refine ⟨⟨⟨⟨?_, ?_, ?_⟩, ?_⟩, ?_⟩, ?_⟩ <;> tg [h₁, h₂, h₃, h₄, h₅, h₆]
      · rintro s st _; tg []
      · rintro s st ⟨⟨⟨⟨h₁, h₂, h₃⟩, h₄⟩, h₅⟩, h₆⟩
        refine ⟨⟨⟨⟨?_, ?_, ?_⟩, ?_⟩, ?_⟩, ?_⟩ <;> tg [h₁, h₂, h₃, h₄, h₅, h₆]
      · simp only [List.append_assoc]
    · rintro s st _; tg []
    · rintro s st ⟨⟨⟨h₁, h₂, h₃⟩, h₄⟩, h₅⟩
      refine ⟨⟨⟨?_, ?_, ?_⟩, ?_⟩, ?_⟩ <;> tg [h₁, h₂, h₃, h₄, h₅]
    · rw [mapIdx_flatMap]
      simp only [groupText, List.append_assoc]

theorem formatList_verbose_tg (x : TgX) (docs : List FunctionDoc) (title : Bytes) (n k : Nat) (w : TgW) :
    tgRun x n (k + 1) .formatFunctionList [.docs docs, .str title, .bool true] w =
      .ret [.str (trimSpace (listHead docs title ++ (x.taken w.tick (groupKeys b! "Uncategorized" docs)).flatMap (groupText docs)))] (w.chose 1) := by
  rw [tgRun_succ _ _ _ _ _ _ _ rfl]
  simp only [TgFn.body, tgFormatFunctionList]
  refine next_then (by tg []; rfl) ?_
  refine next_then (by tg []; rfl) ?_
  refine next_then (by tg []; rfl) ?_
  generalize hst : TgSt.set _ TgVar.output (TgV.builder (_ ++ (_ ++ (intDec _ ++ _)))) = st
  have s₁ : st.vars .output = .builder (listHead docs title) := by
    rw [← hst]
    tg [listHead, List.nil_append, List.append_nil, List.append_assoc, intDec_natCast]
    rfl
  have s₂ : st.vars .docs = .docs docs := by rw [← hst]; rfl
  have s₃ : st.vars .verbose = .bool true := by rw [← hst]; rfl
  have s₄ : st.w = w := by rw [← hst]; rfl
  clear hst
  obtain ⟨st₁, e₁, ⟨p₁, p₂⟩, p₃⟩ := groups_tg x n (tgRun x n k) .category (by decide) (by decide) b! "Uncategorized" docs
    (fun st => st.vars .output = .builder (listHead docs title) ∧ st.w = w) (by
      rintro st v y (rfl | rfl | rfl | rfl) ⟨h₁, h₂⟩ <;> exact ⟨h₁, h₂⟩) (st.set .categoryMap (.groups [])) ⟨s₁, s₄⟩ s₂ rfl
  obtain ⟨st₂, e₂, q₁, q₂, q₃, q₄⟩ := rangeMap_inv x n (tgRun x n k) .category2 .blank (.var .categoryMap)
    (.set .categories (.call .append (.cons (.var .categories) (.cons (.var .category2) .nil)))) (.groups (groupsOf b! "Uncategorized" docs [])) (groupsOf b! "Uncategorized" docs [])
    (fun p => (p.1, .docs p.2)) (fun acc st => st.vars .categories = .strs acc ∧ st.vars .output = .builder (listHead docs title) ∧
      st.vars .categoryMap = .groups (groupsOf b! "Uncategorized" docs []) ∧ st.w = w.chose 1) (fun acc p => acc ++ [p.1]) (fun _ => True) []
    (st₁.set .categories (.strs [])) (by tg [p₃]) rfl (fun _ _ => trivial) ⟨rfl, p₁, p₃, by show st₁.w.chose 1 = _; rw [p₂]⟩ (fun d acc st _ h => by
      apply next_ex
      · tg [h.1]; rfl
      · exact ⟨by tg [], h.2.1, h.2.2.1, h.2.2.2⟩)
  have hw : (st₁.set .categories (.strs [])).w.tick = w.tick := by show st₁.w.tick = _; rw [p₂]
  rw [hw, foldl_first, List.nil_append, ← taken_map] at q₁
  obtain ⟨st₃, e₃, ⟨r₁, r₂, r₃⟩, r₄⟩ := groupsLoop_does x docs (x.taken w.tick (groupKeys b! "Uncategorized" docs)) n (tgRun x n k) (w.chose 1) _ st₂ ⟨⟨q₂, q₃, q₄⟩, q₁⟩
  refine next_then (st' := st₃) ?_ ?_
  · rw [tgexec_if_, tgeval_var_y, tgok_run, s₃, tgIf_true]
    refine next_then (st' := st.set .categoryMap (.groups [])) (by tg []) ?_
    refine next_then e₁ ?_
    refine next_then (st' := st₁.set .categories (.strs [])) (by tg []) ?_
    refine next_then e₂ ?_
    exact e₃
  · tg [r₁, r₃]

end Texted
