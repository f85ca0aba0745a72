import Verif.Lemmas.TgDocs
/-
The Go text of the tool texted_doc.
-/
set_option linter.unusedSectionVars false
set_option linter.unusedSimpArgs false
set_option linter.unusedVariables false
set_option linter.constructorNameAsVariable false
namespace Texted
variable [Ext]

/-- The text of a list of functions, for the choice that is made. -/
def TgX.listing (x : TgX) (t : Nat) (docs : List FunctionDoc) (title : Bytes) (verbose : Bool) : Bytes :=
  if verbose then trimSpace (listHead docs title ++ (x.taken t (groupKeys b! "Uncategorized" docs)).flatMap (groupText docs))
  else trimSpace (listHead docs title ++ docs.flatMap fun d => b! "- " ++ d.name ++ b! "\n")

theorem formatList_tg (x : TgX) (docs : List FunctionDoc) (title : Bytes) (verbose : Bool) (n k : Nat) (w : TgW) :
    tgRun x n (k + 1) .formatFunctionList [.docs docs, .str title, .bool verbose] w = .ret [.str (x.listing w.tick docs title verbose)] (w.chose verbose.toNat) := by
  cases verbose
  · exact formatList_plain_tg x docs title n k w
  · exact formatList_verbose_tg x docs title n k w

/-- The answer for a function, for the choices that are made. -/
def TgX.functionDoc (x : TgX) (w : TgW) (name : Bytes) : ToolResult :=
  match w.reg.lookup name with
  | some d => .text (formatFunctionDoc d)
  | none => .error (b! "Function '" ++ name ++ b! "' not found" ++
      (if suggestLoop name (x.allDocs w) [] ≠ [] then b! ". Did you mean: " ++ joinWith b! ", " (suggestLoop name (x.allDocs w) []) else []))

/-- The answer for a category, for the choices that are made. -/
def TgX.categoryListing (x : TgX) (w : TgW) (c : Bytes) (verbose : Bool) : ToolResult :=
  if x.inCategory w c = [] then .error (b! "No functions found in category '" ++ c ++ b! "'" ++
      (if x.allCategories (w.chose 2) ≠ [] then b! ". Available categories: " ++ joinWith b! ", " (x.allCategories (w.chose 2)) else []))
  else .text (x.listing (w.tick + 2) (x.inCategory w c) (b! "Functions in category '" ++ c ++ b! "'") verbose)

/-- The answer for all functions, for the choices that are made. -/
def TgX.allListing (x : TgX) (w : TgW) (verbose : Bool) : ToolResult :=
  if x.allDocs w = [] then .error b! "No functions documented" else .text (x.listing (w.tick + 2) (x.allDocs w) b! "All functions" verbose)

/-- The answer of the tool, for the choices that are made. -/
def TgX.docTool (x : TgX) (w : TgW) (name category : Bytes) (verbose : Bool) : ToolResult :=
  if name ≠ [] ∧ category ≠ [] then .error b! "function_name and category parameters are mutually exclusive"
  else if name ≠ [] then x.functionDoc w name
  else if category ≠ [] then x.categoryListing w category verbose
  else x.allListing w verbose

theorem ret_then {x : TgX} {n : Nat} {call : TgFn → List TgV → TgW → TgOut} {a b : TgS} {st : TgSt} {vs : List TgV} {w : TgW} (h : a.exec x n call st = .ret vs w) :
    (TgS.seq a b).exec x n call st = .ret vs w := by
  rw [tgexec_seq, h]; rfl

theorem if_yes {x : TgX} {n : Nat} {call : TgFn → List TgV → TgW → TgOut} {c : TgE} {a b : TgS} {st : TgSt} {o : TgOut} (hc : c.eval x st = .ok (.bool true))
    (h : a.exec x n call st = o) : (TgS.if_ c a b).exec x n call st = o := by
  rw [tgexec_if_, hc]; exact h

/-- The loop that looks for similar names. -/
def suggestBody : TgS := tgHandleFunctionDoc.tl.hd.yes.tl.tl.hd.inner

theorem suggest_tg (x : TgX) (n : Nat) (call : TgFn → List TgV → TgW → TgOut) (f : Bytes) (w : TgW) : ∀ (l : List FunctionDoc) (acc : List Bytes) (k : Nat) (st : TgSt),
    st.vars .suggestions = .strs acc → st.vars .functionName = .str f → st.w = w →
    ∃ st', tgRange (fun st => suggestBody.exec x n call st) .blank .d k (l.map .doc) st = .next st' ∧ st'.vars .suggestions = .strs (suggestLoop f l acc) ∧
      st'.vars .functionName = .str f ∧ st'.w = w
  | [], acc, k, st, h₁, h₂, h₃ => ⟨st, rfl, h₁, h₂, h₃⟩
  | d :: l, acc, k, st, h₁, h₂, h₃ => by
    rw [List.map_cons, tgRange_cons, suggestLoop]
    rcases Bool.eq_false_or_eq_true (containsSub d.name f || containsSub f d.name) with hc | hc
    · rw [hc, if_pos rfl]
      by_cases hl : (acc ++ [d.name]).length ≥ 3
      · have hl' : decide ((3 : Int) ≤ ((acc ++ [d.name]).length : Int)) = true := decide_eq_true (by omega)
        rw [if_pos hl]
        apply next_ex
        · simp only [suggestBody, tgHandleFunctionDoc, TgS.hd, TgS.tl, TgS.inner, TgS.yes]
          tg [h₁, h₂, hc, hl']
          rfl
        · refine ⟨?_, ?_, ?_⟩ <;> tg [h₁, h₂, h₃]
      · have hl' : decide ((3 : Int) ≤ ((acc ++ [d.name]).length : Int)) = false := decide_eq_false (by omega)
        rw [if_neg hl]
        have e : suggestBody.exec x n call ((st.set .blank (.int k)).set .d (.doc d)) = .next (((st.set .blank (.int k)).set .d (.doc d)).set .suggestions (.strs (acc ++ [d.name]))) := by
          simp only [suggestBody, tgHandleFunctionDoc, TgS.hd, TgS.tl, TgS.inner, TgS.yes]
          tg [h₁, h₂, hc, hl']
        rw [e]
        exact suggest_tg x n call f w l _ (k + 1) _ (by tg []) (by tg [h₂]) (by tg [h₃])
    · rw [hc, if_neg (by decide)]
      have e : suggestBody.exec x n call ((st.set .blank (.int k)).set .d (.doc d)) = .next ((st.set .blank (.int k)).set .d (.doc d)) := by
        simp only [suggestBody, tgHandleFunctionDoc, TgS.hd, TgS.tl, TgS.inner, TgS.yes]
        tg [h₁, h₂, hc]
      rw [e]
      exact suggest_tg x n call f w l _ (k + 1) _ (by tg [h₁]) (by tg [h₂]) (by tg [h₃])

theorem handleFunctionDoc_tg (x : TgX) (name : Bytes) (w : TgW) :
    ∃ j, ∀ n k, tgRun x n (k + 2) .handleFunctionDoc [.str name] w = .ret [.tool (x.functionDoc w name), .nil] (w.chose j) := by
  cases hl : w.reg.lookup name with
  | some d =>
    refine ⟨0, fun n k => ?_⟩
    have hg := getDocumentation_tg x name n k w
    rw [hl] at hg
    rw [tgRun_succ _ _ _ _ _ _ _ rfl]
    simp only [TgFn.body, tgHandleFunctionDoc]
    tg [hg, formatFunctionDoc_tg x d n k w, TgX.functionDoc, hl]
    rfl
  | none =>
    refine ⟨2, fun n k => ?_⟩
    have hg := getDocumentation_tg x name n k w
    rw [hl] at hg
    rw [tgRun_succ _ _ _ _ _ _ _ rfl]
    simp only [TgFn.body]
    obtain ⟨st', e, h₁, h₂, h₃⟩ := suggest_tg x n (tgRun x n (k + 1)) name (w.chose 2) (x.allDocs w) [] 0
      (({ ((({ vars := fun _ => .nil, w := w } : TgSt).set .functionName (.str name)).set .doc (.doc ⟨[], [], [], [], [], [], []⟩)).set .exists (.bool false) with w := w.chose 2 } : TgSt).set .allDocs (.docs (x.allDocs w)) |>.set .suggestions (.strs []))
      rfl rfl rfl
    refine next_then (by tg [hg]; rfl) ?_
    refine ret_then (if_yes (by tg []) ?_)
    refine next_then (by tg [getAll_tg x n k w]; rfl) ?_
    refine next_then (by tg []; rfl) ?_
    refine next_then (a := .range .blank .d (.var .allDocs) suggestBody) (by rw [tgexec_range]; tg []; exact e) ?_
    by_cases hs : suggestLoop name (x.allDocs w) [] = []
    · rw [hs] at h₁
      tg [h₁, h₂, h₃, TgX.functionDoc, hl, hs, List.length_nil, List.append_nil, List.append_assoc, Int.natCast_zero, Int.lt_irrefl, ne_eq, not_true, if_false]
    · have hs' : decide (0 < ((suggestLoop name (x.allDocs w) []).length : Int)) = true := decide_eq_true ((some_length _).2 hs)
      tg [h₁, h₂, h₃, TgX.functionDoc, hl, hs, hs', List.append_nil, List.append_assoc, ne_eq, not_false_eq_true]

theorem chose_chose (w : TgW) (a b : Nat) : (w.chose a).chose b = w.chose (a + b) := by simp only [TgW.chose, Nat.add_assoc]

theorem handleCategory_tg (x : TgX) (c : Bytes) (verbose : Bool) (w : TgW) :
    ∃ j, ∀ n k, tgRun x n (k + 2) .handleCategoryListing [.str c, .bool verbose] w = .ret [.tool (x.categoryListing w c verbose), .nil] (w.chose j) := by
  by_cases hd : x.inCategory w c = []
  · refine ⟨4, fun n k => ?_⟩
    rw [tgRun_succ _ _ _ _ _ _ _ rfl]
    simp only [TgFn.body, tgHandleCategoryListing]
    refine next_then (by tg [byCategory_tg x c n k w]; rfl) ?_
    refine ret_then (if_yes (by tg [hd, List.length_nil]; rfl) ?_)
    refine next_then (by tg [categories_tg x n k (w.chose 2)]; rfl) ?_
    by_cases hs : x.allCategories (w.chose 2) = []
    · tg [TgX.categoryListing, hd, hs, List.length_nil, List.append_nil, List.append_assoc, Int.natCast_zero, Int.lt_irrefl, ne_eq, not_true, if_false]
      rfl
    · have hs' : decide (0 < ((x.allCategories (w.chose 2)).length : Int)) = true := decide_eq_true ((some_length _).2 hs)
      tg [TgX.categoryListing, hd, hs, hs', List.append_nil, List.append_assoc, ne_eq, not_false_eq_true]
      rfl
  · refine ⟨2 + verbose.toNat, fun n k => ?_⟩
    have hd' : decide (((x.inCategory w c).length : Int) = 0) = false := decide_eq_false fun h => hd ((zero_length _).1 h)
    rw [tgRun_succ _ _ _ _ _ _ _ rfl]
    simp only [TgFn.body, tgHandleCategoryListing]
    tg [byCategory_tg x c n k w, hd', formatList_tg, List.append_nil, TgX.categoryListing, hd, List.append_assoc, chose_chose]
    rfl

theorem handleAll_tg (x : TgX) (verbose : Bool) (w : TgW) :
    ∃ j, ∀ n k, tgRun x n (k + 2) .handleAllFunctions [.bool verbose] w = .ret [.tool (x.allListing w verbose), .nil] (w.chose j) := by
  by_cases hd : x.allDocs w = []
  · refine ⟨2, fun n k => ?_⟩
    rw [tgRun_succ _ _ _ _ _ _ _ rfl]
    simp only [TgFn.body, tgHandleAllFunctions]
    tg [getAll_tg x n k w, hd, List.length_nil, Int.natCast_zero, TgX.allListing]
  · refine ⟨2 + verbose.toNat, fun n k => ?_⟩
    have hd' : decide (((x.allDocs w).length : Int) = 0) = false := decide_eq_false fun h => hd ((zero_length _).1 h)
    rw [tgRun_succ _ _ _ _ _ _ _ rfl]
    simp only [TgFn.body, tgHandleAllFunctions]
    tg [getAll_tg x n k w, hd', formatList_tg, TgX.allListing, hd, chose_chose]
    rfl

theorem docTool_tg (x : TgX) (args : Json) (w : TgW) :
    ∃ j, ∀ n k, tgRun x n (k + 3) .textedDocHandler [.request args] w =
      .ret [.tool (x.docTool w (getString args (b! "function_name") []) (getString args (b! "category") []) (getBool args (b! "verbose") false)), .nil] (w.chose j) := by
  obtain ⟨j₁, h₁⟩ := handleFunctionDoc_tg x (getString args (b! "function_name") []) w
  obtain ⟨j₂, h₂⟩ := handleCategory_tg x (getString args (b! "category") []) (getBool args (b! "verbose") false) w
  obtain ⟨j₃, h₃⟩ := handleAll_tg x (getBool args (b! "verbose") false) w
  unfold TgX.docTool
  by_cases hf : getString args (b! "function_name") [] = []
  · by_cases hc : getString args (b! "category") [] = []
    · refine ⟨j₃, fun n k => ?_⟩
      rw [tgRun_succ _ _ _ _ _ _ _ rfl]
      simp only [TgFn.body, tgTextedDocHandler]
      tg [hf, hc, h₃, ne_eq, not_true, and_self, if_false]
    · refine ⟨j₂, fun n k => ?_⟩
      rw [tgRun_succ _ _ _ _ _ _ _ rfl]
      simp only [TgFn.body, tgTextedDocHandler]
      tg [hf, hc, h₂, ne_eq, not_true, false_and, if_false, not_false_eq_true]
  · by_cases hc : getString args (b! "category") [] = []
    · refine ⟨j₁, fun n k => ?_⟩
      rw [tgRun_succ _ _ _ _ _ _ _ rfl]
      simp only [TgFn.body, tgTextedDocHandler]
      tg [hf, hc, h₁, ne_eq, not_true, and_false, if_false, not_false_eq_true]
    · refine ⟨0, fun n k => ?_⟩
      rw [tgRun_succ _ _ _ _ _ _ _ rfl]
      simp only [TgFn.body, tgTextedDocHandler]
      tg [hf, hc, ne_eq, not_false_eq_true, and_self]
      rfl

end Texted
