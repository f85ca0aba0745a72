import Verif.Lemmas.TgDocTool
/-
The Go text of the command `texted doc`.
-/
set_option linter.unusedSectionVars false
set_option linter.unusedSimpArgs false
set_option linter.unusedVariables false
set_option linter.constructorNameAsVariable false
namespace Texted
variable [Ext]

/-- An error, or what is printed. -/
def docOut (w : TgW) : Except Bytes Bytes → TgOut
  | .ok s => .ret [.nil] (w.say s)
  | .error e => .ret [.err e] w

/-- The first lines of the list. -/
def cmdHead (docs : List FunctionDoc) (category : Bytes) : Bytes :=
  if category ≠ [] then b! "Functions in category '" ++ category ++ b! "':\n\n" else b! "Available functions (" ++ natDec docs.length ++ b! " total):\n\n"

/-- The list that is printed, for the choice that is made. -/
def TgX.cmdListing (x : TgX) (t : Nat) (docs : List FunctionDoc) (category : Bytes) (verbose : Bool) : Bytes :=
  if verbose then cmdHead docs category ++ (x.taken t (groupKeys b! "other" docs)).flatMap (cmdGroupText (strTitle x.title) docs)
  else cmdHead docs category ++ (docs.flatMap fun d => b! "  " ++ d.name ++ b! "\n") ++
    b! "\nUse 'texted doc <function-name>' for detailed documentation.\nUse 'texted doc --verbose' to see function summaries.\n"

/-- What the command does without a name, for the choices that are made. -/
def TgX.cmdList (x : TgX) (w : TgW) (category : Bytes) (verbose : Bool) : Except Bytes Bytes :=
  let docs := if category ≠ [] then x.inCategory w category else x.allDocs w
  if docs = [] then if category ≠ [] then .error (b! "no functions found in category: " ++ category) else .ok b! "No documented functions found.\n"
  else .ok (x.cmdListing (w.tick + 2) docs category verbose)

/-- What follows when there are functions. -/
def listRest : TgS := tgListFunctions.tl.tl.tl

/-- The state while the list is printed. -/
def Listing (docs : List FunctionDoc) (verbose : Bool) (w : TgW) (s : Bytes) (st : TgSt) : Prop :=
  st.vars .docs = .docs docs ∧ st.vars .verbose = .bool verbose ∧ st.w = w.say s

theorem plain_does (x : TgX) (docs : List FunctionDoc) (w : TgW) (n : Nat) (call : TgFn → List TgV → TgW → TgOut) :
    Does x n call listRest.tl.hd (Listing docs false w) ((docs.flatMap fun d => b! "  " ++ d.name ++ b! "\n") ++
      b! "\nUse 'texted doc <function-name>' for detailed documentation.\nUse 'texted doc --verbose' to see function summaries.\n") := by
  refine Does.congr (Does.ite False (u := (docs.flatMap fun d => b! "  " ++ d.name ++ b! "\n") ++
      b! "\nUse 'texted doc <function-name>' for detailed documentation.\nUse 'texted doc --verbose' to see function summaries.\n") (t := []) ?_ (fun h => h.elim) fun _ => ?_) (if_neg id)
  · rintro s st ⟨h₁, h₂, h₃⟩
    tg [h₂]
  · refine Does.congr (Does.seq (Does.range .doc (.docs docs) docs (fun _ d => b! "  " ++ d.name ++ b! "\n")
        (fun _ d s st => Listing docs false w s st ∧ st.vars .doc3 = .doc d)
        ?_ rfl ?_ (fun _ _ _ _ h => h.1) fun _ d => Does.congr (Does.print (t := b! "  " ++ (d.name ++ b! "\n")) ?_ ?_) (List.append_assoc ..).symm)
        (Does.seq (Does.print (t := b! "\nUse 'texted doc <function-name>' for detailed documentation.\n") ?_ ?_)
        (Does.print (t := b! "Use 'texted doc --verbose' to see function summaries.\n") ?_ ?_))) ?_
    · rintro s st ⟨h₁, h₂, h₃⟩; tg [h₁]
    · rintro k a s st ⟨h₁, h₂, h₃⟩; refine ⟨⟨?_, ?_, ?_⟩, ?_⟩ <;> tg [h₁, h₂, h₃]
    · rintro s st ⟨⟨h₁, h₂, h₃⟩, h₄⟩; tg [h₄, List.append_nil]
    · rintro s st ⟨⟨h₁, h₂, h₃⟩, h₄⟩; refine ⟨⟨?_, ?_, ?_⟩, ?_⟩ <;> tg [h₁, h₂, h₃, h₄, say_say]
    · rintro s st _; tg [List.append_nil]
    · rintro s st ⟨h₁, h₂, h₃⟩; refine ⟨?_, ?_, ?_⟩ <;> tg [h₁, h₂, h₃, say_say]
    · rintro s st _; tg [List.append_nil]
    · rintro s st ⟨h₁, h₂, h₃⟩; refine ⟨?_, ?_, ?_⟩ <;> tg [h₁, h₂, h₃, say_say]
    · rw [mapIdx_flatMap]; rfl

/-- One group as it is printed. -/
def groupBody : TgS := listRest.tl.hd.yes.tl.tl.inner

theorem group_does (x : TgX) (docs ds : List FunctionDoc) (c : Bytes) (w : TgW) (n : Nat) (call : TgFn → List TgV → TgW → TgOut) :
    Does x n call groupBody (fun s st => st.vars .catName = .str c ∧ st.vars .catDocs = .docs ds ∧ st.w = w.say s)
      (b! "## " ++ strTitle x.title c ++ b! "\n\n" ++ (ds.flatMap fun d => b! "- **" ++ d.name ++ b! "**: " ++ d.summary ++ b! "\n") ++ b! "\n") := by
  refine Does.congr (Does.seq (Does.print (t := b! "## " ++ (strTitle x.title c ++ b! "\n\n")) ?_ ?_) (Does.seq (Does.range .doc (.docs ds) ds
    (fun _ d => b! "- **" ++ d.name ++ b! "**: " ++ d.summary ++ b! "\n")
    (fun _ d s st => (st.vars .catName = .str c ∧ st.vars .catDocs = .docs ds ∧ st.w = w.say s) ∧ st.vars .doc2 = .doc d) ?_ rfl ?_ (fun _ _ _ _ h => h.1) fun _ d =>
      Does.congr (Does.print (t := b! "- **" ++ (d.name ++ (b! "**: " ++ (d.summary ++ b! "\n")))) ?_ ?_) ?_) (Does.print (t := b! "\n") ?_ ?_))) ?_
  · rintro s st ⟨h₁, h₂, h₃⟩; tg [h₁, List.append_nil]
  · rintro s st ⟨h₁, h₂, h₃⟩; refine ⟨?_, ?_, ?_⟩ <;> tg [h₁, h₂, h₃, say_say]
  · rintro s st ⟨h₁, h₂, h₃⟩; tg [h₂]
  · rintro k a s st ⟨h₁, h₂, h₃⟩; refine ⟨⟨?_, ?_, ?_⟩, ?_⟩ <;> tg [h₁, h₂, h₃]
  · rintro s st ⟨⟨h₁, h₂, h₃⟩, h₄⟩; tg [h₄, List.append_nil]
  · rintro s st ⟨⟨h₁, h₂, h₃⟩, h₄⟩; refine ⟨⟨?_, ?_, ?_⟩, ?_⟩ <;> tg [h₁, h₂, h₃, h₄, say_say]
  · simp only [List.append_assoc]
  · rintro s st _; tg [List.append_nil]
  · rintro s st ⟨h₁, h₂, h₃⟩; refine ⟨?_, ?_, ?_⟩ <;> tg [h₁, h₂, h₃, say_say]
  · rw [mapIdx_flatMap]; simp only [List.append_assoc]

theorem verbose_tg (x : TgX) (docs : List FunctionDoc) (w : TgW) (s : Bytes) (n : Nat) (call : TgFn → List TgV → TgW → TgOut) (st : TgSt) (h : Listing docs true w s st) :
    ∃ st', listRest.tl.hd.exec x n call st = .next st' ∧
      st'.w = (w.chose 1).say (s ++ (x.taken w.tick (groupKeys b! "other" docs)).flatMap (cmdGroupText (strTitle x.title) docs)) := by
  obtain ⟨h₁, h₂, h₃⟩ := h
  obtain ⟨st₁, e₁, p₂, p₃⟩ := groups_tg x n call .cat (by decide) (by decide) b! "other" docs
    (fun st => st.w = w.say s) (by intro st v y _ h; exact h) (st.set .categoryMap (.groups [])) h₃ h₁ rfl
  obtain ⟨st₂, e₂, q⟩ := rangeMap_inv x n call .catName .catDocs (.var .categoryMap) groupBody (.groups (groupsOf b! "other" docs [])) (groupsOf b! "other" docs [])
    (fun p => (p.1, .docs p.2)) (fun t st => st.w = (w.chose 1).say t) (fun t p => t ++ cmdGroupText (strTitle x.title) docs p.1) (fun p => p ∈ groupsOf b! "other" docs []) s
    st₁ (by tg [p₃]) rfl (fun p hp => by
      obtain ⟨i, _, hi⟩ := List.mem_filterMap.mp hp
      exact List.mem_of_getElem? hi) (by show st₁.w.chose 1 = _; rw [p₂]; rfl) (fun p t st hp h => by
        obtain ⟨st', e, _, _, hw⟩ := group_does x docs p.2 p.1 (w.chose 1) n call t ((st.set .catName (.str p.1)).set .catDocs (.docs p.2)) ⟨rfl, rfl, h⟩
        refine ⟨st', e, ?_⟩
        rw [hw]
        have : p.2 = docs.filter fun d => groupName b! "other" d = p.1 := by
          rw [← groupsOf_group, groupAt_mem (groupsOf_nodup b! "other" docs [] List.nodup_nil) hp]
        rw [cmdGroupText, ← this])
  refine ⟨st₂, ?_, ?_⟩
  · refine if_yes (by rw [tgeval_var_y, h₂]) ?_
    refine next_then (st' := st.set .categoryMap (.groups [])) (by tg []) ?_
    refine next_then e₁ ?_
    exact e₂
  · rw [q, p₂, foldl_append, groupKeys, taken_map, List.flatMap_map]
    rfl

theorem listRest_tg (x : TgX) (docs : List FunctionDoc) (category : Bytes) (verbose : Bool) (w : TgW) (n : Nat) (call : TgFn → List TgV → TgW → TgOut) (st : TgSt)
    (h₁ : st.vars .docs = .docs docs) (h₂ : st.vars .category = .str category) (h₃ : st.vars .verbose = .bool verbose) (h₄ : st.w = w) :
    listRest.exec x n call st = .ret [.nil] ((w.chose verbose.toNat).say (x.cmdListing w.tick docs category verbose)) := by
  have hh : ∃ st', listRest.hd.exec x n call st = .next st' ∧ Listing docs verbose w (cmdHead docs category) st' := by
    by_cases hc : category = []
    · apply next_ex
      · simp only [listRest, tgListFunctions, TgS.hd, TgS.tl]
        tg [h₁, h₂, hc]
        rfl
      · refine ⟨?_, ?_, ?_⟩ <;> tg [h₁, h₃, h₄, cmdHead, hc, TgW.say, List.append_nil, List.append_assoc, intDec_natCast, ne_eq, not_true, if_false]
    · apply next_ex
      · simp only [listRest, tgListFunctions, TgS.hd, TgS.tl]
        tg [h₁, h₂, hc]
        rfl
      · refine ⟨?_, ?_, ?_⟩ <;> tg [h₁, h₃, h₄, cmdHead, hc, TgW.say, List.append_nil, List.append_assoc, ne_eq, not_false_eq_true]
  obtain ⟨st', e, h⟩ := hh
  refine next_then (a := listRest.hd) (b := listRest.tl) e ?_
  cases verbose with
  | false =>
    refine Does.then (plain_does x docs w n call) h fun st h => ?_
    obtain ⟨_, _, h⟩ := h
    tg [h, TgX.cmdListing, List.append_assoc, Bool.false_eq_true]
    rfl
  | true =>
    obtain ⟨st'', e', h'⟩ := verbose_tg x docs w _ n call st' h
    refine next_then e' ?_
    tg [h', TgX.cmdListing]
    rfl

theorem nonempty_false {α : Type} {l : List α} (h : l ≠ []) : decide ((l.length : Int) = 0) = false := decide_eq_false fun e => h ((zero_length l).1 e)

theorem listFunctions_tg (x : TgX) (category : Bytes) (verbose : Bool) (w : TgW) :
    ∃ j, ∀ n k, tgRun x n (k + 2) .listFunctions [.str category, .bool verbose] w = docOut (w.chose j) (x.cmdList w category verbose) := by
  unfold TgX.cmdList
  by_cases hc : category = []
  · subst hc
    by_cases hd : x.allDocs w = []
    · refine ⟨2, fun n k => ?_⟩
      rw [tgRun_succ _ _ _ _ _ _ _ rfl]
      simp only [TgFn.body, tgListFunctions]
      tg [getAll_tg x n k w, hd, List.length_nil, Int.natCast_zero, ne_eq, not_true, docOut]
      rfl
    · refine ⟨2 + verbose.toNat, fun n k => ?_⟩
      rw [tgRun_succ _ _ _ _ _ _ _ rfl]
      simp only [TgFn.body]
      refine next_then (a := tgListFunctions.hd) (by simp only [tgListFunctions, TgS.hd]; tg []; rfl) ?_
      refine next_then (a := tgListFunctions.tl.hd) (by simp only [tgListFunctions, TgS.hd, TgS.tl]; tg [getAll_tg x n k w]; rfl) ?_
      refine next_then (a := tgListFunctions.tl.tl.hd) (by simp only [tgListFunctions, TgS.hd, TgS.tl]; tg [nonempty_false hd]; rfl) ?_
      refine (listRest_tg x (x.allDocs w) [] verbose (w.chose 2) n _ _ rfl rfl rfl rfl).trans ?_
      rw [chose_chose]
      simp only [ne_eq, not_true, if_false, hd, docOut]
      rfl
  · by_cases hd : x.inCategory w category = []
    · refine ⟨2, fun n k => ?_⟩
      rw [tgRun_succ _ _ _ _ _ _ _ rfl]
      simp only [TgFn.body, tgListFunctions]
      tg [byCategory_tg x category n k w, hc, hd, List.length_nil, Int.natCast_zero, ne_eq, not_false_eq_true, docOut, List.append_nil]
    · refine ⟨2 + verbose.toNat, fun n k => ?_⟩
      rw [tgRun_succ _ _ _ _ _ _ _ rfl]
      simp only [TgFn.body]
      refine next_then (a := tgListFunctions.hd) (by simp only [tgListFunctions, TgS.hd]; tg []; rfl) ?_
      refine next_then (a := tgListFunctions.tl.hd) (by simp only [tgListFunctions, TgS.hd, TgS.tl]; tg [byCategory_tg x category n k w, hc, nonempty_false hd]; rfl) ?_
      refine next_then (a := tgListFunctions.tl.tl.hd) (by simp only [tgListFunctions, TgS.hd, TgS.tl]; tg [nonempty_false hd]; rfl) ?_
      refine (listRest_tg x (x.inCategory w category) category verbose (w.chose 2) n _ _ rfl rfl rfl rfl).trans ?_
      rw [chose_chose]
      simp only [ne_eq, hc, not_false_eq_true, if_true, hd, if_false, docOut]
      rfl

/-- What the command does, for the choices that are made. -/
def TgX.cmdDoc (x : TgX) (w : TgW) (args : List Bytes) (category : Bytes) (verbose : Bool) : Except Bytes Bytes :=
  match args with
  | [name] => showFunctionDoc w.reg name
  | [] => x.cmdList w category verbose
  | _ => .error b! "doc command accepts at most one argument (function name)"

theorem runDoc_tg (x : TgX) (args : List Bytes) (category : Bytes) (verbose : Bool) (w : TgW) :
    ∃ j, ∀ n k, tgRun x n (k + 3) .runDoc [.strs args, .str category, .bool verbose] w = docOut (w.chose j) (x.cmdDoc w args category verbose) := by
  match args with
  | [name] =>
    refine ⟨0, fun n k => ?_⟩
    have h := showFunctionDoc_tg x name n k w
    rw [tgRun_succ _ _ _ _ _ _ _ rfl]
    simp only [TgFn.body, tgRunDoc]
    have hi : goAt [name] (0 : Int) = some name := rfl
    show _ = docOut w (showFunctionDoc w.reg name)
    cases hr : showFunctionDoc w.reg name with
    | ok s =>
      rw [hr] at h
      tg [List.length_singleton, Int.natCast_one, hi, h, docOut]
    | error e =>
      rw [hr] at h
      tg [List.length_singleton, Int.natCast_one, hi, h, docOut]
  | [] =>
    obtain ⟨j, h⟩ := listFunctions_tg x category verbose w
    refine ⟨j, fun n k => ?_⟩
    have h := h n k
    rw [tgRun_succ _ _ _ _ _ _ _ rfl]
    simp only [TgFn.body, tgRunDoc]
    show _ = docOut (w.chose j) (x.cmdList w category verbose)
    have e₁ : decide (((0 : Nat) : Int) = 1) = false := rfl
    have e₂ : decide ((1 : Int) < ((0 : Nat) : Int)) = false := rfl
    cases hr : x.cmdList w category verbose with
    | ok s =>
      rw [hr] at h
      tg [List.length_nil, e₁, e₂, h, docOut]
    | error e =>
      rw [hr] at h
      tg [List.length_nil, e₁, e₂, h, docOut]
  | a :: b :: r =>
    refine ⟨0, fun n k => ?_⟩
    have e₁ : decide (((a :: b :: r).length : Int) = 1) = false := decide_eq_false (by simp only [List.length_cons]; omega)
    have e₂ : decide ((1 : Int) < ((a :: b :: r).length : Int)) = true := decide_eq_true (by simp only [List.length_cons]; omega)
    rw [tgRun_succ _ _ _ _ _ _ _ rfl]
    simp only [TgFn.body, tgRunDoc]
    tg [e₁, e₂]
    rfl

end Texted
