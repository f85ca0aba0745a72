import Verif.Lemmas.LinkExpr
/-
`texted edit -e` stays within the memory, if the expressions and what they run on do.
-/
set_option linter.unusedSectionVars false
set_option linter.unusedSimpArgs false
namespace Texted
open Spec

section
variable [Ext] {m : Memory} {n d : Nat} {F : Bytes → Option Bytes} {S : List Bytes}

theorem safe_say {t : Bool} {s : Bytes} {p : Proc α} {Q : α → Prop} (h : Safe F S p Q S) : Safe F S (say t s p) Q S := by
  cases t with
  | false => exact h
  | true => exact safe_print fun _ => h

theorem safe_evalExpressions (a : EditArgs) (source : Bytes) : ∀ (es : List Bytes) (i : Nat) (b : Buffer), Safe F S (evalExpressions a source i es b) (fun _ => True) S
  | [], _, _ => safe_ret (fun _ h => h) trivial
  | e :: es, i, b => by
    rw [evalExpressions_cons]
    refine safe_say ?_
    cases parseScript a.format e with
    | panic => exact safe_panic
    | err e' => exact safe_say (safe_ret (fun _ h => h) trivial)
    | ok p =>
      rw [afterParse]
      rcases eval defaultEnv p b with ⟨r, b'⟩
      cases r with
      | panic => exact safe_panic
      | err e' => exact safe_say (safe_ret (fun _ h => h) trivial)
      | ok v =>
        rw [afterEval]
        by_cases hq : a.quiet = true
        · rw [if_pos hq]; exact safe_evalExpressions a source es (i + 1) b'
        · rw [if_neg hq]
          cases resultText a.outputFormat v with
          | error e' => exact safe_ret (fun _ h => h) trivial
          | ok t => exact safe_print fun _ => safe_evalExpressions a source es (i + 1) b'

theorem safe_evaluate (a : EditArgs) (hv : isValidFormat a.format = true) (content source : Bytes) (hx : ExpressionsFit m a.format a.expressions (newBuffer content)) :
    Safe F S (fgRunBy (fittingOp m) n (d + 3) .evaluateExpressionsOnContent
      [.strs a.expressions, .str a.format, .str a.outputFormat, .bool a.verbose, .bool a.quiet, .str content, .str source]) (fun o => ∃ e, o = .ret [fgError e]) S := by
  rw [lk_evaluateExpressionsOnContent a hv content source a.expressions hx, fgFails]
  exact safe_bind (safe_evalExpressions a source a.expressions 0 _) fun e _ => safe_ret (fun _ h => h) ⟨e, rfl⟩

theorem safe_range_same {I : FgSt → Prop} {body : FgSt → Proc FgOut} {i x : FgVar}
    (hb : ∀ k f st, I st → f ∈ S → Safe F S (body (fgSet (fgSet st i (.int k)) x (.str f))) (fun o => GoesOn I o ∨ ∃ v, o = .ret [v]) S) :
    ∀ (l : List Bytes) (k : Nat) (st : FgSt), I st → (∀ q ∈ l, q ∈ S) →
      Safe F S (fgRange body i x k (l.map .str) st) (fun o => (∃ st, o = .next st ∧ I st) ∨ ∃ v, o = .ret [v]) S
  | [], _, st, hi, _ => safe_ret (fun _ h => h) (.inl ⟨st, rfl, hi⟩)
  | f :: l, k, st, hi, hs => by
    rw [List.map_cons, fgRange]
    refine safe_bind (hb k f st hi (hs f (List.mem_cons_self ..))) fun o ho => ?_
    rcases ho with ⟨st', h, hi'⟩ | ⟨v, rfl⟩
    · have := safe_range_same hb l (k + 1) st' hi' (fun q hq => hs q (List.mem_cons_of_mem _ hq))
      rcases h with rfl | rfl <;> exact this
    · exact safe_ret (fun _ h => h) (.inr ⟨v, rfl⟩)

theorem safe_runExpressions (a : EditArgs) (hv : isValidFormat a.format = true) (h0 : a.files ≠ [])
    (hf : ∀ f ∈ a.files, ∀ c, F f = some c → ExpressionsFit m a.format a.expressions (newBuffer c)) :
    Safe F a.files (fgRunBy (fittingOp m) n (d + 4) .runExpressions [.strs a.expressions, .str a.format, .str a.outputFormat, .bool a.verbose, .bool a.quiet, .strs a.files])
      (fun o => ∃ v, o = .ret [v]) a.files := by
  rw [lkRun_succ _ _ _ rfl]
  simp only [FgFn.body, fgRunExpressions]
  have nz : (((a.files.length : Nat) : Int) = 0) = False := by
    cases h : a.files with
    | nil => exact absurd h h0
    | cons => simp only [List.length_cons, eq_iff_iff, iff_false]; omega
  lk [lkexec_range, nz]
  refine safe_bind (safe_range_same (S := a.files) (I := ExprFilesSt a) (fun k f st hi hfa => ?_) a.files 0 _ ?_ (fun _ h => h)) fun o ho => ?_
  · obtain ⟨h1, h2, h3, h4, h5, h6⟩ := hi
    have leaf : ∀ st', st' .args_files = .strs a.files ∧ st' .args_expressions = .strs a.expressions ∧ st' .args_scriptFormat = .str a.format ∧
        st' .args_outputFormat = .str a.outputFormat ∧ st' .args_verbose = .bool a.verbose ∧ st' .args_quiet = .bool a.quiet → ExprFilesSt a st' :=
      fun st' h => ⟨h.1, h.2.1, h.2.2.1, h.2.2.2.1, h.2.2.2.2.1, h.2.2.2.2.2⟩
    have key : ∀ c, F f = some c → ∀ q, a.quiet = q → Safe F a.files (fgRunBy (fittingOp m) n (d + 3) .evaluateExpressionsOnContent
      [.strs a.expressions, .str a.format, .str a.outputFormat, .bool a.verbose, .bool q, .str c, .str f]) (fun o => ∃ e, o = .ret [fgError e]) a.files :=
      fun c hc q hq => hq ▸ safe_evaluate a hv c f (hf f hfa c hc)
    lk [h1, h2, h3, h4, h5, h6]
    refine safe_read hfa (fun c hc => ?_) fun e => ?_
    · cases hq : a.quiet <;> rw [hq] at h6 <;> have key := key c hc _ hq <;> lk [h1, h2, h3, h4, h5, h6]
      · cases hm : decide ((1 : Int) < (a.files.length : Int)) <;> lk [h1, h2, h3, h4, h5, h6]
        · refine safe_bind key fun o ho => ?_
          obtain ⟨e, rfl⟩ := ho
          cases e <;> lk []
          · exact safe_ret (fun _ h => h) (.inl ⟨_, .inl rfl, leaf _ (by lk [h1, h2, h3, h4, h5, h6, hq])⟩)
          · exact safe_ret (fun _ h => h) (.inr ⟨_, rfl⟩)
        · refine safe_print fun r => ?_
          try lk [h1, h2, h3, h4, h5, h6]
          refine safe_bind key fun o ho => ?_
          obtain ⟨e, rfl⟩ := ho
          cases e <;> lk []
          · exact safe_ret (fun _ h => h) (.inl ⟨_, .inl rfl, leaf _ (by lk [h1, h2, h3, h4, h5, h6, hq])⟩)
          · exact safe_ret (fun _ h => h) (.inr ⟨_, rfl⟩)
      · refine safe_bind key fun o ho => ?_
        obtain ⟨e, rfl⟩ := ho
        cases e <;> lk []
        · exact safe_ret (fun _ h => h) (.inl ⟨_, .inl rfl, leaf _ (by lk [h1, h2, h3, h4, h5, h6, hq])⟩)
        · exact safe_ret (fun _ h => h) (.inr ⟨_, rfl⟩)
    · cases hq : a.quiet <;> rw [hq] at h6 <;> lk [h1, h2, h3, h4, h5, h6]
      · refine safe_print fun r => ?_
        try lk []
        exact safe_ret (fun _ h => h) (.inr ⟨_, rfl⟩)
      · exact safe_ret (fun _ h => h) (.inr ⟨_, rfl⟩)
  · constructor <;> lk []
  · rcases ho with ⟨st, rfl, _⟩ | ⟨v, rfl⟩ <;> lk [] <;> exact safe_ret (fun _ h => h) ⟨_, rfl⟩

theorem ends_runExpressions_stdin (a : EditArgs) (hv : isValidFormat a.format = true) (h0 : a.files = []) (w : World)
    (hx : ExpressionsFit m a.format a.expressions (newBuffer w.input)) (o : FgOut) (w' : World)
    (h : Ends (fgRunBy (fittingOp m) n (d + 4) .runExpressions [.strs a.expressions, .str a.format, .str a.outputFormat, .bool a.verbose, .bool a.quiet, .strs a.files]) w o w') :
    ∃ v, o = .ret [v] := by
  rw [lkRun_succ _ _ _ rfl] at h
  revert h
  simp only [FgFn.body, fgRunExpressions]
  lk [lkexec_range, h0, show ((((([] : List Bytes).length : Nat) : Int)) = 0) = True from eq_true rfl]
  intro h
  refine safe_stdin (F := w.files) (S := []) (T := []) (Q := fun o => ∃ v, o = .ret [v]) (c := w.input) ?_ (fun e => ?_) w rfl (fun _ _ => rfl) o w' h
  · lk []
    refine safe_bind (safe_evaluate a hv w.input _ hx) fun o ho => ?_
    obtain ⟨e, rfl⟩ := ho
    lk []
    exact safe_ret (fun _ h => h) ⟨_, rfl⟩
  · lk []
    exact safe_ret (fun _ h => h) ⟨_, rfl⟩

theorem calm_rest_expr (a : EditArgs) (w : World) (st : FgSt) (h : RunEditSt a st) (he : a.expressions ≠ [])
    (hf : ∀ f ∈ a.files, ∀ c, w.files f = some c → ExpressionsFit m a.format a.expressions (newBuffer c))
    (hi : a.files = [] → ExpressionsFit m a.format a.expressions (newBuffer w.input)) :
    Calm (fgRunEdit.rest.execBy (fittingOp m) n (fgRunBy (fittingOp m) n (d + 4)) st) w := by
  obtain ⟨h1, h2, h3, h4, h5, h6, h7, h8, h9, h10, h11⟩ := h
  have go : isValidFormat a.format = true → ∀ o w', Ends (fgRunBy (fittingOp m) n (d + 4) .runExpressions
      [.strs a.expressions, .str a.format, .str a.outputFormat, .bool a.verbose, .bool a.quiet, .strs a.files]) w o w' → ∃ v, o = .ret [v] := by
    intro hv o w' hx
    by_cases h0 : a.files = []
    · exact ends_runExpressions_stdin a hv h0 w (hi h0) o w' hx
    · exact (safe_runExpressions a hv h0 hf w (fun _ _ => rfl) o w' hx).1
  clear hf hi
  rw [fgRunEdit, FgS.rest]
  lk [h2, lk_IsValidFormat]
  cases hv : isValidFormat a.format with
  | false => lk []; exact calm_ret (fun h => nomatch h)
  | true =>
  have go := go hv
  have hL : decide ((1 : Int) < (a.files.length : Int)) = decide (a.files.length > 1) := by simp only [decide_eq_decide]; omega
  have hE : decide ((0 : Int) < (a.expressions.length : Int)) = true := by
    cases hx : a.expressions with
    | nil => exact absurd hx he
    | cons => simp only [List.length_cons, decide_eq_true_eq]; omega
  lk [h1, h2, h3, h4, h5, h6, h7, h8, h9, h10, h11, hL]
  cases c1 : (!decide (a.outputFile = []) && decide (a.files.length > 1)) with
  | true => lk []; exact calm_ret (fun h => nomatch h)
  | false =>
  lk [h1, h2, h3, h4, h5, h6, h7, h8, h9, h10, h11]
  cases c2 : (!decide (a.backupSuffix = []) && !a.inPlace) with
  | true => lk []; exact calm_ret (fun h => nomatch h)
  | false =>
  lk [h1, h2, h3, h4, h5, h6, h7, h8, h9, h10, h11]
  cases c3 : (!decide (a.outputFile = []) && a.inPlace) with
  | true => lk []; exact calm_ret (fun h => nomatch h)
  | false =>
  lk [h1, h2, h3, h4, h5, h6, h7, h8, h9, h10, h11, hE]
  exact runs_bind go fun v w' => by lk []; exact calm_ret (fun h => nomatch h)

theorem stays_runEdit_expr (a : EditArgs) (w : World) (he : a.expressions ≠ [])
    (hf : ∀ f ∈ a.files, ∀ c, w.files f = some c → ExpressionsFit m a.format a.expressions (newBuffer c))
    (hi : a.files = [] → ExpressionsFit m a.format a.expressions (newBuffer w.input)) : StaysIn m .runEdit a.fg w :=
  ⟨0, 5, by rw [lk_first]; exact calm_rest_expr a w (editSt2 a) ⟨rfl, rfl, rfl, rfl, rfl, rfl, rfl, rfl, rfl, rfl, rfl⟩ he hf hi⟩

end
end Texted
