import Verif.Lemmas.LinkFree
import Verif.Lemmas.FgExpr
/-
`-e` expressions stay within the memory, if they and what they run on do.
-/
set_option linter.unusedSectionVars false
set_option linter.unusedSimpArgs false
namespace Texted
open Spec

/-- As `fgRange_rec`; what the rounds keep may depend on the elements that are left. -/
theorem lkRange_rec {α σ : Type} {enc : α → FgV} {body : FgSt → Proc FgOut} {i x : FgVar} {fin : FgOut → Proc FgOut} (J : List α → σ → FgSt → Prop)
    (model : Nat → List α → σ → Proc FgOut)
    (hnil : ∀ k s st, J [] s st → (fin (.next st)).Rel Eq (model k [] s))
    (hcons : ∀ k a l s st (rest : FgSt → Proc FgOut), J (a :: l) s st → (∀ s' st', J l s' st' → ((rest st').bind fin).Rel Eq (model (k + 1) l s')) →
      ((body (fgSet (fgSet st i (.int k)) x (enc a))).bind fun o => (o.round rest).bind fin).Rel Eq (model k (a :: l) s)) :
    ∀ (l : List α) (k : Nat) (s : σ) (st : FgSt), J l s st → ((fgRange body i x k (l.map enc) st).bind fin).Rel Eq (model k l s)
  | [], k, s, st, h => hnil k s st h
  | a :: l, k, s, st, h => by
    have := hcons k a l s st (fgRange body i x (k + 1) (l.map enc)) h fun s' st' h' => lkRange_rec J model hnil hcons l (k + 1) s' st' h'
    rw [← proc_bind_assoc] at this
    exact this

section
variable [Ext] {m : Memory} {n d : Nat}

theorem lk_NewWriter_shell : fgRunBy (fittingOp m) n (d + 1) .NewWriter [.str (b! "shell")] = .ret (.ret [.writer .shell, .nil]) := by
  rw [run_light _ rfl]; exact fg_NewWriter_shell
theorem lk_NewWriter_sexp : fgRunBy (fittingOp m) n (d + 1) .NewWriter [.str (b! "sexp")] = .ret (.ret [.writer .sexp, .nil]) := by
  rw [run_light _ rfl]; exact fg_NewWriter_sexp
theorem lk_NewWriter_json : fgRunBy (fittingOp m) n (d + 1) .NewWriter [.str (b! "json")] = .ret (.ret [.writer .json, .nil]) := by
  rw [run_light _ rfl]; exact fg_NewWriter_json
theorem lk_anyWriteValue_shell (s : Bytes) (v : Value) :
    fgRunBy (fittingOp m) n (d + 2) .anyWriteValue [.writer .shell, .builder s, .val v] = .ret (.ret (match shellString v with
      | .ok t => [.nil, .builder (s ++ t)]
      | .error e => [.err e, .builder s])) := by
  rw [run_light _ rfl]; exact fg_anyWriteValue_shell s v
theorem lk_anyWriteValue_json (s : Bytes) (v : Value) :
    fgRunBy (fittingOp m) n (d + 2) .anyWriteValue [.writer .json, .builder s, .val v] = .ret (.ret (match writeJsonValue v with
      | some t => [.nil, .builder (s ++ t)]
      | none => [.err jsonUnsupported, .builder s])) := by
  rw [run_light _ rfl]; exact fg_anyWriteValue_json s v

set_option maxHeartbeats 4000000 in
theorem lk_evaluateExpressionsOnContent (a : EditArgs) (hv : isValidFormat a.format = true) (content source : Bytes) (es : List Bytes)
    (hx : ExpressionsFit m a.format es (newBuffer content)) : fgRunBy (fittingOp m) n (d + 3) .evaluateExpressionsOnContent [.strs es, .str a.format, .str a.outputFormat, .bool a.verbose, .bool a.quiet, .str content, .str source] =
      fgFails (evalExpressions a source 0 es (newBuffer content)) := by
  rw [lkRun_succ _ _ _ rfl]
  simp only [FgFn.body, fgEvaluateExpressionsOnContent]
  lk [lkexec_range]
  refine rel_eq (lkRange_rec (fun l b st => ExprSt a source b st ∧ ExpressionsFit m a.format l b) (fun k l b => fgFails (evalExpressions a source k l b)) (fun k b st h => ?_) (fun k e l b st rest h ih => ?_) es 0 (newBuffer content) _ ?_)
  · lk [fgFails, evalExpressions]
  · obtain ⟨⟨h1, h2, h3, h4, h5, h6, h7⟩, hx1, hx2⟩ := h
    have leaf : ∀ b' st', st' .buffer = .buffer b' ∧ st' .env = .env ∧ st' .args_scriptFormat = .str a.format ∧ st' .args_outputFormat = .str a.outputFormat ∧
        st' .args_verbose = .bool a.verbose ∧ st' .args_quiet = .bool a.quiet ∧ st' .args_source = .str source → ExprSt a source b' st' :=
      fun b' st' h => ⟨h.1, h.2.1, h.2.2.1, h.2.2.2.1, h.2.2.2.2.1, h.2.2.2.2.2.1, h.2.2.2.2.2.2⟩
    rw [evalExpressions_cons, fgFails]
    unfold fgFails at ih
    rcases valid_cases hv with hj | ⟨hj, ho⟩
    · rw [if_pos hj] at hx1
      unfold parseScript at hx2
      simp only [if_pos hj] at hx2
      cases hq : a.quiet <;> cases hl : a.verbose <;> rw [hq] at h6 <;> rw [hl] at h5
      all_goals
        simp only [parseScript]
        lk [hx1, fitting_true, h1, h2, h3, h4, h5, h6, h7, EditArgs.loud, hq, hl, say_is_true, say_is_false, nl_byte, json_not_shell, json_not_sexp, sexp_not_shell, intDec_succ, hj]
        try (intro r0)
        cases hp : Res.ofExcept (parseJsonString e) with
        | panic => lk [afterParse]
        | err e' =>
          lk [afterParse, h1, h2, h3, h4, h5, h6, h7, EditArgs.loud, hq, hl, say_is_true, say_is_false, nl_byte, json_not_shell, json_not_sexp, sexp_not_shell, intDec_succ, hj]
          try (intro r1; lk [])
        | ok p =>
          obtain ⟨hr, hnx⟩ := hx2 p hp
          lk [hr, fitting_true, afterParse, h1, h2, h3, h4, h5, h6, h7, EditArgs.loud, hq, hl, say_is_true, say_is_false, nl_byte, json_not_shell, json_not_sexp, sexp_not_shell, intDec_succ, hj]
          rcases hev : eval defaultEnv p b with ⟨r, b'⟩
          cases r with
          | panic => lk [afterEval]
          | err e' =>
            lk [afterEval, h1, h2, h3, h4, h5, h6, h7, EditArgs.loud, hq, hl, say_is_true, say_is_false, nl_byte, json_not_shell, json_not_sexp, sexp_not_shell, intDec_succ, hj]
            try (intro r1; lk [])
          | ok v =>
            have hnx := hnx v b' hev
            lk [afterEval, h1, h2, h3, h4, h5, h6, h7, EditArgs.loud, hq, hl, say_is_true, say_is_false, nl_byte, json_not_shell, json_not_sexp, sexp_not_shell, intDec_succ, hj]
            first
              | exact ih b' _ ⟨leaf _ _ (by lk [h1, h2, h3, h4, h5, h6, h7, EditArgs.loud, hq, hl, say_is_true, say_is_false, nl_byte, json_not_shell, json_not_sexp, sexp_not_shell, intDec_succ, hj]), hnx⟩
              | (by_cases f1 : a.outputFormat = b! "shell"
                 · lk [resultText, f1, lk_NewWriter_shell, lk_anyWriteValue_shell, h1, h2, h3, h4, h5, h6, h7, EditArgs.loud, hq, hl, say_is_true, say_is_false, nl_byte, json_not_shell, json_not_sexp, sexp_not_shell, intDec_succ, hj]
                   cases shellString (.list [v]) with
                   | error e' => lk []
                   | ok t => lk []; intro r2; exact ih b' _ ⟨leaf _ _ (by lk [f1, h1, h2, h3, h4, h5, h6, h7, EditArgs.loud, hq, hl, say_is_true, say_is_false, nl_byte, json_not_shell, json_not_sexp, sexp_not_shell, intDec_succ, hj]), hnx⟩
                 · by_cases f2 : a.outputFormat = b! "sexp"
                   · lk [resultText, f2, lk_NewWriter_sexp, lk_anyWriteValue_sexp, h1, h2, h3, h4, h5, h6, h7, EditArgs.loud, hq, hl, say_is_true, say_is_false, nl_byte, json_not_shell, json_not_sexp, sexp_not_shell, intDec_succ, hj]
                     intro r2; exact ih b' _ ⟨leaf _ _ (by lk [f2, h1, h2, h3, h4, h5, h6, h7, EditArgs.loud, hq, hl, say_is_true, say_is_false, nl_byte, json_not_shell, json_not_sexp, sexp_not_shell, intDec_succ, hj]), hnx⟩
                   · by_cases f3 : a.outputFormat = b! "json"
                     · lk [resultText, f3, lk_NewWriter_json, lk_anyWriteValue_json, h1, h2, h3, h4, h5, h6, h7, EditArgs.loud, hq, hl, say_is_true, say_is_false, nl_byte, json_not_shell, json_not_sexp, sexp_not_shell, intDec_succ, hj]
                       cases writeJsonValue v with
                       | none => lk []
                       | some t => lk []; intro r2; exact ih b' _ ⟨leaf _ _ (by lk [f3, h1, h2, h3, h4, h5, h6, h7, EditArgs.loud, hq, hl, say_is_true, say_is_false, nl_byte, json_not_shell, json_not_sexp, sexp_not_shell, intDec_succ, hj]), hnx⟩
                     · lk [resultText, f1, f2, f3, h1, h2, h3, h4, h5, h6, h7, EditArgs.loud, hq, hl, say_is_true, say_is_false, nl_byte, json_not_shell, json_not_sexp, sexp_not_shell, intDec_succ, hj])
    · rw [if_neg hj] at hx1
      unfold parseScript at hx2
      simp only [if_neg hj] at hx2
      cases hq : a.quiet <;> cases hl : a.verbose <;> rw [hq] at h6 <;> rw [hl] at h5
      all_goals
        simp only [parseScript]
        lk [h1, h2, h3, h4, h5, h6, h7, hx1, fitting_true, EditArgs.loud, hq, hl, say_is_true, say_is_false, nl_byte, json_not_shell, json_not_sexp, sexp_not_shell, intDec_succ, hj, ho]
        try (intro r0)
        cases hp : parseString e with
        | panic => lk [afterParse]
        | err e' =>
          lk [afterParse, h1, h2, h3, h4, h5, h6, h7, EditArgs.loud, hq, hl, say_is_true, say_is_false, nl_byte, json_not_shell, json_not_sexp, sexp_not_shell, intDec_succ, hj, ho]
          try (intro r1; lk [])
        | ok p =>
          obtain ⟨hr, hnx⟩ := hx2 p hp
          lk [hr, fitting_true, afterParse, h1, h2, h3, h4, h5, h6, h7, EditArgs.loud, hq, hl, say_is_true, say_is_false, nl_byte, json_not_shell, json_not_sexp, sexp_not_shell, intDec_succ, hj, ho]
          rcases hev : eval defaultEnv p b with ⟨r, b'⟩
          cases r with
          | panic => lk [afterEval]
          | err e' =>
            lk [afterEval, h1, h2, h3, h4, h5, h6, h7, EditArgs.loud, hq, hl, say_is_true, say_is_false, nl_byte, json_not_shell, json_not_sexp, sexp_not_shell, intDec_succ, hj, ho]
            try (intro r1; lk [])
          | ok v =>
            have hnx := hnx v b' hev
            lk [afterEval, h1, h2, h3, h4, h5, h6, h7, EditArgs.loud, hq, hl, say_is_true, say_is_false, nl_byte, json_not_shell, json_not_sexp, sexp_not_shell, intDec_succ, hj, ho]
            first
              | exact ih b' _ ⟨leaf _ _ (by lk [h1, h2, h3, h4, h5, h6, h7, EditArgs.loud, hq, hl, say_is_true, say_is_false, nl_byte, json_not_shell, json_not_sexp, sexp_not_shell, intDec_succ, hj, ho]), hnx⟩
              | (by_cases f1 : a.outputFormat = b! "shell"
                 · lk [resultText, f1, lk_NewWriter_shell, lk_anyWriteValue_shell, h1, h2, h3, h4, h5, h6, h7, EditArgs.loud, hq, hl, say_is_true, say_is_false, nl_byte, json_not_shell, json_not_sexp, sexp_not_shell, intDec_succ, hj, ho]
                   cases shellString (.list [v]) with
                   | error e' => lk []
                   | ok t => lk []; intro r2; exact ih b' _ ⟨leaf _ _ (by lk [f1, h1, h2, h3, h4, h5, h6, h7, EditArgs.loud, hq, hl, say_is_true, say_is_false, nl_byte, json_not_shell, json_not_sexp, sexp_not_shell, intDec_succ, hj, ho]), hnx⟩
                 · by_cases f2 : a.outputFormat = b! "sexp"
                   · lk [resultText, f2, lk_NewWriter_sexp, lk_anyWriteValue_sexp, h1, h2, h3, h4, h5, h6, h7, EditArgs.loud, hq, hl, say_is_true, say_is_false, nl_byte, json_not_shell, json_not_sexp, sexp_not_shell, intDec_succ, hj, ho]
                     intro r2; exact ih b' _ ⟨leaf _ _ (by lk [f2, h1, h2, h3, h4, h5, h6, h7, EditArgs.loud, hq, hl, say_is_true, say_is_false, nl_byte, json_not_shell, json_not_sexp, sexp_not_shell, intDec_succ, hj, ho]), hnx⟩
                   · by_cases f3 : a.outputFormat = b! "json"
                     · lk [resultText, f3, lk_NewWriter_json, lk_anyWriteValue_json, h1, h2, h3, h4, h5, h6, h7, EditArgs.loud, hq, hl, say_is_true, say_is_false, nl_byte, json_not_shell, json_not_sexp, sexp_not_shell, intDec_succ, hj, ho]
                       cases writeJsonValue v with
                       | none => lk []
                       | some t => lk []; intro r2; exact ih b' _ ⟨leaf _ _ (by lk [f3, h1, h2, h3, h4, h5, h6, h7, EditArgs.loud, hq, hl, say_is_true, say_is_false, nl_byte, json_not_shell, json_not_sexp, sexp_not_shell, intDec_succ, hj, ho]), hnx⟩
                     · lk [resultText, f1, f2, f3, h1, h2, h3, h4, h5, h6, h7, EditArgs.loud, hq, hl, say_is_true, say_is_false, nl_byte, json_not_shell, json_not_sexp, sexp_not_shell, intDec_succ, hj, ho])
  · exact ⟨by constructor <;> lk [], hx⟩

end
end Texted
