import Verif.Lemmas.LinkExprRun
import Verif.Props.LinkedMore
/-
C99, the linked program: `texted edit -e`.
-/
set_option linter.unusedSectionVars false
namespace Texted
open Spec

section
variable [Ext] [LawfulExt] {L : Linking} {w w' : World}

/-- **C99** `texted edit` with expressions, linked: any flags, any number of files, any names. If the expressions and the texts fit into memory, the
command does at every moment, and returns at the end, exactly what the model of the command says. -/
theorem C99_edit_expressions (hL : Linking.Real L) (a : EditArgs) (he : a.expressions ≠ [])
    (hf : ∀ f ∈ a.files, ∀ c, w.files f = some c → ExpressionsFit L.mem a.format a.expressions (newBuffer c))
    (hi : a.files = [] → ExpressionsFit L.mem a.format a.expressions (newBuffer w.input)) :
    (∀ e, LinkedEnds L .runEdit (editCall a) w [fgError e] w' ↔ Ends (runEdit a) w e w') ∧
    (LinkedSees L .runEdit (editCall a) w w' ↔ Sees (runEdit a) w w') := by
  obtain ⟨h1, h2⟩ := C99_exact (w' := w') hL (stays_runEdit_expr a w he hf hi)
  exact ⟨fun e => (h1 _).trans edit_ends, h2.trans edit_sees⟩

/-- What the words of `texted edit` come to. -/
theorem edit_calls {ws : List Bytes} {l : List (FlagDef × Bytes)} {files : List Bytes} (hcl : CommandLine editFlags ws l files) (hh : ¬ On l (b! "help"))
    {a : EditArgs} (ha : EditMeaning l files a) {f : FgFn} {vs : List FgV} (h : ProgramCalls cgMain (b! "edit" :: ws) f vs) : f = .runEdit ∧ vs = editCall a := by
  have hb : ¬ boolSetting l (b! "help") = true := fun hx => hh ((bools hcl (by decide)).1 hx)
  obtain ⟨fs, args, hfs, hs, hm⟩ := edit_start (parseWords_complete editFlags_good hcl)
  have hone : EditMeaning l files { editArgs l files with expressions := if fs = [[]] then [] else fs.map unCRLF } := by
    constructor <;> first
      | exact (strSetting_iff _ _ _ _).2 rfl
      | exact bools hcl (by decide)
      | exact ⟨fs, hfs, rfl⟩
      | rfl
  rw [← C71_one_meaning ha hone] at hm
  rw [if_neg hb] at hs
  have key : ∀ c ws' g args' us, cgMain.pick (b! "edit" :: ws) = .command c ws' → c.start ws' = .call g args' → args'.mapM CgV.fg = some us →
      g = .runEdit ∧ us = editCall a := by
    intro c ws' g args' us hp hst hu
    rw [pick_edit] at hp
    injection hp with h1 h2
    subst h1 h2
    rw [hs] at hst
    injection hst with h1 h2
    subst h1 h2
    rw [hm] at hu
    injection hu with hu
    exact ⟨rfl, hu.symm⟩
  cases h with
  | edit hp hst hu => exact ⟨rfl, (key _ _ _ _ _ hp hst hu).2⟩
  | parse hp hst hu => exact nomatch (key _ _ _ _ _ hp hst hu).1

/-- **C99** `texted edit WORDS` from `main` on, linked, with `-e` expressions and not `--help`: if the expressions and the texts fit into memory, what
can be in the world at any moment is exactly what the model of the command says, and it ends with status 0 exactly where the model ends without an
error, with 1 exactly where it ends with one. -/
theorem C99_program_expressions (hL : Linking.Real L) (helps : Bytes → Bytes) (others : Bytes → List Bytes → Proc Nat) {ws : List Bytes}
    {l : List (FlagDef × Bytes)} {files : List Bytes} (hcl : CommandLine editFlags ws l files) (hh : ¬ On l (b! "help")) {a : EditArgs}
    (ha : EditMeaning l files a) (he : a.expressions ≠ [])
    (hf : ∀ f ∈ a.files, ∀ c, w.files f = some c → ExpressionsFit L.mem a.format a.expressions (newBuffer c))
    (hi : a.files = [] → ExpressionsFit L.mem a.format a.expressions (newBuffer w.input)) :
    (LinkedProgramSees L cgMain helps others (b! "edit" :: ws) w w' ↔ Sees (runEdit a) w w') ∧
    ∀ k, LinkedProgramEnds L cgMain helps others (b! "edit" :: ws) w k w' ↔
      ∃ r, Ends (runEdit a) w r w' ∧ ((r = none ∧ k = 0) ∨ (r ≠ none ∧ k = 1)) := by
  obtain ⟨h₁, h₂⟩ := C99_program_exact (w := w) (w' := w') hL helps others (b! "edit" :: ws) fun f vs h => by
    obtain ⟨rfl, rfl⟩ := edit_calls hcl hh ha h
    exact stays_runEdit_expr a w he hf hi
  obtain ⟨h₃, h₄⟩ := C76_edit helps (withParse helps others) ws w w'
  rw [C71_meaning _ hcl hh ha] at h₄
  simp only [C71_meaning _ hcl hh ha] at h₃
  exact ⟨h₁.trans h₄, fun k => (h₂ k).trans (h₃ k)⟩

end

/-! ### A linked run -/

/-- The arguments of `texted edit -e 'search-forward "x"' -e 'replace-match ""' a`. -/
def exprA : EditArgs := { expressions := [b! "search-forward \"x\"", b! "replace-match \"\""], files := [b! "a"] }

theorem exprA_fits : letI := litExt; ExpressionsFit fullMemory (b! "shell") exprA.expressions (newBuffer (b! "xay")) := by
  letI := litExt
  have held : ∀ s : Bytes, Held s.length → fullMemory.text s = true := fun s h => decide_eq_true h
  have p1 : parseScript (b! "shell") (b! "search-forward \"x\"") = .ok [.list [.sym (b! "search-forward"), .str (b! "x")]] := by with_unfolding_all rfl
  have p2 : parseScript (b! "shell") (b! "replace-match \"\"") = .ok [.list [.sym (b! "replace-match"), .str []]] := by with_unfolding_all rfl
  have r1 : Reached ({ content := b! "xay", point := 2, mark := 1, lastMatch := b! "x", lastStart := 1, lastEnd := 2 } : Buffer) := by
    have := Reached.call (b := newBuffer (b! "xay")) (args := [.str (b! "x")]) (name := b! "search-forward") (f := builtinSearchForward) (.new _)
      (small_lit (by decide) (by decide) (by simp)) (by simp [builtinTable])
    exact this
  have c1 : (scriptCalls defaultEnv [.list [.sym (b! "search-forward"), .str (b! "x")]] (newBuffer (b! "xay"))).map (fun c => (c.args, c.buf)) =
      [([.str (b! "x")], newBuffer (b! "xay"))] := by rfl
  have c2 : (scriptCalls defaultEnv [.list [.sym (b! "replace-match"), .str []]] { content := b! "xay", point := 2, mark := 1, lastMatch := b! "x", lastStart := 1, lastEnd := 2 }).map (fun c => (c.args, c.buf)) =
      [([.str []], { content := b! "xay", point := 2, mark := 1, lastMatch := b! "x", lastStart := 1, lastEnd := 2 })] := by rfl
  have e1 : (eval defaultEnv [.list [.sym (b! "search-forward"), .str (b! "x")]] (newBuffer (b! "xay"))).2 =
      { content := b! "xay", point := 2, mark := 1, lastMatch := b! "x", lastStart := 1, lastEnd := 2 } := by rfl
  refine ⟨by rw [if_neg (by decide)]; exact held _ (by decide), fun p hp => ?_⟩
  rw [p1] at hp
  cases hp
  refine ⟨@decide_eq_true _ (_) ⟨by decide, .new _, fun c hc => ?_⟩, fun v b' hb => ⟨by rw [if_neg (by decide)]; exact held _ (by decide), fun p hp => ?_⟩⟩
  · have := List.mem_map_of_mem (f := fun c : ACall => (c.args, c.buf)) hc
    rw [c1] at this
    simp only [List.mem_cons, List.not_mem_nil, or_false, Prod.mk.injEq] at this
    rw [this.1, this.2]; exact small_lit (by decide) (by decide) (by simp)
  · rw [p2] at hp
    cases hp
    rw [hb] at e1
    simp only at e1
    subst e1
    refine ⟨@decide_eq_true _ (_) ⟨by decide, r1, fun c hc => ?_⟩, fun _ _ _ => trivial⟩
    have := List.mem_map_of_mem (f := fun c : ACall => (c.args, c.buf)) hc
    rw [c2] at this
    simp only [List.mem_cons, List.not_mem_nil, or_false, Prod.mk.injEq] at this
    rw [this.1, this.2]; exact small_lit (by decide) (by decide) (by simp)

/-- All hypotheses of `C99_edit_expressions` are met together: the results are printed, the file is untouched. -/
example : letI := litExt
    ∃ (L : Linking) (w' : World), Linking.Real L ∧ LinkedEnds L .runEdit (editCall exprA) pairWorld [.nil] w' ∧
      w'.files (b! "a") = some (b! "xay") ∧ w'.out = b! "\"\"\n\"\"\n" := by
  letI := litExt
  haveI := litExt_lawful
  obtain ⟨L, hL, hm⟩ := C99_real
  have h : Ends (runEdit exprA) pairWorld none (runOk (fun _ => []) (runEdit exprA) pairWorld).2 :=
    (runOk_ends _ _ _).1 _ (by decide +kernel)
  refine ⟨L, _, hL, ((C99_edit_expressions hL exprA (by decide) (fun f hf c hc => ?_) (fun h => nomatch h)).1 none).2 h, by decide +kernel, by decide +kernel⟩
  obtain rfl : f = b! "a" := by simpa [exprA] using hf
  obtain rfl : c = b! "xay" := by have : pairWorld.files (b! "a") = some (b! "xay") := rfl; rw [this] at hc; exact (Option.some.inj hc).symm
  rw [hm]
  exact exprA_fits

end Texted
