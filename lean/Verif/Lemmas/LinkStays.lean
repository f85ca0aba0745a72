import Verif.Lemmas.LinkRun
import Verif.Lemmas.FgEdit
/-
Runs that stay within the memory.
-/
set_option linter.unusedSectionVars false
set_option linter.unusedSimpArgs false
namespace Texted
open Spec

/-- The program, started in `w`, never ends in `spin`. -/
def Calm (p : Proc FgOut) (w : World) : Prop := ∀ w', ¬ Ends p w .spin w'

theorem calm_ret {o : FgOut} {w : World} (h : o ≠ .spin) : Calm (.ret o) w := fun _ he => h (ends_ret.1 he).1.symm

theorem calm_panic {w : World} : Calm .panic w := fun _ he => ends_panic he

theorem calm_act {a : Act} {k : Except Bytes Bytes → Proc FgOut} {w : World}
    (h : ∀ r w1, Calm (k r) w1) : Calm (.act a k) w := by
  intro w' he
  obtain ⟨r, w1, h1, h2⟩ := ends_act.1 he
  exact h r w1 w' h2

/-- A program that returns or crashes whatever the replies. -/
theorem calm_of {p : Proc (List FgV)} {w : World} : Calm (p.bind fun vs => .ret (.ret vs)) w := by
  intro w' he
  obtain ⟨_, _, _, h⟩ := ends_bind.1 he
  exact nomatch (ends_ret.1 h).1

theorem calm_res {r : Res Bytes Bytes} {w : World} : Calm (fgRes r) w := by
  cases r with
  | ok _ => exact calm_ret (fun h => nomatch h)
  | err _ => exact calm_ret (fun h => nomatch h)
  | panic => exact calm_panic

theorem calm_read {f : Bytes} {k : Except Bytes Bytes → Proc FgOut} {w : World} (h : ∀ c, w.files f = some c → Calm (k (.ok c)) w)
    (he : ∀ e, Calm (k (.error e)) w) : Calm (.act (.read f) k) w := by
  intro w' hx
  obtain ⟨r, w1, h1, h2⟩ := ends_act.1 hx
  obtain ⟨rfl, ⟨d, hd, rfl⟩ | ⟨e, rfl⟩⟩ := h1
  · exact h _ hd w' h2
  · exact he _ w' h2

theorem calm_stdin {k : Except Bytes Bytes → Proc FgOut} {w : World} (h : Calm (k (.ok w.input)) { w with input := [] })
    (he : ∀ e, Calm (k (.error e)) { w with input := [] }) : Calm (.act .stdin k) w := by
  intro w' hx
  obtain ⟨r, w1, h1, h2⟩ := ends_act.1 hx
  obtain ⟨rfl, rfl | ⟨e, rfl⟩⟩ := h1
  · exact h w' h2
  · exact he _ w' h2

section
variable [Ext] {m : Memory} {w : World}

theorem stays_ExecuteScript {input script : Bytes} (h : FitsIn m input script (b! "shell")) : StaysIn m .ExecuteScript [.str input, .str script] w :=
  ⟨0, 1, by rw [lk_ExecuteScript input script h]; exact calm_res⟩

theorem stays_ExecuteScriptWithFormat {input script format : Bytes} (h : FitsIn m input script format) :
    StaysIn m .ExecuteScriptWithFormat [.str input, .str script, .str format] w :=
  ⟨0, 2, by rw [lk_ExecuteScriptWithFormat input script format h]; exact calm_res⟩

theorem stays_EditFile {file script : Bytes} (h : ∀ c, w.files file = some c → FitsIn m c script (b! "shell")) :
    StaysIn m .EditFile [.str file, .str script] w := by
  refine ⟨0, 2, ?_⟩
  change Calm _ w
  rw [lkRun_succ _ _ _ rfl]
  simp only [FgFn.body, fgEditFile]
  lk [lk_readFile]
  refine calm_read (fun c hc => ?_) fun e => ?_
  · lk [fgRead, lk_ExecuteScript c script (h c hc)]
    cases executeScript c script with
    | err e => lk [fgRes]; exact calm_ret (fun h => nomatch h)
    | panic => lk [fgRes]; exact calm_panic
    | ok t =>
      lk [fgRes, lk_writeFile]
      refine calm_act fun r w1 => ?_
      cases r <;> lk [fgWrote] <;> exact calm_ret (fun h => nomatch h)
  · lk [fgRead]; exact calm_ret (fun h => nomatch h)

end
end Texted
