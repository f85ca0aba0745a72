import Verif.Lemmas.Tg
import Verif.Lemmas.PgEval
/-
`formatValue` and `formatInstruction` as they are written in Go.
-/
set_option linter.unusedSectionVars false
set_option linter.constructorNameAsVariable false
namespace Texted
variable [Ext]

/-- The loop of `formatValue` over a list and what follows it. -/
def fmtValueParts : TgE × TgS × TgS × TgS := match tgFormatValue with
  | .seq _ (.if_ _ _ (.if_ _ _ (.if_ _ _ (.if_ _ (.seq _ (.seq _ (.seq _ (.seq (.while c p b) r)))) _)))) => (c, b, p, r)
  | _ => (.nil, .skip, .skip, .skip)

/-- The loop, `m` rounds, and what follows it. -/
def fmtValueRun (x : TgX) (n d m : Nat) (st : TgSt) : TgOut :=
  (tgLoop (fun st => fmtValueParts.1.eval x st) (fun st => fmtValueParts.2.1.exec x n (tgRun x n d) st) (fun st => fmtValueParts.2.2.1.exec x n (tgRun x n d) st) m st).andThen
    fun st => fmtValueParts.2.2.2.exec x n (tgRun x n d) st

mutual
theorem fmtValue_tg (x : TgX) : ∀ (v : Value) (n d : Nat) (w : TgW), v.parts ≤ n → v.parts < d →
    tgRun x n d .formatValue [.val v] w = .ret [.str (formatValue v)] w
  | .str s, n, d, w, hn, hd => by
    obtain ⟨d, rfl⟩ : ∃ e, d = e + 1 := ⟨d - 1, by omega⟩
    rw [tgRun_succ _ _ _ _ _ _ _ rfl]
    simp only [TgFn.body, tgFormatValue]
    tg [PgT.isValue, tgAs]
    rw [formatValue, List.append_nil, List.append_assoc]
  | .num y, n, d, w, hn, hd => by
    obtain ⟨d, rfl⟩ : ∃ e, d = e + 1 := ⟨d - 1, by omega⟩
    rw [tgRun_succ _ _ _ _ _ _ _ rfl]
    simp only [TgFn.body, tgFormatValue]
    rw [formatValue]
    cases h : F64.goEq y (F64.ofInt (F64.toInt y)) with
    | true => tg [PgT.isValue, tgAs, h, List.append_nil, Bool.false_eq_true]
    | false => tg [PgT.isValue, tgAs, h, List.append_nil, Bool.false_eq_true]
  | .sym s, n, d, w, hn, hd => by
    obtain ⟨d, rfl⟩ : ∃ e, d = e + 1 := ⟨d - 1, by omega⟩
    rw [tgRun_succ _ _ _ _ _ _ _ rfl]
    simp only [TgFn.body, tgFormatValue]
    tg [PgT.isValue, tgAs]
    rw [formatValue]
  | .list l, n, d, w, hn, hd => by
    rw [Value.parts] at hn hd
    obtain ⟨d, rfl⟩ : ∃ e, d = e + 1 := ⟨d - 1, by omega⟩
    rw [tgRun_succ _ _ _ _ _ _ _ rfl]
    simp only [TgFn.body, tgFormatValue]
    tg [PgT.isValue, tgAs, tgexec_while]
    rw [formatValue]
    exact fmtValues_tg x l l 0 n d n [] w _ (by omega) (by omega) (by have := Value.partsAll_length l; omega) rfl (by tg []) (by tg []; rfl) (by tg []) rfl
theorem fmtValues_tg (x : TgX) (l : List Value) : ∀ (r : List Value) (k n d m : Nat) (acc : List Bytes) (w : TgW) (st : TgSt), Value.partsAll r ≤ n → Value.partsAll r < d →
    r.length < m → l.drop k = r → st.vars .list = .val (.list l) → st.vars .i = .int k → st.vars .parts = .strs acc → st.w = w →
    fmtValueRun x n d m st = .ret [.str (b! "(" ++ joinWith b! " " (acc ++ formatValues r) ++ b! ")")] w
  | [], k, n, d, m, acc, w, st, hn, hd, hm, ha, h₁, h₂, h₃, hw => by
    obtain ⟨m, rfl⟩ : ∃ e, m = e + 1 := ⟨m - 1, by rw [List.length_nil] at hm; omega⟩
    have hk : l.length ≤ k := List.drop_eq_nil_iff.mp ha
    have hc : decide ((k : Int) < (l.length : Int)) = false := by simp; omega
    simp only [fmtValueRun, tgLoop, fmtValueParts, tgFormatValue]
    tg [h₁, h₂, h₃, hw, hc]
    rw [formatValues, List.append_nil, List.append_nil, List.append_assoc]
  | v :: vs, k, n, d, m, acc, w, st, hn, hd, hm, ha, h₁, h₂, h₃, hw => by
    rw [List.length_cons] at hm
    rw [Value.partsAll] at hn hd
    have hpos := v.parts_pos
    obtain ⟨m, rfl⟩ : ∃ e, m = e + 1 := ⟨m - 1, by omega⟩
    have hlt := lt_of_drop ha
    have hc : decide ((k : Int) < (l.length : Int)) = true := by simp; omega
    have hx := fmtValue_tg x v n d w (by omega) (by omega)
    have hrun : ∃ st', fmtValueRun x n d (m + 1) st = fmtValueRun x n d m st' ∧ st'.vars .list = .val (.list l) ∧ st'.vars .i = .int (k + 1 : Nat) ∧
        st'.vars .parts = .strs (acc ++ [formatValue v]) ∧ st'.w = w := by
      simp only [fmtValueRun, tgLoop, fmtValueParts, tgFormatValue]
      tg [h₁, h₂, h₃, hw, hc, goAt_drop ha, tgGot, hx]
      exact ⟨_, rfl, by tg [h₁], by tg []; rfl, by tg [], rfl⟩
    obtain ⟨st', e₁, e₂, e₃, e₄, e₅⟩ := hrun
    rw [e₁, fmtValues_tg x l vs (k + 1) n d m _ w st' (by omega) (by omega) (by omega) (drop_succ_of ha) e₂ e₃ e₄ e₅, formatValues, List.append_assoc acc]; rfl
end

/-- The loop of `formatInstruction` over a list and what follows it. -/
def fmtInstructionParts : TgE × TgS × TgS × TgS := match tgFormatInstruction with
  | .seq _ (.if_ _ _ (.if_ _ _ (.if_ _ _ (.if_ _ (.seq _ (.seq _ (.seq _ (.seq (.while c p b) r)))) _)))) => (c, b, p, r)
  | _ => (.nil, .skip, .skip, .skip)

/-- The loop, `m` rounds, and what follows it. -/
def fmtInstructionRun (x : TgX) (n d m : Nat) (st : TgSt) : TgOut :=
  (tgLoop (fun st => fmtInstructionParts.1.eval x st) (fun st => fmtInstructionParts.2.1.exec x n (tgRun x n d) st) (fun st => fmtInstructionParts.2.2.1.exec x n (tgRun x n d) st) m st).andThen
    fun st => fmtInstructionParts.2.2.2.exec x n (tgRun x n d) st

mutual
theorem fmtInstruction_tg (x : TgX) : ∀ (v : Value) (n d : Nat) (w : TgW), v.parts ≤ n → v.parts < d →
    tgRun x n d .formatInstruction [.val v] w = .ret [.str (formatValue v)] w
  | .str s, n, d, w, hn, hd => by
    obtain ⟨d, rfl⟩ : ∃ e, d = e + 1 := ⟨d - 1, by omega⟩
    rw [tgRun_succ _ _ _ _ _ _ _ rfl]
    simp only [TgFn.body, tgFormatInstruction]
    tg [PgT.isValue, tgAs]
    rw [formatValue, List.append_nil, List.append_assoc]
  | .num y, n, d, w, hn, hd => by
    obtain ⟨d, rfl⟩ : ∃ e, d = e + 1 := ⟨d - 1, by omega⟩
    rw [tgRun_succ _ _ _ _ _ _ _ rfl]
    simp only [TgFn.body, tgFormatInstruction]
    rw [formatValue]
    cases h : F64.goEq y (F64.ofInt (F64.toInt y)) with
    | true => tg [PgT.isValue, tgAs, h, List.append_nil, Bool.false_eq_true]
    | false => tg [PgT.isValue, tgAs, h, List.append_nil, Bool.false_eq_true]
  | .sym s, n, d, w, hn, hd => by
    obtain ⟨d, rfl⟩ : ∃ e, d = e + 1 := ⟨d - 1, by omega⟩
    rw [tgRun_succ _ _ _ _ _ _ _ rfl]
    simp only [TgFn.body, tgFormatInstruction]
    tg [PgT.isValue, tgAs]
    rw [formatValue]
  | .list l, n, d, w, hn, hd => by
    rw [Value.parts] at hn hd
    obtain ⟨d, rfl⟩ : ∃ e, d = e + 1 := ⟨d - 1, by omega⟩
    rw [tgRun_succ _ _ _ _ _ _ _ rfl]
    simp only [TgFn.body, tgFormatInstruction]
    tg [PgT.isValue, tgAs, tgexec_while]
    rw [formatValue]
    exact fmtInstructions_tg x l l 0 n d n [] w _ (by omega) (by omega) (by have := Value.partsAll_length l; omega) rfl (by tg []) (by tg []; rfl) (by tg []) rfl
theorem fmtInstructions_tg (x : TgX) (l : List Value) : ∀ (r : List Value) (k n d m : Nat) (acc : List Bytes) (w : TgW) (st : TgSt), Value.partsAll r ≤ n → Value.partsAll r < d →
    r.length < m → l.drop k = r → st.vars .list = .val (.list l) → st.vars .i = .int k → st.vars .parts = .strs acc → st.w = w →
    fmtInstructionRun x n d m st = .ret [.str (b! "(" ++ joinWith b! " " (acc ++ formatValues r) ++ b! ")")] w
  | [], k, n, d, m, acc, w, st, hn, hd, hm, ha, h₁, h₂, h₃, hw => by
    obtain ⟨m, rfl⟩ : ∃ e, m = e + 1 := ⟨m - 1, by rw [List.length_nil] at hm; omega⟩
    have hk : l.length ≤ k := List.drop_eq_nil_iff.mp ha
    have hc : decide ((k : Int) < (l.length : Int)) = false := by simp; omega
    simp only [fmtInstructionRun, tgLoop, fmtInstructionParts, tgFormatInstruction]
    tg [h₁, h₂, h₃, hw, hc]
    rw [formatValues, List.append_nil, List.append_nil, List.append_assoc]
  | v :: vs, k, n, d, m, acc, w, st, hn, hd, hm, ha, h₁, h₂, h₃, hw => by
    rw [List.length_cons] at hm
    rw [Value.partsAll] at hn hd
    have hpos := v.parts_pos
    obtain ⟨m, rfl⟩ : ∃ e, m = e + 1 := ⟨m - 1, by omega⟩
    have hlt := lt_of_drop ha
    have hc : decide ((k : Int) < (l.length : Int)) = true := by simp; omega
    have hx := fmtInstruction_tg x v n d w (by omega) (by omega)
    have hrun : ∃ st', fmtInstructionRun x n d (m + 1) st = fmtInstructionRun x n d m st' ∧ st'.vars .list = .val (.list l) ∧ st'.vars .i = .int (k + 1 : Nat) ∧
        st'.vars .parts = .strs (acc ++ [formatValue v]) ∧ st'.w = w := by
      simp only [fmtInstructionRun, tgLoop, fmtInstructionParts, tgFormatInstruction]
      tg [h₁, h₂, h₃, hw, hc, goAt_drop ha, tgGot, hx]
      exact ⟨_, rfl, by tg [h₁], by tg []; rfl, by tg [], rfl⟩
    obtain ⟨st', e₁, e₂, e₃, e₄, e₅⟩ := hrun
    rw [e₁, fmtInstructions_tg x l vs (k + 1) n d m _ w st' (by omega) (by omega) (by omega) (drop_succ_of ha) e₂ e₃ e₄ e₅, formatValues, List.append_assoc acc]; rfl
end

end Texted
