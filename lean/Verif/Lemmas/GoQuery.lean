import Verif.Lemmas.GoLoops
import Verif.Lemmas.Lines
/-
goto-line, line-number-at-pos, current-column, substring, concat of Model/GoSource, and the helpers they call.
-/
namespace Texted
open Spec
variable [Ext] {n : Nat} {args : List Value} {b : Buffer}

/-! ### line-number-at-pos -/

theorem loop_lineNumber {c : Bytes} {pos : Int} (hl : c.length < 4611686018427387904) (hp : pos ≤ c.length) :
    ∀ (m : Nat) (st : GoSt) (i : Nat) (l : Int), st.vars .content = .str c → st.vars .pos = .int pos → st.vars .i = .int i → st.vars .lineNum = .int l →
      0 ≤ l → l ≤ i + 1 → (pos - i).toNat < m →
      ∃ st', goLoop (fun st => (GoE.bin .lt (.var .i) (.var .pos)).eval st)
        (fun st => ((GoS.if_ (.bin .eq (.index (.var .content) (.var .i)) (.char 10)) (.set .lineNum (.bin .add (.var .lineNum) (.int 1))) .skip).exec n st).andThen
          fun st => (GoS.set .i (.bin .add (.var .i) (.int 1))).exec n st) m st = .next st' ∧ st'.buf = st.buf ∧
        st'.vars .lineNum = .int (l + (((c.take pos.toNat).drop i).filter (· == nl)).length) := by
  intro m
  induction m with
  | zero => intros; omega
  | succ m ih =>
    intro st i l h1 h2 h3 h4 hl0 hli hm
    rw [goLoop_succ]
    have hcond : (GoE.bin .lt (.var .i) (.var .pos)).eval st = .ok (.bool (iLt i pos)) := by
      show GoOp.apply .lt (st.vars .i) (st.vars .pos) = _
      rw [h2, h3, lt_ints]
    rw [hcond, GoR.ok_run, goIf_bool]
    by_cases hlt : (i : Int) < pos
    · have e0 : iLt i pos = true := by rw [iLt_true]; exact hlt
      have hi : i < c.length := by omega
      have ha : goAt c i = some c[i] := by
        rw [goAt, if_neg (by omega), Int.toNat_natCast, List.getElem?_eq_getElem hi]
      have hd : (c.take pos.toNat).drop i = c[i] :: (c.take pos.toNat).drop (i + 1) := by
        have : i < (c.take pos.toNat).length := by rw [List.length_take]; omega
        rw [List.drop_eq_getElem_cons this, List.getElem_take]
      rw [e0, if_pos rfl, hd, exec_if]
      have hb : (GoE.bin .eq (.index (.var .content) (.var .i)) (.char 10)).eval st = .ok (.bool (bEq c[i] 10)) := by
        show ((GoV.index (st.vars .content) (st.vars .i)).bind fun v => GoOp.apply .eq v (.byte 10)) = _
        rw [h1, h3, index_str, ha]; rfl
      rw [hb, GoR.ok_run, goIf_bool]
      by_cases hn : c[i] = nl
      · have e1 : bEq c[i] 10 = true := by rw [bEq_true]; exact hn
        have hs : (GoS.set .lineNum (.bin .add (.var .lineNum) (.int 1))).exec n st = .next (st.set .lineNum (.int (l + 1))) := by
          show (GoOp.apply .add (st.vars .lineNum) (.int 1)).run (fun v => .next (st.set .lineNum v)) = _
          rw [h4, add_ints, wrap64_eq (by omega) (by omega)]; rfl
        rw [e1, if_pos rfl, hs, GoOut.next_andThen, exec_i (i := i) (by rw [GoSt.set_vars, if_neg (by decide)]; exact h3) (by omega) (by omega), GoOut.next_andThen]
        obtain ⟨st', g1, g2, g3⟩ := ih ((st.set .lineNum (.int (l + 1))).set .i (.int ((i : Int) + 1))) (i + 1) (l + 1)
          (by simp [GoSt.set_vars, h1]) (by simp [GoSt.set_vars, h2]) (by simp [GoSt.set_vars]) (by simp [GoSt.set_vars]) (by omega) (by omega) (by omega)
        refine ⟨st', g1, g2, ?_⟩
        rw [g3, List.filter_cons_of_pos (by simp [hn]), List.length_cons]
        congr 1
        omega
      · have e1 : bEq c[i] 10 = false := by rw [← Bool.not_eq_true, bEq_true]; exact hn
        rw [e1, if_neg (by decide), exec_skip, GoOut.next_andThen, exec_i h3 (by omega) (by omega), GoOut.next_andThen]
        obtain ⟨st', g1, g2, g3⟩ := ih (st.set .i (.int ((i : Int) + 1))) (i + 1) l
          (by simp [GoSt.set_vars, h1]) (by simp [GoSt.set_vars, h2]) (by simp [GoSt.set_vars]) (by simp [GoSt.set_vars, h4]) (by omega) (by omega) (by omega)
        refine ⟨st', g1, g2, ?_⟩
        rw [g3, List.filter_cons_of_neg (by simp [hn])]
    · have e0 : iLt i pos = false := by rw [← Bool.not_eq_true, iLt_true]; exact hlt
      have hd : (c.take pos.toNat).drop i = [] := List.drop_eq_nil_of_le (by rw [List.length_take]; omega)
      rw [e0, hd]
      exact ⟨st, rfl, rfl, by simpa using h4⟩

theorem go_lineNumberAtPos (h : Machine args b) (hn : b.content.length < n) :
    Agrees (goLineNumberAtPos.call n args b) (builtinLineNumberAtPos args b) := by
  have hc := h.content
  have hp := h.point
  refine go_noArgs _ rfl ?_
  have hr := atLeast0_range (dec64_range hp.1 hp.2).2
  have hr' := atMost_range (m := b.content.length) (x := atLeast0 (dec64 b.point)) (by omega) (by omega)
  go_run [wrap64_dec]
  generalize hg : atMost (b.content.length : Int) (atLeast0 (dec64 b.point)) = q at hr'
  rw [exec_while]
  obtain ⟨st', g1, g2, g3⟩ := loop_lineNumber (n := n) (c := b.content) (pos := q) hc hr'.2 n
    (((((((goStart [] b).set .content (.str b.content)).set .pos (.int (dec64 b.point))).set .pos (.int (atLeast0 (dec64 b.point)))).set .pos (.int q)).set .lineNum (.int 1)).set .i (.int 0))
    0 1 rfl rfl rfl rfl (by omega) (by omega) (by omega)
  rw [g1]
  go_run [g2, g3]
  exact agrees_ok _ _

/-! ### current-column -/

theorem loop_column {c : Bytes} (hl : c.length < 4611686018427387904) :
    ∀ (m : Nat) (st : GoSt) (k : Nat) (l : Int), st.vars .content = .str c → st.vars .i = .int ((k : Int) - 1) → st.vars .column = .int l →
      0 ≤ l → l + k ≤ c.length → k < m →
      ∃ st' col, goLoop (fun st => (GoE.bin .and (.bin .ge (.var .i) (.int 0)) (.bin .ne (.index (.var .content) (.var .i)) (.char 10))).eval st)
        (fun st => ((GoS.set .column (.bin .add (.var .column) (.int 1))).exec n st).andThen
          fun st => (GoS.set .i (.bin .sub (.var .i) (.int 1))).exec n st) m st = .next st' ∧ st'.buf = st.buf ∧ columnLoop c k = some col ∧
        st'.vars .column = .int (l + col) := by
  intro m
  induction m with
  | zero => intros; omega
  | succ m ih =>
    intro st k l h1 h2 h3 hl0 hlk hm
    rw [goLoop_succ]
    have hcond : (GoE.bin .and (.bin .ge (.var .i) (.int 0)) (.bin .ne (.index (.var .content) (.var .i)) (.char 10))).eval st
        = goShort false (.bool (iLe 0 ((k : Int) - 1))) ((GoR.orPanic (goAt c ((k : Int) - 1))).bind fun ch => .ok (.bool (!(ch == nl)))) := by
      have t := tests_fwd_line .i st c ((k : Int) - 1) h1 h2
      show ((GoOp.apply .ge (st.vars .i) (.int 0)).bind fun v =>
        goShort false v ((GoE.bin .ne (.index (.var .content) (.var .i)) (.char 10)).eval st)) = _
      rw [t, h2, ge_ints]; rfl
    rw [hcond]
    obtain _ | k := k
    · exact ⟨st, 0, rfl, rfl, rfl, by simpa using h3⟩
    · have e0 : iLe 0 (((k + 1 : Nat) : Int) - 1) = true := by rw [iLe_true]; omega
      have hk : k < c.length := by omega
      have e1 : (((k + 1 : Nat) : Int) - 1) = k := by omega
      have ha : goAt c k = some c[k] := by rw [goAt, if_neg (by omega), Int.toNat_natCast, List.getElem?_eq_getElem hk]
      rw [e0, e1, ha, orPanic_some, GoR.ok_bind, goShort_and, Bool.true_and, GoR.ok_run, goIf_bool, columnLoop, List.getElem?_eq_getElem hk]
      dsimp only
      by_cases hn : c[k] = nl
      · rw [if_pos hn, hn]
        exact ⟨st, 0, rfl, rfl, rfl, by simpa using h3⟩
      · have e2 : (!(c[k] == nl)) = true := by simp [hn]
        have hs : (GoS.set .column (.bin .add (.var .column) (.int 1))).exec n st = .next (st.set .column (.int (l + 1))) := by
          show (GoOp.apply .add (st.vars .column) (.int 1)).run (fun v => .next (st.set .column v)) = _
          rw [h3, add_ints, wrap64_eq (by omega) (by omega)]; rfl
        have hi : (GoS.set .i (.bin .sub (.var .i) (.int 1))).exec n (st.set .column (.int (l + 1))) = .next ((st.set .column (.int (l + 1))).set .i (.int ((k : Int) - 1))) := by
          show (GoOp.apply .sub (st.vars .i) (.int 1)).run (fun v => .next ((st.set .column (.int (l + 1))).set .i v)) = _
          rw [h2, sub_ints, e1, wrap64_eq (by omega) (by omega)]; rfl
        rw [if_neg hn, e2, if_pos rfl, hs, GoOut.next_andThen, hi, GoOut.next_andThen]
        obtain ⟨st', col, g1, g2, g3, g4⟩ := ih ((st.set .column (.int (l + 1))).set .i (.int ((k : Int) - 1))) k (l + 1)
          (by simp [GoSt.set_vars, h1]) (by simp [GoSt.set_vars]) (by simp [GoSt.set_vars]) (by omega) (by omega) (by omega)
        refine ⟨st', col + 1, g1, g2, by rw [g3]; rfl, ?_⟩
        rw [g4]; congr 1; omega

theorem go_currentColumn (h : Machine args b) (hn : b.content.length < n) :
    Agrees (goCurrentColumn.call n args b) (builtinCurrentColumn args b) := by
  have hc := h.content
  have hp := h.point
  refine go_noArgs _ rfl ?_
  by_cases h₁ : dec64 b.point < 0
  · go_run [wrap64_dec, h₁]
    exact agrees_ok _ _
  · by_cases h₂ : (b.content.length : Int) ≤ dec64 b.point
    · go_run [wrap64_dec, h₁, h₂, wrap64_eq]
      rw [exec_while]
      obtain ⟨st', col, g1, g2, g3, g4⟩ := loop_column (n := n) (c := b.content) hc n
        ((((((goStart [] b).set .content (.str b.content)).set .pos (.int (dec64 b.point))).set .pos (.int ((b.content.length : Int) - 1))).set .column (.int 0)).set .i (.int ((b.content.length : Int) - 1)))
        b.content.length 0 rfl rfl rfl (by omega) (by omega) (by omega)
      have e : ((b.content.length : Int) - 1 + 1).toNat = b.content.length := by omega
      rw [g1, e, g3]
      go_run [g2, g4, Int.zero_add]
      exact agrees_ok _ _
    · go_run [wrap64_dec, h₁, h₂]
      rw [exec_while]
      obtain ⟨st', col, g1, g2, g3, g4⟩ := loop_column (n := n) (c := b.content) hc n
        (((((goStart [] b).set .content (.str b.content)).set .pos (.int (dec64 b.point))).set .column (.int 0)).set .i (.int (dec64 b.point)))
        (dec64 b.point + 1).toNat 0 rfl (by show GoV.int _ = _; congr 1; omega) rfl (by omega) (by omega) (by omega)
      rw [g1, g3]
      go_run [g2, g4, Int.zero_add]
      exact agrees_ok _ _

/-! ### goto-line -/

omit [Ext] in
theorem lineOffset_pos {lines : List Bytes} : ∀ {k i : Nat} {q : Int}, lineOffset lines k i = some q → 1 ≤ q := by
  intro k
  induction k with
  | zero => intro i q h; cases h; omega
  | succ k ih =>
    intro i q h
    rw [lineOffset] at h
    split at h
    · cases h
    · cases hk : lineOffset lines k (i + 1) with
      | none => rw [hk] at h; cases h
      | some p =>
        have := ih hk
        rw [hk] at h
        simp at h
        omega

theorem loop_gotoLine {lines : List Bytes} {total : Int} (ht : total < 9223372036854775807) {num : Int} (hnum : num ≤ maxInt) :
    ∀ (k m : Nat) (st : GoSt) (i : Nat) (p q : Int), st.vars .lines = .strs lines → st.vars .lineNum = .int num → st.vars .i = .int i → st.vars .pos = .int p →
      num - 1 = i + k → 1 ≤ p → lineOffset lines k i = some q → p + q - 1 = total → k < m →
      ∃ st', goLoop (fun st => (GoE.bin .lt (.var .i) (.bin .sub (.var .lineNum) (.int 1))).eval st)
        (fun st => ((GoS.set .pos (.bin .add (.var .pos) (.bin .add (.len (.index (.var .lines) (.var .i))) (.int 1)))).exec n st).andThen
          fun st => (GoS.set .i (.bin .add (.var .i) (.int 1))).exec n st) m st = .next st' ∧ st'.buf = st.buf ∧
        st'.vars .pos = .int total := by
  intro k
  induction k with
  | zero =>
    intro m st i p q h1 h2 h3 h4 hk hp hq htot hm
    obtain _ | m := m
    · omega
    · have hcond : (GoE.bin .lt (.var .i) (.bin .sub (.var .lineNum) (.int 1))).eval st = .ok (.bool false) := by
        show ((GoOp.apply .sub (st.vars .lineNum) (.int 1)).bind fun w => GoOp.apply .lt (st.vars .i) w) = _
        rw [h2, h3, sub_ints, wrap64_eq (by omega) (by omega), GoR.ok_bind, lt_ints]
        congr 2
        rw [← Bool.not_eq_true, iLt_true]; omega
      rw [goLoop_succ, hcond]
      cases hq
      exact ⟨st, rfl, rfl, by rw [h4]; congr 1; omega⟩
  | succ k ih =>
    intro m st i p q h1 h2 h3 h4 hk hp hq htot hm
    obtain _ | m := m
    · omega
    · have hcond : (GoE.bin .lt (.var .i) (.bin .sub (.var .lineNum) (.int 1))).eval st = .ok (.bool true) := by
        show ((GoOp.apply .sub (st.vars .lineNum) (.int 1)).bind fun w => GoOp.apply .lt (st.vars .i) w) = _
        rw [h2, h3, sub_ints, wrap64_eq (by omega) (by omega), GoR.ok_bind, lt_ints]
        congr 2
        rw [iLt_true]; omega
      rw [goLoop_succ, hcond, GoR.ok_run, goIf_bool, if_pos rfl]
      rw [lineOffset] at hq
      cases hl : lines[i]? with
      | none => rw [hl] at hq; cases hq
      | some l =>
        rw [hl] at hq
        cases hk' : lineOffset lines k (i + 1) with
        | none => simp [hk'] at hq
        | some r =>
          simp only [hk', Option.map_some, Option.some.injEq] at hq
          have hr := lineOffset_pos hk'
          have ha : goAt lines (i : Int) = some l := by rw [goAt, if_neg (by omega), Int.toNat_natCast, hl]
          have hs : (GoS.set .pos (.bin .add (.var .pos) (.bin .add (.len (.index (.var .lines) (.var .i))) (.int 1)))).exec n st
              = .next (st.set .pos (.int (p + (l.length + 1)))) := by
            show ((((GoV.index (st.vars .lines) (st.vars .i)).bind GoV.len).bind fun a => GoOp.apply .add a (.int 1)).bind fun w => GoOp.apply .add (st.vars .pos) w).run
              (fun v => .next (st.set .pos v)) = _
            rw [h1, h3, h4, index_strs, ha, orPanic_some, GoR.ok_bind, GoR.ok_bind, len_str, GoR.ok_bind, add_ints, GoR.ok_bind, add_ints,
              wrap64_eq (x := (l.length : Int) + 1) (by omega) (by omega), wrap64_eq (by omega) (by omega)]; rfl
          rw [hs, GoOut.next_andThen, exec_i (i := i) (by rw [GoSt.set_vars, if_neg (by decide)]; exact h3) (by omega) (by omega), GoOut.next_andThen]
          exact ih m _ (i + 1) (p + (l.length + 1)) r (by simp [GoSt.set_vars, h1]) (by simp [GoSt.set_vars, h2]) (by simp [GoSt.set_vars]) (by simp [GoSt.set_vars])
            (by omega) (by omega) hk' (by omega) (by omega)

omit [Ext] in
theorem splitByte_length_le (c : Bytes) : (splitByte nl c).length ≤ c.length + 1 := by
  rw [splitByte_length, nlCount]
  have := List.length_filter_le (· == nl) c
  omega

theorem go_gotoLine (h : Machine args b) (hn : b.content.length < n) : Agrees (goGotoLine.call n args b) (builtinGotoLine args b) := by
  have hc := h.content
  refine go_oneNum _ rfl rfl fun f hf => ?_
  have hr := F64.toInt_range f
  have hlen := splitByte_length_le b.content
  have hpos : 0 < (splitByte nl b.content).length := by rw [splitByte_length]; omega
  have split_nl : GoF.stringsSplit.apply2 (.str b.content) (.str b! "\n") = .ok (.strs (splitByte nl b.content)) := rfl
  have key : ∀ (num : Int) (st : GoSt), 1 ≤ num → num ≤ (splitByte nl b.content).length → st.buf = b → st.vars .lines = .strs (splitByte nl b.content) → st.vars .lineNum = .int num → st.vars .i = .int 0 →
      st.vars .pos = .int 1 → Agrees (((GoS.while (.bin .lt (.var .i) (.bin .sub (.var .lineNum) (.int 1))) (.set .i (.bin .add (.var .i) (.int 1)))
    (.set .pos (.bin .add (.var .pos) (.bin .add (.len (.index (.var .lines) (.var .i))) (.int 1))))).exec n st).andThen fun st =>
      ((GoS.seq (.setBuf .point (.var .pos)) (.ret (.call1 .newString (.str (b! ""))) .nil)).exec n st))
      (match lineOffset (splitByte nl b.content) (num - 1).toNat 0 with
        | none => crash b
        | some pos => done { b with point := pos }) := by
    intro num st h1 h2 hbuf e1 e2 e3 e4
    obtain ⟨p, g1, g2, _⟩ := lineOffset_spec b.content (num - 1).toNat (by omega)
    rw [exec_while]
    obtain ⟨st', w1, w2, w3⟩ := loop_gotoLine (n := n) (lines := splitByte nl b.content) (total := (p : Int) + 1) (by omega) (num := num) (by omega)
      (num - 1).toNat n st 0 1 ((p : Int) + 1) e1 e2 e3 e4 (by omega) (by omega) g1 (by omega) (by omega)
    rw [w1, g1]
    go_run [w2, w3, hbuf]
    exact agrees_ok _ _
  by_cases h₁ : f.toInt < 1
  · go_run [split_nl, h₁]
    refine key 1 _ (by omega) (by omega) rfl rfl rfl rfl rfl
  · by_cases h₂ : ((splitByte nl b.content).length : Int) < f.toInt
    · go_run [split_nl, h₁, h₂]
      refine key (splitByte nl b.content).length _ (by omega) (by omega) rfl rfl rfl rfl rfl
    · go_run [split_nl, h₁, h₂]
      refine key f.toInt _ (by omega) (by omega) rfl rfl rfl rfl rfl

/-! ### substring -/

/-- `if x > len(str.Value) { x = len(str.Value) }`. -/
theorem exec_cap {st : GoSt} {s : Bytes} {x : GoVar} {p : Int} (hs : st.vars .str = .val (.str s)) (hx : st.vars x = .int p) :
    (GoS.if_ (.bin .gt (.var x) (.len (.value (.var .str)))) (.set x (.len (.value (.var .str)))) .skip).exec n st
      = .next (st.set x (.int (atMost s.length p))) := by
  show (((GoV.value (st.vars .str)).bind GoV.len).bind fun w => GoOp.apply .gt (st.vars x) w).run
    (fun v => goIf v (((GoV.value (st.vars .str)).bind GoV.len).run fun v => .next (st.set x v)) (.next st)) = _
  rw [hs, hx, value_str, GoR.ok_bind, len_str, GoR.ok_bind, gt_ints, GoR.ok_run, goIf_bool, GoR.ok_run]
  unfold atMost
  by_cases h : p > s.length
  · rw [if_pos ((iLt_true _ _).mpr h), if_pos h]
  · rw [if_neg (by rw [iLt_true]; exact h), if_neg h, GoSt.set_same hx]

/-- The end of substring, after the arguments are read. -/
theorem go_substringTail {st : GoSt} {s : Bytes} {start stop first : Int} (h₀ : first = dec64 start) (hs : st.vars .str = .val (.str s)) (h₁ : st.vars .start = .int first)
    (h₂ : st.vars .«end» = .int stop) (hb : st.buf = b) :
    Agrees ((.seq (.if_ (.bin .lt (.var .start) (.int 0))
    (.set .start (.int 0))
    .skip) <|
  .seq (.if_ (.bin .gt (.var .«end») (.len (.value (.var .str))))
    (.set .«end» (.len (.value (.var .str))))
    .skip) <|
  .seq (.if_ (.bin .gt (.var .start) (.var .«end»))
    (.ret (.call1 .newString (.str (b! ""))) .nil)
    .skip) <|
  .seq (.set .result (.slice (.value (.var .str)) (.var .start) (.var .«end»))) <|
  (.ret (.call1 .newString (.var .result)) .nil) : GoS).exec n st) (substringCore s start stop b) := by
  subst h₀
  rw [exec_seq, exec_low, h₁, asInt_int, GoOut.next_andThen, exec_seq, exec_cap (s := s) (p := stop) (by rw [GoSt.set_vars, if_neg (by decide)]; exact hs)
    (by rw [GoSt.set_vars, if_neg (by decide)]; exact h₂), GoOut.next_andThen]
  unfold substringCore
  by_cases h₃ : atMost s.length stop < atLeast0 (dec64 start)
  · go_run [h₃, hb]
    exact agrees_ok _ _
  · cases e : slice s (atLeast0 (dec64 start)) (atMost s.length stop) with
    | none =>
      go_run [h₃, hb, hs, e]
      trivial
    | some r =>
      go_run [h₃, hb, hs, e]
      exact agrees_ok _ _

theorem go_substring : Agrees (goSubstring.call n args b) (builtinSubstring args b) := by
  match args with
  | [] => exact agrees_err _ _
  | [a] => cases a <;> exact agrees_err _ _
  | [.str s, .num x] =>
    have hf := F64.toInt_range x
    show Agrees _ (substringCore s x.toInt s.length b)
    refine go_substringTail (b := b) (st := (((((goStart [.str s, .num x] b).set .str (.val (.str s))).set .start (.int x.toInt)).set .«end» (.int s.length)).set .start (.int (wrap64 (x.toInt - 1)))).set .«end» (.int s.length))
      (wrap64_dec hf.1 hf.2) rfl rfl rfl rfl
  | [.str s, .num x, .num y] =>
    have hf := F64.toInt_range x
    have hg := F64.toInt_range y
    show Agrees _ (substringCore s x.toInt (dec64 y.toInt) b)
    rw [← wrap64_dec hg.1 hg.2]
    refine go_substringTail (b := b) (st := ((((((goStart [.str s, .num x, .num y] b).set .str (.val (.str s))).set .start (.int x.toInt)).set .«end» (.int s.length)).set .«end» (.int y.toInt)).set .start (.int (wrap64 (x.toInt - 1)))).set .«end» (.int (wrap64 (y.toInt - 1))))
      (wrap64_dec hf.1 hf.2) rfl rfl rfl rfl
  | [.str _, .num _, .str _] => exact agrees_err _ _
  | [.str _, .num _, .sym _] => exact agrees_err _ _
  | [.str _, .num _, .list _] => exact agrees_err _ _
  | [.str _, .str _] => exact agrees_err _ _
  | [.str _, .sym _] => exact agrees_err _ _
  | [.str _, .list _] => exact agrees_err _ _
  | [.str _, .str _, _] => exact agrees_err _ _
  | [.str _, .sym _, _] => exact agrees_err _ _
  | [.str _, .list _, _] => exact agrees_err _ _
  | [.num _, _] => exact agrees_err _ _
  | [.sym _, _] => exact agrees_err _ _
  | [.list _, _] => exact agrees_err _ _
  | [.num _, _, _] => exact agrees_err _ _
  | [.sym _, _, _] => exact agrees_err _ _
  | [.list _, _, _] => exact agrees_err _ _
  | a :: d :: e :: f :: as =>
    have l : 3 < (((a :: d :: e :: f :: as).length : Nat) : Int) := by simp; omega
    unfold goSubstring
    go_run [l, intDec_ofNat]
    have : builtinSubstring (a :: d :: e :: f :: as) b = fail (arity b! "substring" b! "2 or 3 arguments" (a :: d :: e :: f :: as).length) b := by
      have l' : ¬ ((e :: f :: as).length ≤ 1) := by simp
      cases a <;> cases d <;> simp [builtinSubstring]
    rw [this]
    exact agrees_err _ _

/-! ### concat -/

/-- The body of the loop of concat. -/
def concatBody : GoS := (GoS.seq (.if_ (.not (.call1 .isString (.var .arg)))
      (.ret .nil (.errorf1 (b! "concat expects string arguments, got non-string at position ") (.bin .add (.var .i) (.int 1))))
      .skip) <|
    .seq (.set .str (.assert .isString (.var .arg))) <|
    (.set .result (.bin .add (.var .result) (.value (.var .str)))))

theorem loop_concat : ∀ (vs : List Value) (k : Nat) (st : GoSt) (r : Bytes), st.vars .result = .str r → vs.length + k < 4611686018427387904 →
    match concatLoop k vs with
    | .ok s => ∃ st', goRange (fun st => concatBody.exec n st) .i .arg k vs st = .next st' ∧ st'.buf = st.buf ∧ st'.vars .result = .str (r ++ s)
    | .error e => goRange (fun st => concatBody.exec n st) .i .arg k vs st = .ret .nil (.err e) st.buf := by
  intro vs
  induction vs with
  | nil => intro k st r h _; exact ⟨st, rfl, rfl, by rw [h, List.append_nil]⟩
  | cons v vs ih =>
    intro k st r h hk
    rw [List.length_cons] at hk
    have bad : ∀ w : Value, GoF.isString.kind w = .ok false → concatBody.exec n ((st.set .i (.int k)).set .arg (.val w))
        = .ret .nil (.err (b! "concat expects string arguments, got non-string at position " ++ natDec (k + 1))) st.buf := by
      intro w hw
      have e : intDec ((k : Int) + 1) = natDec (k + 1) := intDec_ofNat (k + 1)
      unfold concatBody
      go_run [hw, wrap64_eq, e]
    cases v with
    | str s =>
      rw [concatLoop]
      have good : concatBody.exec n ((st.set .i (.int k)).set .arg (.val (.str s)))
        = .next (((((st.set .i (.int k)).set .arg (.val (.str s))).set .str (.val (.str s))).set .result (.str (r ++ s)))) := by
        unfold concatBody
        go_run [h]
      have := ih (k + 1) (((((st.set .i (.int k)).set .arg (.val (.str s))).set .str (.val (.str s))).set .result (.str (r ++ s)))) (r ++ s) rfl (by omega)
      unfold goRange
      rw [good]
      simp only [GoOut.next_andThen]
      cases hc : concatLoop (k + 1) vs with
      | ok t =>
        rw [hc] at this
        obtain ⟨st', h1, h2, h3⟩ := this
        exact ⟨st', h1, h2, by rw [h3, List.append_assoc]⟩
      | error e =>
        rw [hc] at this
        exact this
    | num x => rw [concatLoop]; unfold goRange; rw [bad _ rfl]; rfl; nofun
    | sym x => rw [concatLoop]; unfold goRange; rw [bad _ rfl]; rfl; nofun
    | list x => rw [concatLoop]; unfold goRange; rw [bad _ rfl]; rfl; nofun

theorem go_concat (h : Machine args b) : Agrees (goConcat.call n args b) (builtinConcat args b) := by
  have hc := h.count
  have hw := loop_concat (n := n) args 0 ((goStart args b).set .result (.str [])) [] rfl (by omega)
  unfold builtinConcat
  show Agrees (GoOut.andThen (goRange (fun st => concatBody.exec n st) .i .arg 0 args ((goStart args b).set .result (.str []))) _) _
  cases hr : concatLoop 0 args with
  | ok s =>
    rw [hr] at hw
    obtain ⟨st', h1, h2, h3⟩ := hw
    rw [h1]
    go_run [h2, h3, List.nil_append]
    exact agrees_ok _ _
  | error e =>
    rw [hr] at hw
    rw [show _ = _ from hw]
    exact agrees_err _ _

/-! ### The helpers -/

/-- `Buffer.Insert(text)` as written in Go leaves the buffer `Buffer.insert` says. -/
theorem go_insertMethod {text : Bytes} {st : GoSt} (hc : st.buf.content.length < 4611686018427387904) (ht : text.length < 4611686018427387904)
    (hp : minInt ≤ st.buf.point ∧ st.buf.point ≤ maxInt) (hv : st.vars .text = .str text) :
    ∃ st', goInsertMethod.exec n st = .next st' ∧ st'.buf = st.buf.insert text := by
  unfold goInsertMethod Buffer.insert
  by_cases h₁ : st.buf.point ≤ 1
  · have e : st.buf.point ≤ (st.buf.content.length : Int) + 1 := by omega
    go_run [hv, h₁, wrap64_eq, List.nil_append, e]
    exact ⟨_, rfl, rfl⟩
  · by_cases h₂ : (st.buf.content.length : Int) + 1 < st.buf.point
    · have e : ¬ st.buf.point ≤ (st.buf.content.length : Int) + 1 := by omega
      go_run [hv, h₁, wrap64_eq (x := (st.buf.content.length : Int) + 1), h₂, e]
      exact ⟨_, rfl, rfl⟩
    · have e : st.buf.point ≤ (st.buf.content.length : Int) + 1 := by omega
      have s₁ := sliceTo_some (c := st.buf.content) (i := st.buf.point - 1) (by omega)
      have s₂ := sliceFrom_some (c := st.buf.content) (i := st.buf.point - 1) (by omega)
      go_run [hv, h₁, wrap64_eq, h₂, e, s₁, s₂, List.nil_append]
      exact ⟨_, rfl, rfl⟩

/-- `isLetter(ch)` as written in Go says what `isLetter` says. -/
theorem go_isLetter {ch : UInt8} {st : GoSt} (hv : st.vars .ch = .byte ch) :
    goIsLetter.exec n st = .ret (.bool (isLetter ch)) .nil st.buf := by
  have ge : ∀ a d : UInt8, GoOp.apply .ge (.byte a) (.byte d) = .ok (.bool (decide (d ≤ a))) := fun _ _ => rfl
  have le : ∀ a d : UInt8, GoOp.apply .le (.byte a) (.byte d) = .ok (.bool (decide (a ≤ d))) := fun _ _ => rfl
  unfold goIsLetter isLetter
  simp only [exec_ret, GoE.eval, hv, GoR.ok_bind, GoR.ok_run, ge, le, goShort_and, goShort_or]

end Texted
