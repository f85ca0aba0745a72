import Verif.Lemmas.Go
import Verif.Lemmas.Index
/-
Each function of Model/GoSource without a loop computes what the model's definition says.
-/
namespace Texted
open Spec
variable [Ext] {n : Nat} {args : List Value} {b : Buffer}

theorem Spec.Machine.str {s : Bytes} (h : Machine args b) (e : args = [.str s]) : s.length < 4611686018427387904 := h.strings s (by simp [e])

omit [Ext] in
theorem atLeast0_range {x : Int} (h : x ≤ maxInt) : 0 ≤ atLeast0 x ∧ atLeast0 x ≤ maxInt := by unfold atLeast0; split <;> omega
omit [Ext] in
theorem atMost_range {m x : Int} (h : minInt ≤ x) (h' : 0 ≤ m) : minInt ≤ atMost m x ∧ atMost m x ≤ m := by unfold atMost; split <;> omega
omit [Ext] in
theorem sliceFrom_some {c : Bytes} {i : Int} (h : 0 ≤ i ∧ i ≤ c.length) : sliceFrom c i = some (c.drop i.toNat) := by simp [sliceFrom, h]
omit [Ext] in
theorem sliceTo_some {c : Bytes} {i : Int} (h : 0 ≤ i ∧ i ≤ c.length) : sliceTo c i = some (c.take i.toNat) := by simp [sliceTo, h]
omit [Ext] in
theorem go_slice_some {c : Bytes} {i j : Int} (h : 0 ≤ i ∧ i ≤ j ∧ j ≤ c.length) :
    slice c i j = some ((c.drop i.toNat).take (j - i).toNat) := by simp [slice, h]

theorem go_point : Agrees (goPoint.call n args b) (builtinPoint args b) := by
  refine go_noArgs _ rfl ?_
  exact agrees_ok _ _
theorem go_mark : Agrees (goMark.call n args b) (builtinMark args b) := go_noArgs _ rfl (agrees_ok _ _)
theorem go_setMark : Agrees (goSetMark.call n args b) (builtinSetMark args b) := go_noArgs _ rfl (agrees_ok _ _)
theorem go_exchange : Agrees (goExchangePointAndMark.call n args b) (builtinExchangePointAndMark args b) := go_noArgs _ rfl (agrees_ok _ _)
theorem go_beginningOfBuffer : Agrees (goBeginningOfBuffer.call n args b) (builtinBeginningOfBuffer args b) := go_noArgs _ rfl (agrees_ok _ _)
theorem go_pointMin : Agrees (goPointMin.call n args b) (builtinPointMin args b) := go_noArgs _ rfl (agrees_ok _ _)
theorem go_bufferSize : Agrees (goBufferSize.call n args b) (builtinBufferSize args b) := go_noArgs _ rfl (agrees_ok _ _)
theorem go_length : Agrees (goLength.call n args b) (builtinLength args b) := go_oneStr _ rfl rfl fun _ _ => agrees_ok _ _
theorem go_upcase : Agrees (goUpcase.call n args b) (builtinUpcase args b) := go_oneStr _ rfl rfl fun _ _ => agrees_ok _ _
theorem go_downcase : Agrees (goDowncase.call n args b) (builtinDowncase args b) := go_oneStr _ rfl rfl fun _ _ => agrees_ok _ _
theorem go_insert : Agrees (goInsert.call n args b) (builtinInsert args b) := go_oneStr _ rfl rfl fun _ _ => agrees_ok _ _
theorem go_pointMax (h : Machine args b) : Agrees (goPointMax.call n args b) (builtinPointMax args b) := by
  have := h.content
  refine go_noArgs _ rfl ?_
  go_run [wrap64_eq]
  exact agrees_ok _ _
theorem go_gotoChar (h : Machine args b) : Agrees (goGotoChar.call n args b) (builtinGotoChar args b) := by
  have := h.content
  refine go_oneNum _ rfl rfl ?_
  intro f hf
  go_run [wrap64_eq]
  split
  · exact agrees_ok _ _
  · split <;> exact agrees_ok _ _
theorem go_endOfBuffer (h : Machine args b) : Agrees (goEndOfBuffer.call n args b) (builtinEndOfBuffer args b) := by
  have := h.content
  refine go_noArgs _ rfl ?_
  go_run [wrap64_eq]
  exact agrees_ok _ _
theorem go_markWholeBuffer (h : Machine args b) : Agrees (goMarkWholeBuffer.call n args b) (builtinMarkWholeBuffer args b) := by
  have := h.content
  refine go_noArgs _ rfl ?_
  go_run [wrap64_eq]
  exact agrees_ok _ _
theorem go_regionBeginning : Agrees (goRegionBeginning.call n args b) (builtinRegionBeginning args b) := by
  refine go_noArgs _ rfl ?_
  go_run []
  split <;> exact agrees_ok _ _
theorem go_regionEnd : Agrees (goRegionEnd.call n args b) (builtinRegionEnd args b) := by
  refine go_noArgs _ rfl ?_
  go_run []
  split <;> exact agrees_ok _ _
theorem go_backwardChar : Agrees (goBackwardChar.call n args b) (builtinBackwardChar args b) := by
  refine go_withCount _ rfl rfl fun c h₁ h₂ _ => ?_
  go_run []
  split <;> exact agrees_ok _ _
theorem go_forwardChar (h : Machine args b) : Agrees (goForwardChar.call n args b) (builtinForwardChar args b) := by
  have := h.content
  refine go_withCount _ rfl rfl fun c h₁ h₂ _ => ?_
  go_run [wrap64_eq (x := (b.content.length : Int) + 1)]
  split
  · exact agrees_ok _ _
  · split <;> exact agrees_ok _ _


theorem go_searchForward (h : Machine args b) : Agrees (goSearchForward.call n args b) (builtinSearchForward args b) := by
  have hc := h.content
  have hp := h.point
  refine go_oneStr _ rfl rfl fun s hs => ?_
  have hl := h.str hs
  have hr := atLeast0_range (dec64_range hp.1 hp.2).2
  by_cases h₁ : atLeast0 (dec64 b.point) ≥ (b.content.length : Int)
  · go_run [wrap64_dec, h₁]
    exact agrees_err _ _
  · have e := sliceFrom_some (c := b.content) ⟨hr.1, by omega⟩
    cases hi : indexOf s (b.content.drop (atLeast0 (dec64 b.point)).toNat) with
    | none =>
      go_run [wrap64_dec, h₁, e, hi]
      exact agrees_err _ _
    | some i =>
      have hb := (indexOf_some hi).1.le
      rw [List.length_drop] at hb
      have e₀ : ¬ ((i : Int) = -1) := by omega
      go_run [wrap64_dec, h₁, e, hi, e₀, wrap64_eq]
      exact agrees_ok _ _

theorem go_searchBackward (h : Machine args b) : Agrees (goSearchBackward.call n args b) (builtinSearchBackward args b) := by
  have hc := h.content
  have hp := h.point
  refine go_oneStr _ rfl rfl fun s hs => ?_
  have hl := h.str hs
  have hr := atMost_range (m := b.content.length) (dec64_range hp.1 hp.2).1 (by omega)
  by_cases h₁ : atMost b.content.length (dec64 b.point) < 0
  · go_run [wrap64_dec, h₁]
    exact agrees_err _ _
  · have e := sliceTo_some (c := b.content) ⟨by omega, hr.2⟩
    cases hi : lastIndexOf s (b.content.take (atMost b.content.length (dec64 b.point)).toNat) with
    | none =>
      go_run [wrap64_dec, h₁, e, hi]
      exact agrees_err _ _
    | some i =>
      have hb := (lastIndexOf_some hi).1.le
      rw [List.length_take] at hb
      have e₀ : ¬ ((i : Int) = -1) := by omega
      go_run [wrap64_dec, h₁, e, hi, e₀, wrap64_eq]
      exact agrees_ok _ _

theorem go_replaceMatch (h : Machine args b) : Agrees (goReplaceMatch.call n args b) (builtinReplaceMatch args b) := by
  have hc := h.content
  have h₁ := h.lastStart
  have h₂ := h.lastEnd
  refine go_oneStr _ rfl rfl fun s hs => ?_
  have hl := h.str hs
  by_cases h₃ : b.lastMatch = []
  · go_run [h₃]
    exact agrees_err _ _
  · by_cases h₄ : (b.lastStart - 1 < 0 ∨ b.lastEnd - 1 > (b.content.length : Int)) ∨ b.lastStart - 1 ≥ b.lastEnd - 1
    · have h₅ := or_assoc.mp h₄
      go_run [h₃, wrap64_eq (x := b.lastStart - 1), wrap64_eq (x := b.lastEnd - 1), h₄, h₅]
      exact agrees_err _ _
    · have h₅ := mt or_assoc.mpr h₄
      have e₁ := sliceTo_some (c := b.content) (i := b.lastStart - 1) (by omega)
      have e₂ := sliceFrom_some (c := b.content) (i := b.lastEnd - 1) (by omega)
      go_run [h₃, wrap64_eq, h₄, h₅, e₁, e₂, spliceOr]
      exact agrees_ok _ _

/-- `start, end := mark, point; if start > end { start, end = end, start }; …` (delete-region and replace-region). -/
theorem go_region {rest : GoS} {k : Res Bytes Value × Buffer} {st : GoSt} (h : Machine args st.buf) 
    (hk : ∀ st' : GoSt, st'.buf = st.buf → st'.vars .str = st.vars .str → st'.vars .content = .str st.buf.content →
      st'.vars .start = .int (regionBounds st.buf).1 → st'.vars .«end» = .int (regionBounds st.buf).2 → Agrees (rest.exec n st') k) :
    Agrees ((.seq (.set .start (.buf .mark)) <|
  .seq (.set .«end» (.buf .point)) <|
  .seq (.if_ (.bin .gt (.var .start) (.var .«end»))
    (.set2 .start .«end» (.var .«end») (.var .start))
    .skip) <|
  .seq (.set .content (.buf .content)) <|
  .seq (.set .start (.bin .sub (.var .start) (.int 1))) <|
  .seq (.set .«end» (.bin .sub (.var .«end») (.int 1))) <|
  .seq (.if_ (.bin .lt (.var .start) (.int 0))
    (.set .start (.int 0))
    .skip) <|
  .seq (.if_ (.bin .gt (.var .«end») (.len (.var .content)))
    (.set .«end» (.len (.var .content)))
    .skip) rest : GoS).exec n st) k := by
  have hp := h.point
  have hm := h.mark
  by_cases hg : st.buf.mark > st.buf.point
  · go_run [wrap64_dec, hg]
    refine hk _ rfl rfl rfl ?_ ?_
    · simp [GoSt.set, regionBounds, hg]
    · simp [GoSt.set, regionBounds, hg]
  · go_run [wrap64_dec, hg]
    refine hk _ rfl rfl rfl ?_ ?_
    · simp [GoSt.set, regionBounds, hg]
    · simp [GoSt.set, regionBounds, hg]

theorem regionBounds_range (h : Machine args b) : 0 ≤ (regionBounds b).1 ∧ (regionBounds b).2 ≤ b.content.length := by
  unfold regionBounds atLeast0 atMost; dsimp only; constructor <;> split <;> omega

theorem go_deleteRegion (h : Machine args b) : Agrees (goDeleteRegion.call n args b) (builtinDeleteRegion args b) := by
  have hc := h.content
  have hr := regionBounds_range h
  refine go_noArgs _ rfl (go_region (args := args) h ?_)
  intro st e₁ _ e₂ e₃ e₄
  rw [goStart_buf] at *
  by_cases hg : (regionBounds b).1 ≥ (regionBounds b).2
  · go_run [e₁, e₂, e₃, e₄, hg]
    exact agrees_ok _ _
  · have s₁ := sliceTo_some (c := b.content) (i := (regionBounds b).1) (by omega)
    have s₂ := sliceFrom_some (c := b.content) (i := (regionBounds b).2) (by omega)
    go_run [e₁, e₂, e₃, e₄, hg, s₁, s₂, spliceOr, wrap64_eq, List.append_nil, List.nil_append]
    exact agrees_ok _ _

theorem go_replaceRegion (h : Machine args b) : Agrees (goReplaceRegion.call n args b) (builtinReplaceRegion args b) := by
  have hc := h.content
  have hr := regionBounds_range h
  refine go_oneStr _ rfl rfl fun s hs => ?_
  have hl := h.str hs
  refine go_region (args := args) h ?_
  intro st e₁ e₀ e₂ e₃ e₄
  rw [GoSt.set_buf, goStart_buf] at *
  rw [GoSt.set_vars, if_pos rfl] at e₀
  by_cases hg : (regionBounds b).1 ≥ (regionBounds b).2
  · go_run [e₁, e₂, e₃, e₄, hg]
    exact agrees_ok _ _
  · have s₁ := sliceTo_some (c := b.content) (i := (regionBounds b).1) (by omega)
    have s₂ := sliceFrom_some (c := b.content) (i := (regionBounds b).2) (by omega)
    go_run [e₀, e₁, e₂, e₃, e₄, hg, s₁, s₂, spliceOr, wrap64_eq, List.append_nil, List.nil_append]
    exact agrees_ok _ _

theorem go_deleteChar (h : Machine args b) : Agrees (goDeleteChar.call n args b) (builtinDeleteChar args b) := by
  have hc := h.content
  have hp := h.point
  refine go_withCount _ rfl rfl fun c h₁ h₂ _ => ?_
  by_cases hg : b.point < 1 ∨ b.point > (b.content.length : Int)
  · go_run [hg]
    exact agrees_ok _ _
  · have s₁ := sliceTo_some (c := b.content) (i := b.point - 1) (by omega)
    cases s₂ : sliceFrom b.content (atMost b.content.length (wrap64 (b.point - 1 + c))) with
    | none =>
      go_run [hg, wrap64_eq (x := b.point - 1), s₁, s₂, spliceOr]
      trivial
    | some r =>
      go_run [hg, wrap64_eq (x := b.point - 1), s₁, s₂, spliceOr, List.append_nil, List.nil_append]
      exact agrees_ok _ _

theorem go_deleteBackwardChar (h : Machine args b) : Agrees (goDeleteBackwardChar.call n args b) (builtinDeleteBackwardChar args b) := by
  have hc := h.content
  have hp := h.point
  refine go_withCount _ rfl rfl fun c h₁ h₂ _ => ?_
  have hr := atLeast0_range (wrap64_range (dec64 b.point - c)).2
  by_cases hg : atLeast0 (wrap64 (dec64 b.point - c)) ≥ dec64 b.point
  · go_run [wrap64_dec (x := b.point), hg]
    exact agrees_ok _ _
  · cases s₁ : sliceTo b.content (atLeast0 (wrap64 (dec64 b.point - c))) with
    | none =>
      go_run [hg, wrap64_dec (x := b.point), s₁, spliceOr]
      trivial
    | some q =>
      cases s₂ : sliceFrom b.content (dec64 b.point) with
      | none =>
        go_run [hg, wrap64_dec (x := b.point), s₁, s₂, spliceOr]
        trivial
      | some r =>
        have := dec64_range hp.1 hp.2
        go_run [hg, wrap64_dec (x := b.point), s₁, s₂, spliceOr, List.append_nil, List.nil_append, wrap64_eq (x := atLeast0 (wrap64 (dec64 b.point - c)) + 1)]
        exact agrees_ok _ _

theorem go_setMarkCommand : Agrees (goSetMarkCommand.call n args b) (builtinSetMarkCommand args b) := by
  match args with
  | [] => exact agrees_ok _ _
  | [.num f] => exact agrees_ok _ _
  | [.str _] => exact agrees_err _ _
  | [.sym _] => exact agrees_err _ _
  | [.list _] => exact agrees_err _ _
  | a :: a' :: as =>
    have e : 1 < (((a :: a' :: as).length : Int)) := by simp; omega
    unfold goSetMarkCommand
    go_run [e]
    cases a <;> exact agrees_err _ _

theorem go_capitalize : Agrees (goCapitalize.call n args b) (builtinCapitalize args b) := by
  refine go_oneStr _ rfl rfl fun s hs => ?_
  match s with
  | [] => exact agrees_ok _ _
  | x :: xs =>
    have e : ¬ (((x :: xs).length : Int) = 0) := by simp; omega
    have e₂ : sliceFrom (x :: xs) 1 = some xs := by simp [sliceFrom]; omega
    have e₃ : goAt (x :: xs) 0 = some x := rfl
    go_run [e, e₂, e₃]
    exact agrees_ok _ _

theorem go_bufferSubstring (h : Machine args b) : Agrees (goBufferSubstring.call n args b) (builtinBufferSubstring args b) := by
  have hc := h.content
  match args with
  | [] => exact agrees_err _ _
  | [a] => cases a <;> exact agrees_err _ _
  | [.num f, .num g] =>
    have hf := F64.toInt_range f
    have hg := F64.toInt_range g
    have a₀ : goAt [Value.num f, Value.num g] 0 = some (Value.num f) := rfl
    have a₁ : goAt [Value.num f, Value.num g] 1 = some (Value.num g) := rfl
    have l₁ : (([Value.num f, Value.num g].length : Nat) : Int) = 2 := rfl
    unfold goBufferSubstring builtinBufferSubstring
    by_cases h₁ : g.toInt = -1
    · by_cases hs : atMost (b.content.length : Int) (dec64 ((b.content.length : Int) + 1)) ≤ atLeast0 (dec64 f.toInt)
      · go_run [a₀, a₁, l₁, h₁, wrap64_eq (x := (b.content.length : Int) + 1), wrap64_dec, hs]
        exact agrees_ok _ _
      · cases e : slice b.content (atLeast0 (dec64 f.toInt)) (atMost (b.content.length : Int) (dec64 ((b.content.length : Int) + 1))) with
        | none =>
          go_run [a₀, a₁, l₁, h₁, wrap64_eq (x := (b.content.length : Int) + 1), wrap64_dec, hs, e]
          trivial
        | some r =>
          go_run [a₀, a₁, l₁, h₁, wrap64_eq (x := (b.content.length : Int) + 1), wrap64_dec, hs, e]
          exact agrees_ok _ _
    · by_cases hs : atMost (b.content.length : Int) (dec64 g.toInt) ≤ atLeast0 (dec64 f.toInt)
      · go_run [a₀, a₁, l₁, h₁, wrap64_dec, hs]
        exact agrees_ok _ _
      · cases e : slice b.content (atLeast0 (dec64 f.toInt)) (atMost (b.content.length : Int) (dec64 g.toInt)) with
        | none =>
          go_run [a₀, a₁, l₁, h₁, wrap64_dec, hs, e]
          trivial
        | some r =>
          go_run [a₀, a₁, l₁, h₁, wrap64_dec, hs, e]
          exact agrees_ok _ _
  | [.num _, .str _] => exact agrees_err _ _
  | [.num _, .sym _] => exact agrees_err _ _
  | [.num _, .list _] => exact agrees_err _ _
  | [.str _, a] => cases a <;> exact agrees_err _ _
  | [.sym _, a] => cases a <;> exact agrees_err _ _
  | [.list _, a] => cases a <;> exact agrees_err _ _
  | a :: a' :: a'' :: as =>
    have e : ¬ (((a :: a' :: a'' :: as).length : Int) = 2) := by simp; omega
    unfold goBufferSubstring
    go_run [e]
    cases a <;> cases a' <;> exact agrees_err _ _

theorem go_stringMatch : Agrees (goStringMatch.call n args b) (builtinStringMatch args b) := by
  match args with
  | [] => exact agrees_err _ _
  | [a] => cases a <;> exact agrees_err _ _
  | [.str p, .str s] =>
    have a₀ : goAt [Value.str p, Value.str s] 0 = some (Value.str p) := rfl
    have a₁ : goAt [Value.str p, Value.str s] 1 = some (Value.str s) := rfl
    have l₁ : (([Value.str p, Value.str s].length : Nat) : Int) = 2 := rfl
    unfold goStringMatch builtinStringMatch
    cases hc : Ext.compile p with
    | error e =>
      cases hi : indexOf p s with
      | none =>
        go_run [a₀, a₁, l₁, hi, call_compile_error hc, hc]
        exact agrees_ok _ _
      | some i =>
        have e₀ : ¬ ((i : Int) = -1) := by omega
        go_run [a₀, a₁, l₁, hi, call_compile_error hc, hc, e₀]
        exact agrees_ok _ _
    | ok re =>
      cases hf : re.find s with
      | none =>
        go_run [a₀, a₁, l₁, call_compile_ok hc, hc, call_find_none hf, hf]
        exact agrees_ok _ _
      | some m =>
        obtain ⟨i, j⟩ := m
        go_run [a₀, a₁, l₁, call_compile_ok hc, hc, call_find_some hf, hf]
        exact agrees_ok _ _
  | [.str _, .num _] => exact agrees_err _ _
  | [.str _, .sym _] => exact agrees_err _ _
  | [.str _, .list _] => exact agrees_err _ _
  | [.num _, a] => cases a <;> exact agrees_err _ _
  | [.sym _, a] => cases a <;> exact agrees_err _ _
  | [.list _, a] => cases a <;> exact agrees_err _ _
  | a :: a' :: a'' :: as =>
    have e : ¬ (((a :: a' :: a'' :: as).length : Int) = 2) := by simp; omega
    unfold goStringMatch
    go_run [e]
    cases a <;> cases a' <;> exact agrees_err _ _

theorem go_replaceRegexpInString : Agrees (goReplaceRegexpInString.call n args b) (builtinReplaceRegexpInString args b) := by
  match args with
  | [] => exact agrees_err _ _
  | [a] => cases a <;> exact agrees_err _ _
  | [a, a'] => cases a <;> cases a' <;> exact agrees_err _ _
  | [.str p, .str r, .str s] =>
    have a₀ : goAt [Value.str p, Value.str r, Value.str s] 0 = some (Value.str p) := rfl
    have a₁ : goAt [Value.str p, Value.str r, Value.str s] 1 = some (Value.str r) := rfl
    have a₂ : goAt [Value.str p, Value.str r, Value.str s] 2 = some (Value.str s) := rfl
    have l₁ : (([Value.str p, Value.str r, Value.str s].length : Nat) : Int) = 3 := rfl
    unfold goReplaceRegexpInString builtinReplaceRegexpInString
    cases hc : Ext.compile p with
    | error e =>
      go_run [a₀, a₁, a₂, l₁, call_compile_error hc, hc]
      exact agrees_err _ _
    | ok re =>
      go_run [a₀, a₁, a₂, l₁, call_compile_ok hc, hc]
      exact agrees_ok _ _
  | [.str _, .str _, .num _] => exact agrees_err _ _
  | [.str _, .str _, .sym _] => exact agrees_err _ _
  | [.str _, .str _, .list _] => exact agrees_err _ _
  | [.str _, .num _, a] => cases a <;> exact agrees_err _ _
  | [.str _, .sym _, a] => cases a <;> exact agrees_err _ _
  | [.str _, .list _, a] => cases a <;> exact agrees_err _ _
  | [.num _, a, a'] => cases a <;> cases a' <;> exact agrees_err _ _
  | [.sym _, a, a'] => cases a <;> cases a' <;> exact agrees_err _ _
  | [.list _, a, a'] => cases a <;> cases a' <;> exact agrees_err _ _
  | a :: a' :: a'' :: d :: as =>
    have e : ¬ (((a :: a' :: a'' :: d :: as).length : Int) = 3) := by simp; omega
    unfold goReplaceRegexpInString
    go_run [e]
    cases a <;> cases a' <;> cases a'' <;> exact agrees_err _ _

theorem go_lookingAt (h : Machine args b) : Agrees (goLookingAt.call n args b) (builtinLookingAt args b) := by
  have hp := h.point
  refine go_oneStr _ rfl rfl fun s hs => ?_
  by_cases h₁ : dec64 b.point < 0 ∨ (b.content.length : Int) ≤ dec64 b.point
  · go_run [wrap64_dec, h₁]
    exact agrees_ok _ _
  · have e := sliceFrom_some (c := b.content) (i := dec64 b.point) (by omega)
    cases hc : Ext.compile s with
    | error e' =>
      by_cases hx : hasPrefix (b.content.drop (dec64 b.point).toNat) s
      · go_run [wrap64_dec, h₁, e, call_compile_error hc, hc, hx]
        exact agrees_ok _ _
      · go_run [wrap64_dec, h₁, e, call_compile_error hc, hc, hx]
        exact agrees_ok _ _
    | ok re =>
      cases hf : re.find (b.content.drop (dec64 b.point).toNat) with
      | none =>
        go_run [wrap64_dec, h₁, e, call_compile_ok hc, hc, call_find_none hf, hf]
        exact agrees_ok _ _
      | some m =>
        obtain ⟨i, j⟩ := m
        cases i with
        | zero =>
          go_run [wrap64_dec, h₁, e, call_compile_ok hc, hc, call_find_some hf, hf]
          exact agrees_ok _ _
        | succ i =>
          have e₀ : ¬ (((i + 1 : Nat) : Int) = 0) := by omega
          go_run [wrap64_dec, h₁, e, call_compile_ok hc, hc, call_find_some hf, hf, e₀, true_and]
          exact agrees_ok _ _

theorem go_lookingBack (h : Machine args b) : Agrees (goLookingBack.call n args b) (builtinLookingBack args b) := by
  have hp := h.point
  refine go_oneStr _ rfl rfl fun s hs => ?_
  by_cases h₁ : dec64 b.point ≤ 0
  · go_run [wrap64_dec, h₁]
    exact agrees_ok _ _
  · cases hc : Ext.compile s with
    | error e' =>
      by_cases hl : (s.length : Int) ≤ dec64 b.point
      · have hl' : iLe (s.length : Int) (dec64 b.point) = true := by rw [iLe_true]; exact hl
        cases e : sliceTo b.content (dec64 b.point) with
        | none =>
          go_run [wrap64_dec, h₁, e, call_compile_error hc, hc, hl, hl']
          trivial
        | some area =>
          by_cases hx : hasSuffix area s
          · go_run [wrap64_dec, h₁, e, call_compile_error hc, hc, hx, hl, hl', and_self, and_true, true_and]
            exact agrees_ok _ _
          · go_run [wrap64_dec, h₁, e, call_compile_error hc, hc, hx, hl, hl', and_false, and_true]
            exact agrees_ok _ _
      · have hl' : iLe (s.length : Int) (dec64 b.point) = false := by
          rw [← Bool.not_eq_true, iLe_true]; exact hl
        go_run [wrap64_dec, h₁, call_compile_error hc, hc, hl, hl']
        exact agrees_ok _ _
    | ok re =>
      cases e : sliceTo b.content (dec64 b.point) with
      | none =>
        go_run [wrap64_dec, h₁, e, call_compile_ok hc, hc]
        trivial
      | some area =>
        cases hf : re.find area with
        | none =>
          go_run [wrap64_dec, h₁, e, call_compile_ok hc, hc, call_find_none hf, hf]
          exact agrees_ok _ _
        | some m =>
          obtain ⟨i, j⟩ := m
          by_cases hj : j = area.length
          · have hj' : (j : Int) = area.length := by omega
            go_run [wrap64_dec, h₁, e, call_compile_ok hc, hc, call_find_some hf, hf, hj', hj, and_self, true_and]
            exact agrees_ok _ _
          · have hj' : ¬ ((j : Int) = area.length) := by omega
            go_run [wrap64_dec, h₁, e, call_compile_ok hc, hc, call_find_some hf, hf, hj', hj, and_false, true_and]
            exact agrees_ok _ _

theorem go_reSearchForward [LawfulExt] (h : Machine args b) : Agrees (goReSearchForward.call n args b) (builtinReSearchForward args b) := by
  have hb := h.content
  have hp := h.point
  refine go_oneStr _ rfl rfl fun s hs => ?_
  have hr := atLeast0_range (dec64_range hp.1 hp.2).2
  by_cases h₁ : (b.content.length : Int) ≤ atLeast0 (dec64 b.point)
  · go_run [wrap64_dec, h₁]
    exact agrees_err _ _
  · have e := sliceFrom_some (c := b.content) ⟨hr.1, by omega⟩
    cases hc : Ext.compile s with
    | error e' =>
      go_run [wrap64_dec, h₁, call_compile_error hc, hc]
      exact agrees_err _ _
    | ok re =>
      cases hf : re.find (b.content.drop (atLeast0 (dec64 b.point)).toNat) with
      | none =>
        go_run [wrap64_dec, h₁, e, call_compile_ok hc, hc, call_find_none hf, hf]
        exact agrees_err _ _
      | some m =>
        obtain ⟨i, j⟩ := m
        have hij := LawfulExt.find_bounds s re _ i j hc hf
        rw [List.length_drop] at hij
        have e₂ := go_slice_some (c := b.content) (i := atLeast0 (dec64 b.point) + i) (j := atLeast0 (dec64 b.point) + j) (by omega)
        have w₀ := wrap64_dec hp.1 hp.2
        have w₁ : wrap64 (atLeast0 (dec64 b.point) + i) = atLeast0 (dec64 b.point) + i := wrap64_eq (by omega) (by omega)
        have w₂ : wrap64 (atLeast0 (dec64 b.point) + j) = atLeast0 (dec64 b.point) + j := wrap64_eq (by omega) (by omega)
        have w₃ : wrap64 (atLeast0 (dec64 b.point) + i + 1) = atLeast0 (dec64 b.point) + i + 1 := wrap64_eq (by omega) (by omega)
        have w₄ : wrap64 (atLeast0 (dec64 b.point) + j + 1) = atLeast0 (dec64 b.point) + j + 1 := wrap64_eq (by omega) (by omega)
        go_run [w₀, h₁, e, call_compile_ok hc, hc, call_find_some hf, hf, e₂, w₁, w₂, w₃, w₄]
        exact agrees_ok _ _

set_option maxHeartbeats 1000000 in
theorem go_reSearchBackward [LawfulExt] (h : Machine args b) : Agrees (goReSearchBackward.call n args b) (builtinReSearchBackward args b) := by
  have hb := h.content
  have hp := h.point
  refine go_oneStr _ rfl rfl fun s hs => ?_
  have hr := atMost_range (m := b.content.length) (dec64_range hp.1 hp.2).1 (by omega)
  by_cases h₁ : atMost b.content.length (dec64 b.point) < 0
  · go_run [wrap64_dec, h₁]
    exact agrees_err _ _
  · have e := sliceTo_some (c := b.content) ⟨by omega, hr.2⟩
    cases hc : Ext.compile s with
    | error e' =>
      go_run [wrap64_dec, h₁, call_compile_error hc, hc]
      exact agrees_err _ _
    | ok re =>
      generalize ha : b.content.take (atMost b.content.length (dec64 b.point)).toNat = area at e
      cases hf : (re.findAll area).getLast? with
      | none =>
        have h0 : ((re.findAll area).length : Int) = 0 := by
          rw [List.getLast?_eq_none_iff.mp hf]; rfl
        go_run [wrap64_dec, h₁, e, call_compile_ok hc, hc, h0, hf]
        exact agrees_err _ _
      | some m =>
        obtain ⟨i, j⟩ := m
        have hm := List.mem_of_getLast? hf
        have hij := LawfulExt.findAll_bounds s re _ i j hc hm
        have hl : area.length ≤ b.content.length := by rw [← ha, List.length_take]; omega
        have h0 : ¬ (((re.findAll area).length : Int) = 0) := by
          have := List.length_pos_of_mem hm
          omega
        have hw : wrap64 (((re.findAll area).length : Int) - 1) = ((re.findAll area).length : Int) - 1 := by
          have := h.found s re area hc hl
          exact wrap64_eq (by omega) (by omega)
        have hat : goAt (re.findAll area) (((re.findAll area).length : Int) - 1) = some (i, j) := by
          have := List.length_pos_of_mem hm
          rw [goAt, if_neg (by omega), ← hf, List.getLast?_eq_getElem?]
          congr 1; omega
        have e₂ := go_slice_some (c := b.content) (i := i) (j := j) (by omega)
        have w₀ := wrap64_dec hp.1 hp.2
        have w₁ : wrap64 ((i : Int) + 1) = i + 1 := wrap64_eq (by omega) (by omega)
        have w₂ : wrap64 ((j : Int) + 1) = j + 1 := wrap64_eq (by omega) (by omega)
        go_run [w₀, h₁, e, call_compile_ok hc, hc, h0, hw, hat, hf, e₂, w₁, w₂]
        exact agrees_ok _ _

end Texted
