import Verif.Lemmas.GoLoops
/-
Each function of Model/GoSource with a loop computes what the model's definition says.
-/
namespace Texted
open Spec
variable [Ext] {n : Nat} {args : List Value} {b : Buffer}

omit [Ext] in
theorem wrap64_incPos {c : Bytes} {p : Int} (hl : c.length < 4611686018427387904) (h : minInt ≤ p) : wrap64 (p + 1) = incPos c p := by
  unfold incPos
  split
  · exact wrap64_eq (by omega) (by omega)
  · rfl

omit [Ext] in
theorem scanFwd_range {c : Bytes} {stop : UInt8 → Bool} {pos p : Int} (h : scanFwd c stop pos = some p) : pos ≤ p ∧ (p ≤ c.length ∨ p = pos) := by
  unfold scanFwd at h
  split at h
  · cases h; omega
  · split at h
    · cases h
    · have := (runLen_spec stop (c.drop pos.toNat)).1
      rw [List.length_drop] at this
      cases h; omega

omit [Ext] in
theorem scanBack_range {c : Bytes} {stop : UInt8 → Bool} {pos p : Int} (h : scanBack c stop pos = some p) : p ≤ pos ∧ (0 ≤ p ∨ p = pos) := by
  refine ⟨scanBack_le h, ?_⟩
  unfold scanBack at h
  split at h
  · cases h; omega
  · cases hk : scanBackN c stop pos.toNat with
    | none => rw [hk] at h; cases h
    | some k =>
      rw [hk] at h
      cases h
      left
      show (0 : Int) ≤ (k : Int)
      omega

theorem go_endOfLine (h : Machine args b) (hn : b.content.length < n) : Agrees (goEndOfLine.call n args b) (builtinEndOfLine args b) := by
  have hc := h.content
  have hp := h.point
  refine go_noArgs _ rfl ?_
  have hr := atLeast0_range (dec64_range hp.1 hp.2).2
  by_cases h₁ : (b.content.length : Int) ≤ atLeast0 (dec64 b.point)
  · go_run [wrap64_dec, h₁, wrap64_eq]
    exact agrees_ok _ _
  · go_run [wrap64_dec, h₁]
    rw [loop_fwd (c := b.content) (pos := atLeast0 (dec64 b.point)) (tests_fwd_line .pos) (by decide) hc hn rfl rfl]
    cases hs : scanFwd b.content (· == nl) (atLeast0 (dec64 b.point)) with
    | none => trivial
    | some p =>
      have := scanFwd_range hs
      unfold goMove
      go_run [wrap64_eq]
      exact agrees_ok _ _

theorem go_beginningOfLine (h : Machine args b) (hn : b.content.length < n) : Agrees (goBeginningOfLine.call n args b) (builtinBeginningOfLine args b) := by
  have hc := h.content
  have hp := h.point
  have hr := dec64_range hp.1 hp.2
  refine go_noArgs _ rfl ?_
  by_cases h₁ : dec64 b.point < 0
  · go_run [wrap64_dec, h₁]
    exact agrees_ok _ _
  · by_cases h₂ : (b.content.length : Int) ≤ dec64 b.point
    · go_run [wrap64_dec, h₁, h₂, wrap64_eq]
      rw [loop_back (c := b.content) (pos := (b.content.length : Int) - 1) (tests_back_line .pos) (by decide) hc hn (by omega) rfl rfl]
      cases hs : scanBack b.content (· == nl) ((b.content.length : Int) - 1) with
      | none => trivial
      | some p =>
        have := scanBack_range hs
        unfold goMove
        go_run [wrap64_eq]
        exact agrees_ok _ _
    · go_run [wrap64_dec, h₁, h₂]
      rw [loop_back (c := b.content) (pos := dec64 b.point) (tests_back_line .pos) (by decide) hc hn (by omega) rfl rfl]
      cases hs : scanBack b.content (· == nl) (dec64 b.point) with
      | none => trivial
      | some p =>
        have := scanBack_range hs
        unfold goMove
        go_run [wrap64_eq]
        exact agrees_ok _ _

theorem go_markWord (h : Machine args b) (hn : b.content.length < n) : Agrees (goMarkWord.call n args b) (builtinMarkWord args b) := by
  have hc := h.content
  have hp := h.point
  refine go_noArgs _ rfl ?_
  by_cases h₁ : dec64 b.point < 0 ∨ (b.content.length : Int) ≤ dec64 b.point
  · go_run [wrap64_dec, h₁]
    exact agrees_ok _ _
  · go_run [wrap64_dec, h₁]
    rw [loop_back (c := b.content) (pos := dec64 b.point) (tests_back_letter .start) (by decide) hc hn (by omega) rfl rfl]
    cases hs : scanBack b.content (fun x => !isLetter x) (dec64 b.point) with
    | none => trivial
    | some p =>
      have := scanBack_range hs
      unfold goMove
      go_run [wrap64_dec, h₁]
      rw [loop_fwd (c := b.content) (pos := dec64 b.point) (tests_fwd_letter .«end») (by decide) hc hn rfl rfl]
      cases hs' : scanFwd b.content (fun x => !isLetter x) (dec64 b.point) with
      | none => trivial
      | some q =>
        have := scanFwd_range hs'
        unfold goMove
        go_run [wrap64_eq]
        exact agrees_ok _ _


omit [Ext] in
theorem fwdWords_range {c : Bytes} : ∀ {k : Nat} {pos p : Int}, fwdWords c k pos = some p → pos ≤ p ∧ (p ≤ c.length ∨ p = pos) := by
  intro k
  induction k with
  | zero => intro pos p h; cases h; omega
  | succ k ih =>
    intro pos p h
    rw [fwdWords] at h
    split at h
    · split at h
      · cases h
      · rename_i q hq
        split at h
        · cases h
        · rename_i r hr
          have a := scanFwd_range hq
          have d := scanFwd_range hr
          have e := ih h
          omega
    · cases h; omega

omit [Ext] in
theorem bwdWords_range {c : Bytes} : ∀ {k : Nat} {pos p : Int}, bwdWords c k pos = some p → p ≤ pos ∧ (0 ≤ p ∨ p = pos) := by
  intro k
  induction k with
  | zero => intro pos p h; cases h; omega
  | succ k ih =>
    intro pos p h
    rw [bwdWords] at h
    split at h
    · split at h
      · cases h
      · rename_i q hq
        split at h
        · cases h
        · rename_i r hr
          have a := scanBack_range hq
          have d := scanBack_range hr
          have e := ih h
          omega
    · cases h; omega

omit [Ext] in
theorem fwdLines_range {c : Bytes} : ∀ {k : Nat} {pos p : Int}, fwdLines c k pos = some p → pos ≤ p ∧ (p ≤ c.length ∨ p = pos) := by
  intro k
  induction k with
  | zero => intro pos p h; cases h; omega
  | succ k ih =>
    intro pos p h
    rw [fwdLines] at h
    split at h
    · cases h
    · rename_i q hq
      have e := ih h
      rw [lineStep] at hq
      split at hq
      · cases hq
      · rename_i r hr
        have a := scanFwd_range hr
        split at hq
        · rename_i hlt
          cases hq; omega
        · cases hq; omega

/-- The text, `count`, position and `i` of the state after the prologue. -/
macro "counts" : term => `(⟨rfl, rfl, rfl, rfl⟩)

theorem go_forwardWord (h : Machine args b) (hn : b.content.length < n) : Agrees (goForwardWord.call n args b) (builtinForwardWord args b) := by
  have hc := h.content
  have hp := h.point
  have hr := dec64_range hp.1 hp.2
  refine go_withCount _ rfl rfl fun c h₁ h₂ _ => ?_
  go_run [wrap64_dec]
  have hw := loop_words (n := n) (count := c) (pos := dec64 b.point) hc hn h₂ (st := ((((goStart args b).set .count (.int c)).set .content (.str b.content)).set .pos (.int (dec64 b.point))).set .i (.int 0)) counts
  cases hs : fwdWords b.content c.toNat (dec64 b.point) with
  | none =>
    rw [hs] at hw
    rw [show _ = _ from hw]
    trivial
  | some p =>
    rw [hs] at hw
    obtain ⟨j, hw⟩ := hw
    have hpr := fwdWords_range hs
    rw [hw]
    go_run [wrap64_incPos (p := p) hc (by omega)]
    exact agrees_ok _ _

theorem go_backwardWord (h : Machine args b) (hn : b.content.length < n) : Agrees (goBackwardWord.call n args b) (builtinBackwardWord args b) := by
  have hc := h.content
  have hp := h.point
  have hr := dec64_range hp.1 hp.2
  refine go_withCount _ rfl rfl fun c h₁ h₂ _ => ?_
  go_run [wrap64_dec]
  have hw := loop_words_back (n := n) (count := c) (pos := dec64 b.point) hc hn h₂ hr.2 (st := ((((goStart args b).set .count (.int c)).set .content (.str b.content)).set .pos (.int (dec64 b.point))).set .i (.int 0)) counts
  cases hs : bwdWords b.content c.toNat (dec64 b.point) with
  | none =>
    rw [hs] at hw
    rw [show _ = _ from hw]
    trivial
  | some p =>
    rw [hs] at hw
    obtain ⟨j, hw⟩ := hw
    have hpr := bwdWords_range hs
    rw [hw]
    go_run [wrap64_incPos (p := p) hc (by omega)]
    exact agrees_ok _ _

theorem go_killWord (h : Machine args b) (hn : b.content.length < n) : Agrees (goKillWord.call n args b) (builtinKillWord args b) := by
  have hc := h.content
  have hp := h.point
  have hr := dec64_range hp.1 hp.2
  refine go_withCount _ rfl rfl fun c h₁ h₂ _ => ?_
  go_run [wrap64_dec]
  have hw := loop_words (n := n) (count := c) (pos := dec64 b.point) hc hn h₂ (st := (((((goStart args b).set .count (.int c)).set .content (.str b.content)).set .startPos (.int (dec64 b.point))).set .pos (.int (dec64 b.point))).set .i (.int 0)) counts
  cases hs : fwdWords b.content c.toNat (dec64 b.point) with
  | none =>
    rw [hs] at hw
    rw [show _ = _ from hw]
    trivial
  | some p =>
    rw [hs] at hw
    obtain ⟨j, hw⟩ := hw
    rw [hw]
    cases s₁ : sliceTo b.content (dec64 b.point) with
    | none =>
      go_run [s₁, spliceOr]
      trivial
    | some q =>
      cases s₂ : sliceFrom b.content p with
      | none =>
        go_run [s₁, s₂, spliceOr]
        trivial
      | some r =>
        go_run [s₁, s₂, spliceOr, List.append_nil, List.nil_append]
        exact agrees_ok _ _

theorem go_backwardKillWord (h : Machine args b) (hn : b.content.length < n) : Agrees (goBackwardKillWord.call n args b) (builtinBackwardKillWord args b) := by
  have hc := h.content
  have hp := h.point
  have hr := dec64_range hp.1 hp.2
  refine go_withCount _ rfl rfl fun c h₁ h₂ _ => ?_
  go_run [wrap64_dec]
  have hw := loop_words_back (n := n) (count := c) (pos := dec64 b.point) hc hn h₂ hr.2 (st := (((((goStart args b).set .count (.int c)).set .content (.str b.content)).set .startPos (.int (dec64 b.point))).set .pos (.int (dec64 b.point))).set .i (.int 0)) counts
  cases hs : bwdWords b.content c.toNat (dec64 b.point) with
  | none =>
    rw [hs] at hw
    rw [show _ = _ from hw]
    trivial
  | some p =>
    rw [hs] at hw
    obtain ⟨j, hw⟩ := hw
    have hpr := bwdWords_range hs
    rw [hw]
    cases s₁ : sliceTo b.content p with
    | none =>
      go_run [s₁, spliceOr, wrap64_incPos (p := dec64 b.point) hc (by omega)]
      trivial
    | some q =>
      have hpl : p ≤ b.content.length := by unfold sliceTo at s₁; split at s₁ <;> first | omega | cases s₁
      cases s₂ : sliceFrom b.content (atMost b.content.length (incPos b.content (dec64 b.point))) with
      | none =>
        go_run [s₁, s₂, spliceOr, wrap64_incPos (p := dec64 b.point) hc (by omega)]
        trivial
      | some r =>
        go_run [s₁, s₂, spliceOr, wrap64_incPos (p := dec64 b.point) hc (by omega), wrap64_eq (x := p + 1), List.append_nil, List.nil_append]
        exact agrees_ok _ _

theorem go_markLine (h : Machine args b) (hn : b.content.length < n) (hn' : ∀ c, optCount b! "mark-line" args = .ok c → c.toNat < n) :
    Agrees (goMarkLine.call n args b) (builtinMarkLine args b) := by
  have hc := h.content
  have hp := h.point
  have hr := dec64_range hp.1 hp.2
  refine go_withCount _ rfl rfl fun c h₁ h₂ hcount => ?_
  go_run [wrap64_dec]
  rw [loop_back (c := b.content) (pos := dec64 b.point) (tests_back_line .lineStart) (by decide) hc hn hr.2 rfl rfl]
  cases hb : scanBack b.content (· == nl) (dec64 b.point) with
  | none => trivial
  | some l =>
    have := scanBack_range hb
    unfold goMove
    go_run []
    have hw := loop_lines (n := n) (count := c) (pos := dec64 b.point) hc hn h₂ (hn' c hcount)
      (st := ((((((((goStart args b).set .count (.int c)).set .content (.str b.content)).set .pos (.int (dec64 b.point))).set .lineStart (.int (dec64 b.point))).set .lineStart (.int l)).set .lineEnd (.int (dec64 b.point))).set .i (.int 0))) counts
    cases hs : fwdLines b.content c.toNat (dec64 b.point) with
    | none =>
      rw [hs] at hw
      rw [show _ = _ from hw]
      trivial
    | some p =>
      rw [hs] at hw
      obtain ⟨j, hw⟩ := hw
      have hpr := fwdLines_range hs
      rw [hw]
      go_run [wrap64_incPos (p := p) hc (by omega), wrap64_incPos (p := l) hc (by omega)]
      exact agrees_ok _ _

theorem go_deleteLine (h : Machine args b) (hn : b.content.length < n) (hn' : ∀ c, optCount b! "delete-line" args = .ok c → c.toNat < n) :
    Agrees (goDeleteLine.call n args b) (builtinDeleteLine args b) := by
  have hc := h.content
  have hp := h.point
  have hr := dec64_range hp.1 hp.2
  refine go_withCount _ rfl rfl fun c h₁ h₂ hcount => ?_
  go_run [wrap64_dec]
  rw [loop_back (c := b.content) (pos := dec64 b.point) (tests_back_line .lineStart) (by decide) hc hn hr.2 rfl rfl]
  cases hb : scanBack b.content (· == nl) (dec64 b.point) with
  | none => trivial
  | some l =>
    have := scanBack_range hb
    unfold goMove
    go_run []
    have hw := loop_lines (n := n) (count := c) (pos := dec64 b.point) hc hn h₂ (hn' c hcount)
      (st := ((((((((goStart args b).set .count (.int c)).set .content (.str b.content)).set .pos (.int (dec64 b.point))).set .lineStart (.int (dec64 b.point))).set .lineStart (.int l)).set .lineEnd (.int (dec64 b.point))).set .i (.int 0))) counts
    cases hs : fwdLines b.content c.toNat (dec64 b.point) with
    | none =>
      rw [hs] at hw
      rw [show _ = _ from hw]
      trivial
    | some p =>
      rw [hs] at hw
      obtain ⟨j, hw⟩ := hw
      rw [hw]
      cases s₁ : sliceTo b.content l with
      | none =>
        go_run [s₁, spliceOr]
        trivial
      | some q =>
        have hll : 0 ≤ l ∧ l ≤ b.content.length := by unfold sliceTo at s₁; split at s₁ <;> first | omega | cases s₁
        cases s₂ : sliceFrom b.content p with
        | none =>
          go_run [s₁, s₂, spliceOr]
          trivial
        | some r =>
          go_run [s₁, s₂, spliceOr, wrap64_eq (x := l + 1), List.append_nil, List.nil_append]
          exact agrees_ok _ _

theorem go_killLine (h : Machine args b) (hn : b.content.length < n) (hn' : ∀ c, optCount b! "kill-line" args = .ok c → c.toNat < n) :
    Agrees (goKillLine.call n args b) (builtinKillLine args b) := by
  have hc := h.content
  have hp := h.point
  have hr := dec64_range hp.1 hp.2
  refine go_withCount _ rfl rfl fun c h₁ h₂ hcount => ?_
  by_cases h₃ : dec64 b.point < 0 ∨ (b.content.length : Int) ≤ dec64 b.point
  · go_run [wrap64_dec, h₃]
    exact agrees_ok _ _
  · by_cases h₄ : c = 1
    · subst h₄
      go_run [wrap64_dec, h₃, wrap64_eq (x := dec64 b.point + 1)]
      rw [loop_fwd (c := b.content) (pos := dec64 b.point + 1) (tests_fwd_line .lineEnd) (by decide) hc hn rfl rfl]
      cases hs : scanFwd b.content (· == nl) (dec64 b.point + 1) with
      | none => trivial
      | some p =>
        have := scanFwd_range hs
        unfold goMove
        have s₁ := sliceTo_some (c := b.content) (i := dec64 b.point + 1) (by omega)
        have s₂ := sliceFrom_some (c := b.content) (i := p) (by omega)
        go_run [s₁, s₂, spliceOr, List.append_nil, List.nil_append]
        exact agrees_ok _ _
    · go_run [wrap64_dec, h₃, h₄]
      have hw := loop_lines (n := n) (count := c) (pos := dec64 b.point) hc hn h₂ (hn' c hcount)
        (st := ((((((((goStart args b).set .count (.int c)).set .content (.str b.content)).set .pos (.int (dec64 b.point))).set .startPos (.int 0)).set .lineEnd (.int 0)).set .startPos (.int (dec64 b.point))).set .lineEnd (.int (dec64 b.point))).set .i (.int 0)) counts
      cases hs : fwdLines b.content c.toNat (dec64 b.point) with
      | none =>
        rw [hs] at hw
        rw [show _ = _ from hw]
        trivial
      | some p =>
        rw [hs] at hw
        obtain ⟨j, hw⟩ := hw
        rw [hw]
        have := fwdLines_range hs
        have s₁ := sliceTo_some (c := b.content) (i := dec64 b.point) (by omega)
        have s₂ := sliceFrom_some (c := b.content) (i := p) (by omega)
        go_run [s₁, s₂, spliceOr, List.append_nil, List.nil_append]
        exact agrees_ok _ _

end Texted
