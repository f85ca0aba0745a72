import Verif.Model.Lawful
import Verif.Props.Frame
import Verif.Props.Kill
import Verif.Props.Evaluator
/- C01, C02: panics and points outside the buffer. -/
namespace Texted
variable [Ext]

/-! ### One call -/

/-- The ways a single command, started with point inside the buffer, can put point outside the buffer. -/
def LeavesBuffer (name : Bytes) (args : List Value) (b : Buffer) : Prop :=
  (name = b! "exchange-point-and-mark" ∧ args = [] ∧ ¬ (1 ≤ b.mark ∧ b.mark ≤ b.content.length + 1)) ∨
  (name = b! "beginning-of-line" ∧ args = [] ∧ b.content = []) ∨
  (name = b! "backward-char" ∧ ∃ n, CountArg args n ∧ (b.content.length : Int) + 1 < wrap64 (b.point - n))

/-- The only way a single command, started with point inside the buffer, can panic: `delete-char` with a count
that (in 64-bit arithmetic) reaches back before the start of the buffer. -/
def Panics (name : Bytes) (args : List Value) (b : Buffer) : Prop :=
  name = b! "delete-char" ∧ ∃ n, CountArg args n ∧ b.point ≤ b.content.length ∧ wrap64 (b.point - 1 + n) < 0

/-- No panic, and point inside the buffer. -/
def Good (r : Res Bytes Value × Buffer) : Prop := r.1 ≠ .panic ∧ InRange r.2

omit [Ext] in
theorem good_done {b : Buffer} (h : InRange b) : Good (done b) := ⟨by simp [done], h⟩
omit [Ext] in
theorem good_fail {b : Buffer} (h : InRange b) (m : Bytes) : Good (fail m b) := ⟨by simp [fail], h⟩
omit [Ext] in
theorem good_ret {b : Buffer} (h : InRange b) (v : Value) : Good (ret v b) := ⟨by simp [ret], h⟩

omit [Ext] in
theorem good_noArgs {b : Buffer} (h : InRange b) {name args k} (hk : args = [] → Good k) : Good (noArgs name args b k) := by
  unfold noArgs; split
  · exact hk rfl
  · exact good_fail h _

omit [Ext] in
theorem good_oneStr {b : Buffer} (h : InRange b) {name args k} (hk : ∀ s, Good (k s)) : Good (oneStr name args b k) := by
  unfold oneStr; split
  · exact hk _
  · exact good_fail h _
  · exact good_fail h _

theorem good_oneNum {b : Buffer} (h : InRange b) {name args k} (hk : ∀ s, Good (k s)) : Good (oneNum name args b k) := by
  unfold oneNum; split
  · exact hk _
  · exact good_fail h _
  · exact good_fail h _

theorem good_withCount {b : Buffer} (h : InRange b) {name args k} (hk : ∀ n, CountArg args n → Good (k n)) :
    Good (withCount name args b k) := by
  unfold withCount optCount
  split
  · rename_i n hn
    split at hn
    · cases hn; exact hk 1 (.inl ⟨rfl, rfl⟩)
    · cases hn; exact hk _ (.inr ⟨_, rfl, rfl⟩)
    · cases hn
    · cases hn
  · exact good_fail h _

omit [Ext] in
theorem good_splice {b : Buffer} (i j : Nat) (t : Bytes) (p : Int) (hi : i ≤ b.content.length) (hj : j ≤ b.content.length)
    (h1 : 1 ≤ p) (h2 : p ≤ i + t.length + (b.content.length - j : Nat) + 1) : Good (spliceOr b i t j p) := by
  rw [spliceOr_eq _ _ _ _ _ hi hj]
  refine ⟨by simp [okEmpty], h1, ?_⟩
  simp only [List.length_append, List.length_take, List.length_drop]
  omega

omit [Ext] in
theorem good_point {b : Buffer} {p : Int} (h1 : 1 ≤ p) (h2 : p ≤ b.content.length + 1) : Good (done { b with point := p }) :=
  good_done ⟨h1, h2⟩


section
variable {b : Buffer} (h : InRange b) (args : List Value)
include h

omit [Ext] in
theorem point_off : ∃ p : Nat, b.point = p + 1 ∧ p ≤ b.content.length ∧ dec64 b.point = (p : Int) := by
  obtain ⟨p, hpt, hle⟩ := h.exists
  exact ⟨p, hpt, hle, by rw [hpt, dec64_succ]⟩

theorem good_backward_char (hl : ¬ LeavesBuffer b! "backward-char" args b) : Good (call b! "backward-char" args b) := by
  rw [call_backward_char]
  refine good_withCount h fun n hn => ?_
  have : ¬ ((b.content.length : Int) + 1 < wrap64 (b.point - n)) := fun hh => hl (.inr (.inr ⟨rfl, n, hn, hh⟩))
  simp only []
  split
  · exact good_point (by omega) (by omega)
  · exact good_point (by omega) (by omega)

theorem good_forward_char : Good (call b! "forward-char" args b) := by
  rw [call_forward_char]
  refine good_withCount h fun n hn => ?_
  simp only []
  split
  · exact good_point (by omega) (by omega)
  · split
    · exact good_point (by omega) (by omega)
    · exact good_point (by omega) (by omega)

theorem good_backward_word : Good (call b! "backward-word" args b) := by
  rw [call_backward_word]
  obtain ⟨p, hpt, hle, hd⟩ := point_off h
  refine good_withCount h fun n hn => ?_
  obtain ⟨k, hk, _, hkle⟩ := bwdWords_spec b.content n.toNat p hle
  simp only [hd, hk]
  rw [incPos_le _ _ (by omega)]
  exact good_point (by omega) (by omega)

theorem good_forward_word : Good (call b! "forward-word" args b) := by
  rw [call_forward_word]
  obtain ⟨p, hpt, hle, hd⟩ := point_off h
  refine good_withCount h fun n hn => ?_
  obtain ⟨k, hk, _, _, hkle⟩ := fwdWords_spec b.content n.toNat p hle
  simp only [hd, hk]
  rw [incPos_le _ _ (by omega)]
  exact good_point (by omega) (by omega)

theorem good_beginning_of_buffer : Good (call b! "beginning-of-buffer" args b) := by
  rw [call_beginning_of_buffer]
  exact good_noArgs h fun _ => good_point (by omega) (by omega)

theorem good_end_of_buffer : Good (call b! "end-of-buffer" args b) := by
  rw [call_end_of_buffer]
  exact good_noArgs h fun _ => good_point (by omega) (by omega)

theorem good_beginning_of_line (hl : ¬ LeavesBuffer b! "beginning-of-line" args b) : Good (call b! "beginning-of-line" args b) := by
  rw [call_beginning_of_line]
  obtain ⟨p, hpt, hle, hd⟩ := point_off h
  refine good_noArgs h fun ha => ?_
  have hc : 0 < b.content.length := by
    rcases Nat.eq_zero_or_pos b.content.length with h0 | h0
    · exact absurd (.inr (.inl ⟨rfl, ha, List.length_eq_zero_iff.1 h0⟩)) hl
    · exact h0
  simp only [hd]
  rw [if_neg (by omega)]
  have : ∃ q : Nat, (if (p : Int) ≥ (b.content.length : Int) then (b.content.length : Int) - 1 else p) = q ∧ q ≤ b.content.length := by
    split
    · exact ⟨b.content.length - 1, by omega, by omega⟩
    · exact ⟨p, rfl, hle⟩
  obtain ⟨q, hq, hqle⟩ := this
  rw [hq]
  obtain ⟨k, hk, hks⟩ := scanBack_spec b.content (· == nl) q hqle
  have := hks.1
  simp only [hk]
  exact good_point (by omega) (by omega)

theorem good_end_of_line : Good (call b! "end-of-line" args b) := by
  rw [call_end_of_line]
  obtain ⟨p, hpt, hle, hd⟩ := point_off h
  refine good_noArgs h fun ha => ?_
  simp only [hd, atLeast0_eq, Int.toNat_natCast]
  split
  · exact good_point (by omega) (by omega)
  · obtain ⟨k, hk, hks⟩ := scanFwd_spec b.content (· == nl) p hle
    have := hks.2.1
    simp only [hk]
    exact good_point (by omega) (by omega)

theorem good_goto_char : Good (call b! "goto-char" args b) := by
  rw [call_goto_char]
  refine good_oneNum h fun n => ?_
  split
  · exact good_point (by omega) (by omega)
  · split
    · exact good_point (by omega) (by omega)
    · exact good_point (by omega) (by omega)

theorem good_goto_line : Good (call b! "goto-line" args b) := by
  rw [call_goto_line]
  refine good_oneNum h fun n => ?_
  have hlen := splitByte_length b.content
  obtain ⟨q, hq, hqle, _⟩ := lineOffset_spec b.content
    ((if n < 1 then 1 else if n > ((splitByte nl b.content).length : Int) then ((splitByte nl b.content).length : Int) else n) - 1).toNat
    (by split <;> first | omega | (split <;> omega))
  simp only [hq]
  exact good_point (by omega) (by omega)

theorem good_search_forward : Good (call b! "search-forward" args b) := by
  rw [call_search_forward]
  obtain ⟨p, hpt, hle, hd⟩ := point_off h
  refine good_oneStr h fun s => ?_
  simp only [hd, atLeast0_eq, Int.toNat_natCast]
  split
  · exact good_fail h _
  · rw [sliceFrom_eq _ _ hle]
    simp only []
    split
    · exact good_fail h _
    · rename_i i hi
      have := (indexOf_some hi).1.le
      simp only [List.length_drop] at this
      exact good_done ⟨by show (1:Int) ≤ p + i + 1 + s.length; omega, by show (p:Int) + i + 1 + s.length ≤ b.content.length + 1; omega⟩

theorem good_search_backward : Good (call b! "search-backward" args b) := by
  rw [call_search_backward]
  obtain ⟨p, hpt, hle, hd⟩ := point_off h
  refine good_oneStr h fun s => ?_
  simp only [hd, atMost_eq]
  rw [show min (p : Int) (b.content.length : Int) = p by omega]
  rw [if_neg (by omega), sliceTo_eq _ _ hle]
  simp only []
  split
  · exact good_fail h _
  · rename_i i hi
    have := (lastIndexOf_some hi).1.le
    simp only [List.length_take] at this
    exact good_done ⟨by show (1:Int) ≤ i + 1 + s.length; omega, by show (i:Int) + 1 + s.length ≤ b.content.length + 1; omega⟩

theorem good_re_search_forward [LawfulExt] : Good (call b! "re-search-forward" args b) := by
  rw [call_re_search_forward]
  obtain ⟨p, hpt, hle, hd⟩ := point_off h
  refine good_oneStr h fun s => ?_
  simp only [hd, atLeast0_eq, Int.toNat_natCast]
  split
  · exact good_fail h _
  · split
    · exact good_fail h _
    · rename_i re hre
      rw [sliceFrom_eq _ _ hle]
      simp only []
      split
      · exact good_fail h _
      · rename_i i j hij
        have hb := LawfulExt.find_bounds _ _ _ _ _ hre hij
        simp only [List.length_drop] at hb
        have : slice b.content ((p : Int) + i) ((p : Int) + j) = some ((b.content.drop (p + i)).take (p + j - (p + i))) := by
          have := slice_eq b.content (p + i) (p + j) (by omega) (by omega)
          simpa using this
        simp only [this]
        exact good_done ⟨by show (1:Int) ≤ p + j + 1; omega, by show (p:Int) + j + 1 ≤ b.content.length + 1; omega⟩

theorem good_re_search_backward [LawfulExt] : Good (call b! "re-search-backward" args b) := by
  rw [call_re_search_backward]
  obtain ⟨p, hpt, hle, hd⟩ := point_off h
  refine good_oneStr h fun s => ?_
  simp only [hd, atMost_eq]
  rw [show min (p : Int) (b.content.length : Int) = p by omega]
  rw [if_neg (by omega)]
  split
  · exact good_fail h _
  · rename_i re hre
    rw [sliceTo_eq _ _ hle]
    simp only []
    split
    · exact good_fail h _
    · rename_i i j hij
      have hb := LawfulExt.findAll_bounds _ _ _ _ _ hre (List.mem_of_getLast? hij)
      simp only [List.length_take] at hb
      rw [slice_eq _ _ _ hb.1 (by omega)]
      exact good_done ⟨by show (1:Int) ≤ j + 1; omega, by show (j:Int) + 1 ≤ b.content.length + 1; omega⟩

theorem good_replace_match : Good (call b! "replace-match" args b) := by
  rw [call_replace_match]
  refine good_oneStr h fun s => ?_
  simp only []
  split
  · exact good_fail h _
  · split
    · exact good_fail h _
    · rename_i hc
      obtain ⟨i, hi⟩ : ∃ i : Nat, b.lastStart - 1 = i := ⟨(b.lastStart - 1).toNat, by omega⟩
      obtain ⟨j, hj⟩ : ∃ j : Nat, b.lastEnd - 1 = j := ⟨(b.lastEnd - 1).toNat, by omega⟩
      rw [hi, hj]
      exact good_splice i j s _ (by omega) (by omega) (by omega) (by omega)

theorem good_set_mark : Good (call b! "set-mark" args b) := by
  rw [call_set_mark]; exact good_noArgs h fun _ => good_done h

theorem good_set_mark_command : Good (call b! "set-mark-command" args b) := by
  rw [call_set_mark_command]
  unfold builtinSetMarkCommand
  split
  · exact good_done h
  · exact good_done h
  · exact good_fail h _
  · exact good_fail h _

theorem good_exchange (hl : ¬ LeavesBuffer b! "exchange-point-and-mark" args b) :
    Good (call b! "exchange-point-and-mark" args b) := by
  rw [call_exchange_point_and_mark]
  refine good_noArgs h fun ha => ?_
  have : 1 ≤ b.mark ∧ b.mark ≤ b.content.length + 1 :=
    Classical.byContradiction fun hc => hl (.inl ⟨rfl, ha, hc⟩)
  exact good_done this

theorem good_mark_whole_buffer : Good (call b! "mark-whole-buffer" args b) := by
  rw [call_mark_whole_buffer]
  refine good_noArgs h fun ha => good_done ⟨?_, ?_⟩
  · show (1 : Int) ≤ b.content.length + 1; omega
  · show (b.content.length : Int) + 1 ≤ b.content.length + 1; omega

theorem good_mark_word : Good (call b! "mark-word" args b) := by
  rw [call_mark_word]
  obtain ⟨p, hpt, hle, hd⟩ := point_off h
  refine good_noArgs h fun ha => ?_
  simp only [hd]
  split
  · exact good_done h
  · obtain ⟨k, hk, hks⟩ := scanBack_spec b.content (fun x => !isLetter x) p hle
    obtain ⟨k', hk', hks'⟩ := scanFwd_spec b.content (fun x => !isLetter x) p hle
    simp only [hk, hk']
    have := hks'.2.1
    exact good_done ⟨by show (1 : Int) ≤ k' + 1; omega, by show (k' : Int) + 1 ≤ b.content.length + 1; omega⟩

theorem good_mark_line : Good (call b! "mark-line" args b) := by
  rw [call_mark_line]
  obtain ⟨p, hpt, hle, hd⟩ := point_off h
  refine good_withCount h fun n hn => ?_
  obtain ⟨k, hk, hks⟩ := scanBack_spec b.content (· == nl) p hle
  obtain ⟨k', hk', _, _, hle'⟩ := fwdLines_spec b.content n.toNat p hle
  simp only [hd, hk, hk']
  rw [incPos_le _ k' (by omega)]
  exact good_done ⟨by show (1 : Int) ≤ k' + 1; omega, by show (k' : Int) + 1 ≤ b.content.length + 1; omega⟩

theorem good_insert : Good (call b! "insert" args b) := by
  rw [call_insert]
  refine good_oneStr h fun s => ?_
  refine good_done ?_
  obtain ⟨h1, h2⟩ := h
  unfold Buffer.insert InRange
  simp only [if_pos h2]
  refine ⟨by omega, ?_⟩
  split
  · simp; omega
  · rw [if_neg (by omega)]
    simp; omega

omit [Ext] h in
theorem regionBounds_nat (b : Buffer) (hb : (regionBounds b).1 < (regionBounds b).2) :
    ∃ i j : Nat, regionBounds b = ((i : Int), (j : Int)) ∧ i < j ∧ j ≤ b.content.length := by
  have h1 : 0 ≤ (regionBounds b).1 := by simp only [regionBounds, atLeast0_eq]; omega
  have h2 : (regionBounds b).2 ≤ b.content.length := by simp only [regionBounds, atMost_eq]; omega
  refine ⟨(regionBounds b).1.toNat, (regionBounds b).2.toNat, ?_, by omega, by omega⟩
  apply Prod.ext <;> simp only [] <;> omega

theorem good_delete_region : Good (call b! "delete-region" args b) := by
  rw [call_delete_region]
  refine good_noArgs h fun _ => ?_
  simp only []
  split
  · exact good_done h
  · obtain ⟨i, j, e, h1, h2⟩ := regionBounds_nat b (by omega)
    rw [e]
    exact good_splice i j [] _ (by omega) (by omega) (by omega) (by simp; omega)

theorem good_replace_region : Good (call b! "replace-region" args b) := by
  rw [call_replace_region]
  refine good_oneStr h fun s => ?_
  simp only []
  split
  · exact good_done h
  · obtain ⟨i, j, e, h1, h2⟩ := regionBounds_nat b (by omega)
    rw [e]
    exact good_splice i j s _ (by omega) (by omega) (by simp only []; omega) (by simp only []; omega)

theorem good_delete_char (hp : ¬ Panics b! "delete-char" args b) : Good (call b! "delete-char" args b) := by
  rw [call_delete_char]
  obtain ⟨p, hpt, hle, hd⟩ := point_off h
  refine good_withCount h fun n hn => ?_
  simp only []
  split
  · exact good_done h
  · have : ¬ wrap64 (b.point - 1 + n) < 0 := fun hc => hp ⟨rfl, n, hn, by omega, hc⟩
    simp only [atMost_eq]
    obtain ⟨j, hj⟩ : ∃ j : Nat, min (wrap64 (b.point - 1 + n)) (b.content.length : Int) = j :=
      ⟨(min (wrap64 (b.point - 1 + n)) (b.content.length : Int)).toNat, by omega⟩
    rw [hj, show b.point - 1 = (p : Int) by omega]
    exact good_splice p j [] _ hle (by omega) (by omega) (by simp; omega)

theorem good_delete_backward_char : Good (call b! "delete-backward-char" args b) := by
  rw [call_delete_backward_char]
  obtain ⟨p, hpt, hle, hd⟩ := point_off h
  refine good_withCount h fun n hn => ?_
  simp only [hd, atLeast0_eq]
  split
  · exact good_done h
  · exact good_splice _ p [] _ (by omega) (by omega) (by omega) (by simp; omega)

theorem good_delete_line : Good (call b! "delete-line" args b) := by
  rw [call_delete_line]
  obtain ⟨p, hpt, hle, hd⟩ := point_off h
  refine good_withCount h fun n hn => ?_
  obtain ⟨k, hk, hks⟩ := scanBack_spec b.content (· == nl) p hle
  obtain ⟨k', hk', _, _, hle'⟩ := fwdLines_spec b.content n.toNat p hle
  have := hks.1
  simp only [hd, hk, hk']
  exact good_splice k k' [] _ (by omega) (by omega) (by omega) (by simp; omega)

theorem good_kill_line : Good (call b! "kill-line" args b) := by
  rw [call_kill_line]
  obtain ⟨p, hpt, hle, hd⟩ := point_off h
  refine good_withCount h fun n hn => ?_
  simp only [hd]
  split
  · exact good_done h
  · split
    · obtain ⟨k, hk, hks⟩ := scanFwd_spec b.content (· == nl) (p + 1) (by omega)
      rw [show ((p : Int) + 1) = ((p + 1 : Nat) : Int) by omega, hk]
      have := hks.2.1
      exact good_splice (p + 1) k [] _ (by omega) (by omega) (by omega) (by simp; omega)
    · obtain ⟨k', hk', _, _, hle'⟩ := fwdLines_spec b.content n.toNat p hle
      simp only [hk']
      exact good_splice p k' [] _ (by omega) (by omega) (by omega) (by simp; omega)

theorem good_kill_word : Good (call b! "kill-word" args b) := by
  rw [call_kill_word]
  obtain ⟨p, hpt, hle, hd⟩ := point_off h
  refine good_withCount h fun n hn => ?_
  obtain ⟨k, hk, _, _, hkle⟩ := fwdWords_spec b.content n.toNat p hle
  simp only [hd, hk]
  exact good_splice p k [] _ (by omega) (by omega) (by omega) (by simp; omega)

theorem good_backward_kill_word : Good (call b! "backward-kill-word" args b) := by
  rw [call_backward_kill_word]
  obtain ⟨p, hpt, hle, hd⟩ := point_off h
  refine good_withCount h fun n hn => ?_
  obtain ⟨k, hk, _, hkle⟩ := bwdWords_spec b.content n.toNat p hle
  simp only [hd, hk]
  rw [incPos_le _ p hle, atMost_eq]
  obtain ⟨j, hj⟩ : ∃ j : Nat, min ((p : Int) + 1) (b.content.length : Int) = j :=
    ⟨(min ((p : Int) + 1) (b.content.length : Int)).toNat, by omega⟩
  rw [hj]
  exact good_splice k j [] _ (by omega) (by omega) (by omega) (by simp; omega)

theorem good_looking_at : Good (call b! "looking-at" args b) := by
  rw [call_looking_at]
  obtain ⟨p, hpt, hle, hd⟩ := point_off h
  refine good_oneStr h fun s => ?_
  simp only [hd, sliceFrom_eq _ _ hle]
  split
  · exact good_ret h _
  · split
    · split <;> exact good_ret h _
    · split <;> exact good_ret h _

theorem good_looking_back : Good (call b! "looking-back" args b) := by
  rw [call_looking_back]
  obtain ⟨p, hpt, hle, hd⟩ := point_off h
  refine good_oneStr h fun s => ?_
  simp only [hd, sliceTo_eq _ _ hle]
  split
  · exact good_ret h _
  · split
    · split
      · split <;> exact good_ret h _
      · exact good_ret h _
    · split
      · split <;> exact good_ret h _
      · exact good_ret h _

omit [Ext] h in
theorem columnLoop_some (c : Bytes) (n : Nat) (hn : n ≤ c.length) : ∃ k, columnLoop c n = some k := by
  induction n with
  | zero => exact ⟨0, rfl⟩
  | succ n ih =>
    obtain ⟨k, hk⟩ := ih (by omega)
    simp only [columnLoop, List.getElem?_eq_getElem (show n < c.length by omega), hk]
    split
    · exact ⟨0, rfl⟩
    · exact ⟨k + 1, rfl⟩

theorem good_current_column : Good (call b! "current-column" args b) := by
  rw [call_current_column]
  obtain ⟨p, hpt, hle, hd⟩ := point_off h
  refine good_noArgs h fun _ => ?_
  simp only [hd]
  split
  · exact good_ret h _
  · obtain ⟨k, hk⟩ := columnLoop_some b.content
      ((if (p : Int) ≥ (b.content.length : Int) then (b.content.length : Int) - 1 else p) + 1).toNat (by split <;> omega)
    rw [hk]
    exact good_ret h _

theorem good_buffer_substring : Good (call b! "buffer-substring" args b) := by
  rw [call_buffer_substring]
  unfold builtinBufferSubstring
  split
  · rename_i x y
    simp only [atLeast0_eq, atMost_eq]
    generalize (dec64 x.toInt).toNat = i
    generalize dec64 (if y.toInt = -1 then (b.content.length : Int) + 1 else y.toInt) = z
    split
    · exact good_ret h _
    · rename_i hc
      obtain ⟨j, hj⟩ : ∃ j : Nat, min z (b.content.length : Int) = j :=
        ⟨_, (Int.toNat_of_nonneg (by omega)).symm⟩
      rw [hj] at hc ⊢
      rw [slice_eq _ i j (by omega) (by omega)]
      exact good_ret h _
  · exact good_fail h _
  · exact good_fail h _

omit [Ext] in
theorem good_substringCore (s : Bytes) (x y : Int) : Good (substringCore s x y b) := by
  unfold substringCore
  simp only [atLeast0_eq, atMost_eq]
  split
  · exact good_ret h _
  · rename_i hc
    obtain ⟨j, hj⟩ : ∃ j : Nat, min y (s.length : Int) = j := ⟨_, (Int.toNat_of_nonneg (by omega)).symm⟩
    rw [hj] at hc ⊢
    rw [slice_eq _ _ j (by omega) (by omega)]
    exact good_ret h _

theorem good_substring : Good (call b! "substring" args b) := by
  rw [call_substring]
  unfold builtinSubstring
  split
  · exact good_substringCore h _ _ _
  · exact good_substringCore h _ _ _
  · exact good_fail h _
  · split <;> exact good_fail h _
  · split <;> exact good_fail h _
  · exact good_fail h _

theorem good_string_match : Good (call b! "string-match" args b) := by
  rw [call_string_match]
  unfold builtinStringMatch
  (repeat' split) <;> first | exact good_ret h _ | exact good_fail h _

theorem good_replace_regexp_in_string : Good (call b! "replace-regexp-in-string" args b) := by
  rw [call_replace_regexp_in_string]
  unfold builtinReplaceRegexpInString
  (repeat' split) <;> first | exact good_ret h _ | exact good_fail h _

theorem good_concat : Good (call b! "concat" args b) := by
  rw [call_concat]
  unfold builtinConcat
  split
  · exact good_ret h _
  · exact good_fail h _

theorem good_capitalize : Good (call b! "capitalize" args b) := by
  rw [call_capitalize]
  refine good_oneStr h fun s => ?_
  cases s <;> exact good_ret h _

/-- The functions with a single success branch. -/
theorem good_simple (name : Bytes) (hn : name ∈ [b! "point", b! "mark", b! "point-min", b! "point-max", b! "buffer-size",
    b! "line-number-at-pos", b! "region-beginning", b! "region-end", b! "length", b! "upcase", b! "downcase"]) :
    Good (call name args b) := by
  simp only [List.mem_cons, List.not_mem_nil, or_false] at hn
  rcases hn with rfl | rfl | rfl | rfl | rfl | rfl | rfl | rfl | rfl | rfl | rfl
  · rw [call_point]; exact good_noArgs h fun _ => good_ret h _
  · rw [call_mark]; exact good_noArgs h fun _ => good_ret h _
  · rw [call_point_min]; exact good_noArgs h fun _ => good_ret h _
  · rw [call_point_max]; exact good_noArgs h fun _ => good_ret h _
  · rw [call_buffer_size]; exact good_noArgs h fun _ => good_ret h _
  · rw [call_line_number_at_pos]; exact good_noArgs h fun _ => good_ret h _
  · rw [call_region_beginning]; exact good_noArgs h fun _ => good_ret h _
  · rw [call_region_end]; exact good_noArgs h fun _ => good_ret h _
  · rw [call_length]; exact good_oneStr h fun _ => good_ret h _
  · rw [call_upcase]; exact good_oneStr h fun _ => good_ret h _
  · rw [call_downcase]; exact good_oneStr h fun _ => good_ret h _

end

theorem good_call [LawfulExt] (name : Bytes) (args : List Value) (b : Buffer) (h : InRange b)
    (hl : ¬ LeavesBuffer name args b) (hp : ¬ Panics name args b) : Good (call name args b) := by
  by_cases hn : name ∈ allNames
  · each_name hn
    · exact good_insert h args
    · exact good_goto_char h args
    · exact good_goto_line h args
    · exact good_search_forward h args
    · exact good_search_backward h args
    · exact good_re_search_forward h args
    · exact good_end_of_buffer h args
    · exact good_set_mark h args
    · exact good_simple h args _ (by decide)
    · exact good_simple h args _ (by decide)
    · exact good_simple h args _ (by decide)
    · exact good_replace_match h args
    · exact good_delete_region h args
    · exact good_buffer_substring h args
    · exact good_mark_word h args
    · exact good_replace_region h args
    · exact good_simple h args _ (by decide)
    · exact good_simple h args _ (by decide)
    · exact good_forward_char h args
    · exact good_simple h args _ (by decide)
    · exact good_substring h args
    · exact good_string_match h args
    · exact good_backward_char h args hl
    · exact good_beginning_of_buffer h args
    · exact good_beginning_of_line h args hl
    · exact good_end_of_line h args
    · exact good_simple h args _ (by decide)
    · exact good_simple h args _ (by decide)
    · exact good_simple h args _ (by decide)
    · exact good_current_column h args
    · exact good_simple h args _ (by decide)
    · exact good_simple h args _ (by decide)
    · exact good_capitalize h args
    · exact good_concat h args
    · exact good_set_mark_command h args
    · exact good_exchange h args hl
    · exact good_mark_whole_buffer h args
    · exact good_delete_char h args hp
    · exact good_delete_backward_char h args
    · exact good_forward_word h args
    · exact good_backward_word h args
    · exact good_looking_at h args
    · exact good_looking_back h args
    · exact good_mark_line h args
    · exact good_delete_line h args
    · exact good_kill_line h args
    · exact good_kill_word h args
    · exact good_backward_kill_word h args
    · exact good_re_search_backward h args
    · exact good_replace_regexp_in_string h args
  · rw [call_unknown name hn]; exact ⟨by simp, h⟩

/-! ### Exactness for one call -/

/-- A call made with point inside the buffer panics exactly in the one listed case. -/
theorem C01_panic_iff [LawfulExt] (name : Bytes) (args : List Value) (b : Buffer) (h : InRange b) :
    (call name args b).1 = .panic ↔ Panics name args b := by
  constructor
  · intro hc
    refine Classical.byContradiction fun hp => ?_
    by_cases hl : LeavesBuffer name args b
    · rcases hl with ⟨rfl, rfl, _⟩ | ⟨rfl, rfl, he⟩ | ⟨rfl, n, hn, _⟩
      · simp [call_exchange_point_and_mark, builtinExchangePointAndMark, noArgs, done] at hc
      · obtain ⟨p, hpt, hle, hd⟩ := point_off h
        have h0 : p = 0 := by rw [he] at hle; simpa using hle
        subst h0
        simp [call_beginning_of_line, builtinBeginningOfLine, noArgs, done, hd, he, scanBack] at hc
      · simp [call_backward_char, builtinBackwardChar, withCount_of hn, done] at hc
    · exact (good_call name args b h hl hp).1 hc
  · rintro ⟨rfl, n, hn, hle, hw⟩
    obtain ⟨p, hpt, _, hd⟩ := point_off h
    rw [call_delete_char]
    unfold builtinDeleteChar
    rw [withCount_of hn, if_neg (by omega)]
    simp only [atMost_eq, spliceOr]
    have hs : sliceFrom b.content (min (wrap64 (b.point - 1 + n)) (b.content.length : Int)) = none := by
      unfold sliceFrom; rw [if_neg (by omega)]
    rw [hs]
    split
    · rename_i heq; cases heq
    · rfl

/-- A call made with point inside the buffer leaves point outside exactly in the three listed cases. -/
theorem C02_leaves_iff [LawfulExt] (name : Bytes) (args : List Value) (b : Buffer) (h : InRange b) :
    ¬ InRange (call name args b).2 ↔ LeavesBuffer name args b := by
  constructor
  · intro hc
    refine Classical.byContradiction fun hl => ?_
    by_cases hp : Panics name args b
    · have hp' := hp
      obtain ⟨rfl, n, hn, hle, hw⟩ := hp
      have : (call b! "delete-char" args b).2 = b := by
        have hx := (C01_panic_iff _ _ _ h).2 hp'
        revert hx
        rw [call_delete_char]
        unfold builtinDeleteChar
        rw [withCount_of hn]
        simp only [spliceOr]
        split
        · simp [done]
        · split <;> simp [done, crash]
      rw [this] at hc
      exact hc h
    · exact hc (good_call name args b h hl hp).2
  · rintro (⟨rfl, rfl, hm⟩ | ⟨rfl, rfl, he⟩ | ⟨rfl, n, hn, hw⟩)
    · exact hm
    · obtain ⟨p, hpt, hle, hd⟩ := point_off h
      have h0 : p = 0 := by rw [he] at hle; simpa using hle
      subst h0
      simp [call_beginning_of_line, builtinBeginningOfLine, noArgs, done, hd, he, scanBack, InRange]
    · rw [call_backward_char]
      unfold builtinBackwardChar
      rw [withCount_of hn]
      simp only [done, InRange]
      rw [if_neg (by omega)]
      omega

/-! ### Whole programs -/

mutual
/-- The calls made while evaluating an expression, in order: function name, evaluated arguments and the buffer the
function is called on. -/
def callLog (env : Env) : Value → Buffer → List (Bytes × List Value × Buffer)
  | .list (.sym f :: args), b =>
    match env f with
    | none => []
    | some _ => argLog env args b ++
      (match evalArgs env args b with
       | (.ok vs, b') => [(f, vs, b')]
       | _ => [])
  | _, _ => []
@[inherit_doc callLog]
def argLog (env : Env) : List Value → Buffer → List (Bytes × List Value × Buffer)
  | [], _ => []
  | a :: as, b => callLog env a b ++
    (match evalExpr env a b with
     | (.ok _, b') => argLog env as b'
     | _ => [])
end

/-- The calls made while running a program. -/
def progLog (env : Env) : List Value → Buffer → List (Bytes × List Value × Buffer)
  | [], _ => []
  | e :: es, b => callLog env e b ++
    (match evalExpr env e b with
     | (.ok _, b') => progLog env es b'
     | _ => [])

/-- None of the calls is one of the hazards. -/
def HazardFree (log : List (Bytes × List Value × Buffer)) : Prop :=
  ∀ c ∈ log, ¬ LeavesBuffer c.1 c.2.1 c.2.2 ∧ ¬ Panics c.1 c.2.1 c.2.2

theorem hazardFree_append {l l' : List (Bytes × List Value × Buffer)} : HazardFree (l ++ l') ↔ HazardFree l ∧ HazardFree l' := by
  unfold HazardFree
  constructor
  · intro h; exact ⟨fun c hc => h c (List.mem_append_left _ hc), fun c hc => h c (List.mem_append_right _ hc)⟩
  · rintro ⟨h1, h2⟩ c hc
    rcases List.mem_append.1 hc with hc | hc
    · exact h1 c hc
    · exact h2 c hc

mutual
theorem safe_expr [LawfulExt] : ∀ (e : Value) (b : Buffer), InRange b → HazardFree (callLog defaultEnv e b) →
    (evalExpr defaultEnv e b).1 ≠ .panic ∧ InRange (evalExpr defaultEnv e b).2 ∧ ∀ c ∈ callLog defaultEnv e b, InRange c.2.2
  | .str s, b, h, _ => ⟨by simp [evalExpr], h, by simp [callLog]⟩
  | .num s, b, h, _ => ⟨by simp [evalExpr], h, by simp [callLog]⟩
  | .sym s, b, h, _ => ⟨by simp [evalExpr], h, by simp [callLog]⟩
  | .list [], b, h, _ => ⟨by simp [evalExpr], h, by simp [callLog]⟩
  | .list (.str s :: args), b, h, _ => ⟨by simp [evalExpr], h, by simp [callLog]⟩
  | .list (.num s :: args), b, h, _ => ⟨by simp [evalExpr], h, by simp [callLog]⟩
  | .list (.list s :: args), b, h, _ => ⟨by simp [evalExpr], h, by simp [callLog]⟩
  | .list (.sym f :: args), b, h, hz => by
    have ih := safe_args args b h
    simp only [callLog] at hz ⊢
    simp only [evalExpr]
    cases hf : defaultEnv f with
    | none => exact ⟨by simp, h, by simp⟩
    | some fn =>
      simp only [hf] at hz
      have hz1 := hazardFree_append.1 hz
      obtain ⟨i1, i2, i3⟩ := ih hz1.1
      cases ha : evalArgs defaultEnv args b with
      | mk r b' =>
        rw [ha] at i1 i2
        cases r with
        | ok vs =>
          have hz2 := hz1.2
          rw [ha] at hz2
          have hc := hz2 (f, vs, b') (by simp)
          have hg := good_call f vs b' i2 hc.1 hc.2
          have e : call f vs b' = fn vs b' := by simp [call, hf]
          rw [e] at hg
          refine ⟨hg.1, hg.2, ?_⟩
          intro c hc
          simp only [List.mem_append, List.mem_singleton] at hc
          rcases hc with hc | rfl
          · exact i3 c hc
          · exact i2
        | err e => exact ⟨by simp, i2, by simpa using i3⟩
        | panic => exact absurd rfl i1
theorem safe_args [LawfulExt] : ∀ (as : List Value) (b : Buffer), InRange b → HazardFree (argLog defaultEnv as b) →
    (evalArgs defaultEnv as b).1 ≠ .panic ∧ InRange (evalArgs defaultEnv as b).2 ∧ ∀ c ∈ argLog defaultEnv as b, InRange c.2.2
  | [], b, h, _ => ⟨by simp [evalArgs], h, by simp [argLog]⟩
  | a :: as, b, h, hz => by
    have ih := safe_expr a b h
    have ih' := fun b' => safe_args as b'
    simp only [argLog] at hz ⊢
    simp only [evalArgs]
    have hz1 := hazardFree_append.1 hz
    obtain ⟨i1, i2, i3⟩ := ih hz1.1
    cases ha : evalExpr defaultEnv a b with
    | mk r b' =>
      rw [ha] at i1 i2
      cases r with
      | ok v =>
        have hz2 := hz1.2
        rw [ha] at hz2
        obtain ⟨j1, j2, j3⟩ := ih' b' i2 hz2
        have hj : ∀ c ∈ callLog defaultEnv a b ++ argLog defaultEnv as b', InRange c.2.2 := by
          intro c hc
          rcases List.mem_append.1 hc with hc | hc
          · exact i3 c hc
          · exact j3 c hc
        cases hb : evalArgs defaultEnv as b' with
        | mk r' b'' =>
          rw [hb] at j1 j2
          simp only [hb]
          cases r' with
          | ok vs => exact ⟨by simp, j2, hj⟩
          | err e => exact ⟨by simp, j2, hj⟩
          | panic => exact absurd rfl j1
      | err e => exact ⟨by simp, i2, by simpa using i3⟩
      | panic => exact absurd rfl i1
end

theorem safe_loop [LawfulExt] (w : List Value) : ∀ (es : List Value) (i : Nat) (v : Value) (b : Buffer), InRange b →
    HazardFree (progLog defaultEnv es b) →
    (evalLoopNoTrace defaultEnv w i v es b).1 ≠ .panic ∧ InRange (evalLoopNoTrace defaultEnv w i v es b).2 ∧
      ∀ c ∈ progLog defaultEnv es b, InRange c.2.2
  | [], i, v, b, h, _ => ⟨by simp [evalLoopNoTrace], h, by simp [progLog]⟩
  | e :: es, i, v, b, h, hz => by
    simp only [progLog] at hz ⊢
    simp only [evalLoopNoTrace]
    have hz1 := hazardFree_append.1 hz
    obtain ⟨i1, i2, i3⟩ := safe_expr e b h hz1.1
    cases ha : evalExpr defaultEnv e b with
    | mk r b' =>
      rw [ha] at i1 i2
      cases r with
      | ok v' =>
        have hz2 := hz1.2
        rw [ha] at hz2
        obtain ⟨j1, j2, j3⟩ := safe_loop w es (i + 1) v' b' i2 hz2
        refine ⟨j1, j2, ?_⟩
        intro c hc
        rcases List.mem_append.1 hc with hc | hc
        · exact i3 c hc
        · exact j3 c hc
      | err e => exact ⟨by simp, i2, by simpa using i3⟩
      | panic => exact absurd rfl i1

omit [Ext] in
theorem inRange_new (c : Bytes) : InRange (newBuffer c) := by
  constructor <;> simp [newBuffer]; omega

/-- A prefix of a program makes only calls that the program makes. -/
theorem progLog_prefix (env : Env) : ∀ (p q : List Value) (b : Buffer), ∀ c ∈ progLog env p b, c ∈ progLog env (p ++ q) b
  | [], q, b, c, hc => by simp [progLog] at hc
  | e :: p, q, b, c, hc => by
    simp only [List.cons_append, progLog] at hc ⊢
    rcases List.mem_append.1 hc with hc | hc
    · exact List.mem_append_left _ hc
    · refine List.mem_append_right _ ?_
      cases ha : evalExpr env e b with
      | mk r b' =>
        rw [ha] at hc
        cases r with
        | ok v => exact progLog_prefix env p q b' c hc
        | err m => simp at hc
        | panic => simp at hc

/-- What holds of C01: a program of any length and nesting, run on any text, does not panic unless one of the calls
it makes is one of the four listed hazards. (The hazards: `C01_false`; exact: `C01_program_exact`.) -/
theorem C01_hazard_free [LawfulExt] (prog : List Value) (text : Bytes)
    (h : HazardFree (progLog defaultEnv prog (newBuffer text))) : (eval defaultEnv prog (newBuffer text)).1 ≠ .panic :=
  (safe_loop prog prog 0 (.str []) (newBuffer text) (inRange_new text) h).1

/-- What holds of C02: as long as no hazardous call happens, point lies inside the buffer after every prefix of the
program and whenever a function is called. (The hazards: `C02_false`; exact: `C02_program_exact`.) -/
theorem C02_hazard_free [LawfulExt] (prog : List Value) (text : Bytes)
    (h : HazardFree (progLog defaultEnv prog (newBuffer text))) :
    (∀ k, InRange (eval defaultEnv (prog.take k) (newBuffer text)).2) ∧
      ∀ c ∈ progLog defaultEnv prog (newBuffer text), InRange c.2.2 := by
  refine ⟨fun k => ?_, (safe_loop prog prog 0 (.str []) (newBuffer text) (inRange_new text) h).2.2⟩
  refine (safe_loop (prog.take k) (prog.take k) 0 (.str []) (newBuffer text) (inRange_new text) ?_).2.1
  intro c hc
  refine h c ?_
  have := progLog_prefix defaultEnv (prog.take k) (prog.drop k) (newBuffer text) c hc
  rwa [List.take_append_drop] at this

/-! ### A syntactic criterion -/

/-- The largest count for which `delete-char` and `backward-char` are known to be safe. -/
def maxCount : Int := 4611686018427387904

mutual
/-- A program text that is safe by its form: it never calls `exchange-point-and-mark` or `beginning-of-line`, and calls
`backward-char` and `delete-char` only without argument or with a literal count between 0 and 2^62. Everything else is
allowed with arbitrary (computed, wrong, huge) arguments. -/
def SafeForm : Value → Prop
  | .list (.sym f :: args) => f ≠ b! "exchange-point-and-mark" ∧ f ≠ b! "beginning-of-line" ∧
      (f = b! "backward-char" ∨ f = b! "delete-char" → args = [] ∨ ∃ x, args = [.num x] ∧ 0 ≤ x.toInt ∧ x.toInt ≤ maxCount) ∧
      SafeForms args
  | _ => True
@[inherit_doc SafeForm]
def SafeForms : List Value → Prop
  | [] => True
  | a :: as => SafeForm a ∧ SafeForms as
end

/-- What the syntactic form guarantees about the calls made. -/
def SafeCall (c : Bytes × List Value × Buffer) : Prop :=
  c.1 ≠ b! "exchange-point-and-mark" ∧ c.1 ≠ b! "beginning-of-line" ∧
    (c.1 = b! "backward-char" ∨ c.1 = b! "delete-char" → ∃ n, CountArg c.2.1 n ∧ 0 ≤ n ∧ n ≤ maxCount)

mutual
theorem safeCall_expr (env : Env) : ∀ (e : Value) (b : Buffer), SafeForm e → ∀ c ∈ callLog env e b, SafeCall c
  | .str s, b, _, c, hc => by simp [callLog] at hc
  | .num s, b, _, c, hc => by simp [callLog] at hc
  | .sym s, b, _, c, hc => by simp [callLog] at hc
  | .list [], b, _, c, hc => by simp [callLog] at hc
  | .list (.str s :: args), b, _, c, hc => by simp [callLog] at hc
  | .list (.num s :: args), b, _, c, hc => by simp [callLog] at hc
  | .list (.list s :: args), b, _, c, hc => by simp [callLog] at hc
  | .list (.sym f :: args), b, hs, c, hc => by
    simp only [SafeForm] at hs
    obtain ⟨h1, h2, h3, h4⟩ := hs
    have ih := safeCall_args env args b h4
    simp only [callLog] at hc
    cases hf : env f with
    | none => simp [hf] at hc
    | some fn =>
      rw [hf] at hc
      rcases List.mem_append.1 hc with hc | hc
      · exact ih c hc
      · cases ha : evalArgs env args b with
        | mk r b' =>
          rw [ha] at hc
          cases r with
          | ok vs =>
            simp only [List.mem_singleton] at hc
            subst hc
            refine ⟨h1, h2, fun hf' => ?_⟩
            rcases h3 hf' with rfl | ⟨x, rfl, hx⟩
            · simp only [evalArgs, Prod.mk.injEq, Res.ok.injEq] at ha
              exact ⟨1, .inl ⟨ha.1.symm, rfl⟩, by omega, by simp only [maxCount]; omega⟩
            · simp only [evalArgs, evalExpr, Prod.mk.injEq, Res.ok.injEq] at ha
              exact ⟨x.toInt, .inr ⟨x, ha.1.symm, rfl⟩, hx⟩
          | err e => simp at hc
          | panic => simp at hc
theorem safeCall_args (env : Env) : ∀ (as : List Value) (b : Buffer), SafeForms as → ∀ c ∈ argLog env as b, SafeCall c
  | [], b, _, c, hc => by simp [argLog] at hc
  | a :: as, b, hs, c, hc => by
    simp only [SafeForms] at hs
    have ih := safeCall_expr env a b hs.1
    have ih' := fun b' => safeCall_args env as b' hs.2
    simp only [argLog] at hc
    rcases List.mem_append.1 hc with hc | hc
    · exact ih c hc
    · cases ha : evalExpr env a b with
      | mk r b' =>
        rw [ha] at hc
        cases r with
        | ok v => exact ih' b' c hc
        | err m => simp at hc
        | panic => simp at hc
end

theorem safeCall_prog (env : Env) : ∀ (es : List Value) (b : Buffer), SafeForms es → ∀ c ∈ progLog env es b, SafeCall c
  | [], b, _, c, hc => by simp [progLog] at hc
  | a :: as, b, hs, c, hc => by
    simp only [SafeForms] at hs
    simp only [progLog] at hc
    rcases List.mem_append.1 hc with hc | hc
    · exact safeCall_expr env a b hs.1 c hc
    · cases ha : evalExpr env a b with
      | mk r b' =>
        rw [ha] at hc
        cases r with
        | ok v => exact safeCall_prog env as b' hs.2 c hc
        | err m => simp at hc
        | panic => simp at hc

theorem countArg_unique {args : List Value} {n m : Int} (h : CountArg args n) (h' : CountArg args m) : n = m := by
  rcases h with ⟨rfl, rfl⟩ | ⟨x, rfl, rfl⟩
  · rcases h' with ⟨_, rfl⟩ | ⟨x, h, _⟩
    · rfl
    · cases h
  · rcases h' with ⟨h, _⟩ | ⟨y, h, rfl⟩
    · cases h
    · cases h; rfl

/-- A safe call on a buffer of realistic size with point inside is not a hazard. -/
theorem safeCall_no_hazard (c : Bytes × List Value × Buffer) (h : SafeCall c) (hb : (c.2.2.content.length : Int) < maxCount)
    (hr : InRange c.2.2) : ¬ LeavesBuffer c.1 c.2.1 c.2.2 ∧ ¬ Panics c.1 c.2.1 c.2.2 := by
  obtain ⟨h1, h2, h3⟩ := h
  obtain ⟨r1, r2⟩ := hr
  simp only [maxCount] at *
  constructor
  · rintro (⟨hn, _⟩ | ⟨hn, _⟩ | ⟨hn, n, ha, hw⟩)
    · exact h1 hn
    · exact h2 hn
    · obtain ⟨m, hm, hm0, hm1⟩ := h3 (.inl hn)
      obtain rfl := countArg_unique ha hm
      rw [wrap64_eq (by omega) (by omega)] at hw
      omega
  · rintro ⟨hn, n, ha, hle, hw⟩
    obtain ⟨m, hm, hm0, hm1⟩ := h3 (.inr hn)
    obtain rfl := countArg_unique ha hm
    rw [wrap64_eq (by omega) (by omega)] at hw
    omega

mutual
theorem hf_expr [LawfulExt] : ∀ (e : Value) (b : Buffer), InRange b →
    (∀ c ∈ callLog defaultEnv e b, SafeCall c ∧ (c.2.2.content.length : Int) < maxCount) → HazardFree (callLog defaultEnv e b)
  | .str s, b, _, _ => by simp [callLog, HazardFree]
  | .num s, b, _, _ => by simp [callLog, HazardFree]
  | .sym s, b, _, _ => by simp [callLog, HazardFree]
  | .list [], b, _, _ => by simp [callLog, HazardFree]
  | .list (.str s :: args), b, _, _ => by simp [callLog, HazardFree]
  | .list (.num s :: args), b, _, _ => by simp [callLog, HazardFree]
  | .list (.list s :: args), b, _, _ => by simp [callLog, HazardFree]
  | .list (.sym f :: args), b, h, hs => by
    have ih := hf_args args b h
    simp only [callLog] at hs ⊢
    cases hf : defaultEnv f with
    | none => simp [HazardFree]
    | some fn =>
      simp only [hf] at hs
      have h1 := ih fun c hc => hs c (List.mem_append_left _ hc)
      have h2 := safe_args args b h h1
      refine hazardFree_append.2 ⟨h1, ?_⟩
      cases ha : evalArgs defaultEnv args b with
      | mk r b' =>
        rw [ha] at h2 hs
        cases r with
        | ok vs =>
          intro c hc
          have := hs c (List.mem_append_right _ hc)
          simp only [List.mem_singleton] at hc
          subst hc
          exact safeCall_no_hazard _ this.1 this.2 h2.2.1
        | err e => simp [HazardFree]
        | panic => simp [HazardFree]
theorem hf_args [LawfulExt] : ∀ (as : List Value) (b : Buffer), InRange b →
    (∀ c ∈ argLog defaultEnv as b, SafeCall c ∧ (c.2.2.content.length : Int) < maxCount) → HazardFree (argLog defaultEnv as b)
  | [], b, _, _ => by simp [argLog, HazardFree]
  | a :: as, b, h, hs => by
    have ih := hf_expr a b h
    have ih' := fun b' => hf_args as b'
    simp only [argLog] at hs ⊢
    have h1 := ih fun c hc => hs c (List.mem_append_left _ hc)
    have h2 := safe_expr a b h h1
    refine hazardFree_append.2 ⟨h1, ?_⟩
    cases ha : evalExpr defaultEnv a b with
    | mk r b' =>
      rw [ha] at h2 hs
      cases r with
      | ok v => exact ih' b' h2.2.1 fun c hc => hs c (List.mem_append_right _ hc)
      | err e => simp [HazardFree]
      | panic => simp [HazardFree]
end

theorem hf_prog [LawfulExt] : ∀ (as : List Value) (b : Buffer), InRange b →
    (∀ c ∈ progLog defaultEnv as b, SafeCall c ∧ (c.2.2.content.length : Int) < maxCount) → HazardFree (progLog defaultEnv as b)
  | [], b, _, _ => by simp [progLog, HazardFree]
  | a :: as, b, h, hs => by
    simp only [progLog] at hs ⊢
    have h1 := hf_expr a b h fun c hc => hs c (List.mem_append_left _ hc)
    have h2 := safe_expr a b h h1
    refine hazardFree_append.2 ⟨h1, ?_⟩
    cases ha : evalExpr defaultEnv a b with
    | mk r b' =>
      rw [ha] at h2 hs
      cases r with
      | ok v => exact hf_prog as b' h2.2.1 fun c hc => hs c (List.mem_append_right _ hc)
      | err e => simp [HazardFree]
      | panic => simp [HazardFree]

/-- Programs that are safe by their form never panic and keep point inside the buffer, on every text, as long as the
text stays below 2^62 bytes. For the excluded forms this is false. -/
theorem C01_safe_form [LawfulExt] (prog : List Value) (text : Bytes) (h : SafeForms prog)
    (hm : ∀ c ∈ progLog defaultEnv prog (newBuffer text), (c.2.2.content.length : Int) < maxCount) :
    (eval defaultEnv prog (newBuffer text)).1 ≠ .panic ∧ ∀ k, InRange (eval defaultEnv (prog.take k) (newBuffer text)).2 := by
  have hz := hf_prog prog (newBuffer text) (inRange_new text)
    fun c hc => ⟨safeCall_prog defaultEnv prog (newBuffer text) h c hc, hm c hc⟩
  exact ⟨C01_hazard_free prog text hz, (C02_hazard_free prog text hz).1⟩

/-- A safe program with a search, edits and a computed argument. -/
def safeExample : List Value := [.list [.sym b! "search-forward", .str b! "b"],
  .list [.sym b! "replace-match", .list [.sym b! "concat", .str b! "x", .str b! "y"]], .list [.sym b! "delete-char"]]

example : SafeForms safeExample ∧ (eval defaultEnv safeExample (newBuffer b! "abc")).2.content = b! "axy" := by
  refine ⟨?_, rfl⟩
  simp [safeExample, SafeForms, SafeForm]

example : ∀ c ∈ progLog defaultEnv safeExample (newBuffer b! "abc"), (c.2.2.content.length : Int) < maxCount := by
  have : progLog defaultEnv safeExample (newBuffer b! "abc") =
      [(b! "search-forward", [.str b! "b"], newBuffer b! "abc"),
       (b! "concat", [.str b! "x", .str b! "y"], { newBuffer b! "abc" with point := 3, lastMatch := b! "b", lastStart := 2, lastEnd := 3 }),
       (b! "replace-match", [.str b! "xy"], { newBuffer b! "abc" with point := 3, lastMatch := b! "b", lastStart := 2, lastEnd := 3 }),
       (b! "delete-char", [], { newBuffer b! "axyc" with point := 4, lastMatch := b! "b", lastStart := 2, lastEnd := 3 })] := rfl
  rw [this]
  simp [newBuffer, maxCount]

/-! ### The properties as stated are false -/

/-- C01 as stated is false: on an empty buffer, beginning-of-line followed by forward-word panics ... -/
theorem C01_false_empty_text (h : ∀ (prog : List Value) (text : Bytes), (eval defaultEnv prog (newBuffer text)).1 ≠ .panic) : False :=
  h [.list [.sym b! "beginning-of-line"], .list [.sym b! "forward-word"]] [] rfl

/-- ... so does a stale mark after a deletion (non-empty text, no numbers involved) ... -/
theorem C01_false_stale_mark (h : ∀ (prog : List Value) (text : Bytes), (eval defaultEnv prog (newBuffer text)).1 ≠ .panic) : False :=
  h [.list [.sym b! "end-of-buffer"], .list [.sym b! "set-mark"], .list [.sym b! "delete-backward-char"],
     .list [.sym b! "exchange-point-and-mark"], .list [.sym b! "backward-word"]] b! "ab" rfl

/-- ... and a negative count for delete-char. -/
theorem C01_false_negative_count :
    (eval defaultEnv [.list [.sym b! "delete-char", numV (-1)]] (newBuffer b! "ab")).1 = .panic := rfl

/-- C02 as stated is false: point can end up at 0 ... -/
theorem C02_false_below : (eval defaultEnv [.list [.sym b! "beginning-of-line"]] (newBuffer [])).2.point = 0 := rfl

/-- ... or past the end of the buffer (backward-char with a negative count is not clamped above). -/
theorem C02_false_above :
    ¬ InRange (eval defaultEnv [.list [.sym b! "backward-char", numV (-5)]] (newBuffer b! "ab")).2 := by
  have : (eval defaultEnv [.list [.sym b! "backward-char", numV (-5)]] (newBuffer b! "ab")).2 =
      { newBuffer b! "ab" with point := 6 } := rfl
  rw [this]
  simp [InRange, newBuffer]

end Texted
