import Verif.Props.SafetyExact
/- C01, C02 without any assumption on where point is: which calls panic, and which calls bring point back. -/
namespace Texted
variable [Ext]

/-- Point lies before the buffer. -/
def Below (b : Buffer) : Prop := b.point < 1 ∧ b.point ≠ minInt

/-- Point lies behind the end of the buffer, or is the smallest int (the position before it is then the largest int). -/
def Beyond (b : Buffer) : Prop := (b.content.length : Int) + 1 < b.point ∨ (b.point = minInt ∧ (b.content.length : Int) < maxInt)

/-- The number before point, in 64-bit arithmetic: the largest int comes before the smallest. -/
def before (b : Buffer) : Int := if b.point = minInt then maxInt else b.point - 1

/-- All the ways a single call can panic, wherever point is: `delete-char` with a count that reaches back before the start of the text; and,
if point lies outside the buffer, the commands that do not look at the bounds before they index the text. -/
def PanicsAnywhere (name : Bytes) (args : List Value) (b : Buffer) : Prop :=
  (name = b! "delete-char" ∧ ∃ n, CountArg args n ∧ 1 ≤ b.point ∧ b.point ≤ b.content.length ∧ wrap64 (b.point - 1 + n) < 0) ∨
  (name = b! "forward-word" ∧ ∃ n, CountArg args n ∧ 1 ≤ n ∧ Below b) ∨
  (name = b! "backward-word" ∧ ∃ n, CountArg args n ∧ 1 ≤ n ∧ Beyond b) ∨
  (name = b! "mark-line" ∧ ∃ n, CountArg args n ∧ (Beyond b ∨ (1 ≤ n ∧ Below b))) ∨
  (name ∈ [b! "delete-line", b! "kill-word", b! "backward-kill-word"] ∧ (∃ n, CountArg args n) ∧ (Below b ∨ Beyond b)) ∨
  (name = b! "delete-backward-char" ∧ ∃ n, CountArg args n ∧ Beyond b ∧ wrap64 (before b - n) < before b) ∨
  (name = b! "looking-back" ∧ ∃ s, args = [.str s] ∧ Beyond b ∧ ((∃ re, Ext.compile s = .ok re) ∨ (s.length : Int) ≤ before b))

omit [Ext] in
theorem below_iff {b : Buffer} : Below b ↔ dec64 b.point < 0 := by
  unfold Below dec64; split <;> omega

omit [Ext] in
theorem beyond_iff {b : Buffer} : Beyond b ↔ (b.content.length : Int) < dec64 b.point := by
  unfold Beyond dec64; split <;> omega

/-- The call does not panic. -/
def NoPanic (r : Res Bytes Value × Buffer) : Prop := r.1 ≠ .panic

omit [Ext] in
theorem np_done (b : Buffer) : NoPanic (done b) := by simp [NoPanic, done]
omit [Ext] in
theorem np_fail (m : Bytes) (b : Buffer) : NoPanic (fail m b) := by simp [NoPanic, fail]
omit [Ext] in
theorem np_ret (v : Value) (b : Buffer) : NoPanic (ret v b) := by simp [NoPanic, ret]

omit [Ext] in
theorem np_noArgs {b : Buffer} {name args k} (hk : NoPanic k) : NoPanic (noArgs name args b k) := by
  unfold noArgs; split
  · exact hk
  · exact np_fail _ _

omit [Ext] in
theorem np_oneStr {b : Buffer} {name args k} (hk : ∀ s, args = [.str s] → NoPanic (k s)) : NoPanic (oneStr name args b k) := by
  unfold oneStr; split
  · exact hk _ rfl
  · exact np_fail _ _
  · exact np_fail _ _

theorem np_oneNum {b : Buffer} {name args k} (hk : ∀ s, NoPanic (k s)) : NoPanic (oneNum name args b k) := by
  unfold oneNum; split
  · exact hk _
  · exact np_fail _ _
  · exact np_fail _ _

theorem np_withCount {b : Buffer} {name args k} (hk : ∀ n, CountArg args n → NoPanic (k n)) : NoPanic (withCount name args b k) := by
  unfold withCount optCount
  split
  · rename_i n hn
    split at hn
    · cases hn; exact hk 1 (.inl ⟨rfl, rfl⟩)
    · cases hn; exact hk _ (.inr ⟨_, rfl, rfl⟩)
    · cases hn
    · cases hn
  · exact np_fail _ _

omit [Ext] in
theorem np_splice {b : Buffer} {i j : Int} (t : Bytes) (p : Int) (hi : 0 ≤ i) (hi' : i ≤ b.content.length) (hj : 0 ≤ j) (hj' : j ≤ b.content.length) :
    NoPanic (spliceOr b i t j p) := by
  obtain ⟨i, rfl⟩ : ∃ n : Nat, i = n := ⟨i.toNat, by omega⟩
  obtain ⟨j, rfl⟩ : ∃ n : Nat, j = n := ⟨j.toNat, by omega⟩
  rw [spliceOr_eq _ _ _ _ _ (by omega) (by omega)]
  simp [NoPanic, okEmpty]

omit [Ext] in
theorem splice_panics {b : Buffer} {i j : Int} (t : Bytes) (p : Int) (h : i < 0 ∨ (b.content.length : Int) < i ∨ (b.content.length : Int) < j) :
    (spliceOr b i t j p).1 = .panic := by
  unfold spliceOr sliceTo sliceFrom
  split
  · rename_i h1 h2
    split at h1
    · split at h2
      · omega
      · cases h2
    · cases h1
  · rfl

theorem count_panics {b : Buffer} {name args k} {P : Int → Prop} (hk : ∀ n, CountArg args n → ((k n).1 = .panic ↔ P n)) :
    (withCount name args b k).1 = .panic ↔ ∃ n, CountArg args n ∧ P n := by
  constructor
  · intro h
    refine Classical.byContradiction fun hn => ?_
    exact np_withCount (fun n hc hp => hn ⟨n, hc, (hk n hc).1 hp⟩) h
  · rintro ⟨n, hc, hp⟩
    rw [withCount_of hc]; exact (hk n hc).2 hp

omit [Ext] in
theorem iff_false_right {p q : Prop} (h : ¬ q) : (p ↔ q) ↔ ¬ p := ⟨fun e hp => h (e.1 hp), fun e => ⟨fun hp => absurd hp e, fun hq => absurd hq h⟩⟩

/-! ### The scans outside the buffer -/

omit [Ext] in
theorem scanBack_beyond (c : Bytes) (stop : UInt8 → Bool) (p : Int) (h : (c.length : Int) < p) : scanBack c stop p = none := by
  unfold scanBack
  rw [if_neg (by omega)]
  obtain ⟨n, hn⟩ : ∃ n, p.toNat = n + 1 := ⟨p.toNat - 1, by omega⟩
  rw [hn]
  have hc : c[n]? = none := List.getElem?_eq_none (by omega)
  simp only [scanBackN, hc, Option.map_none]

omit [Ext] in
theorem scanBack_below (c : Bytes) (stop : UInt8 → Bool) (p : Int) (h : p ≤ 0) : scanBack c stop p = some p := by
  unfold scanBack; rw [if_pos h]

omit [Ext] in
theorem scanFwd_beyond (c : Bytes) (stop : UInt8 → Bool) (p : Int) (h : (c.length : Int) ≤ p) : scanFwd c stop p = some p := by
  unfold scanFwd; rw [if_pos h]

omit [Ext] in
theorem scanFwd_below (c : Bytes) (stop : UInt8 → Bool) (p : Int) (h : p < 0) : scanFwd c stop p = none := by
  unfold scanFwd; rw [if_neg (by omega), if_pos h]

omit [Ext] in
theorem fwdWords_below (c : Bytes) (k : Nat) (p : Int) (h : p < 0) : fwdWords c k p = if k = 0 then some p else none := by
  cases k with
  | zero => rfl
  | succ k => simp only [fwdWords]; rw [if_pos (by omega), scanFwd_below _ _ _ h]; rfl

omit [Ext] in
theorem fwdWords_beyond (c : Bytes) (k : Nat) (p : Int) (h : (c.length : Int) < p) : fwdWords c k p = some p := by
  cases k with
  | zero => rfl
  | succ k => simp only [fwdWords]; rw [if_neg (by omega)]

omit [Ext] in
theorem bwdWords_below (c : Bytes) (k : Nat) (p : Int) (h : p < 0) : bwdWords c k p = some p := by
  cases k with
  | zero => rfl
  | succ k => simp only [bwdWords]; rw [if_neg (by omega)]

omit [Ext] in
theorem bwdWords_beyond (c : Bytes) (k : Nat) (p : Int) (h : (c.length : Int) < p) : bwdWords c k p = if k = 0 then some p else none := by
  cases k with
  | zero => rfl
  | succ k => simp only [bwdWords]; rw [if_pos (by omega), scanBack_beyond _ _ _ h]; rfl

omit [Ext] in
theorem lineStep_beyond (c : Bytes) (p : Int) (h : (c.length : Int) < p) : lineStep c p = some p := by
  simp only [lineStep, scanFwd_beyond _ _ p (by omega : (c.length : Int) ≤ p)]
  rw [if_neg (by omega)]

omit [Ext] in
theorem fwdLines_beyond (c : Bytes) (k : Nat) (p : Int) (h : (c.length : Int) < p) : fwdLines c k p = some p := by
  induction k with
  | zero => rfl
  | succ k ih => simp only [fwdLines, lineStep_beyond c p h, ih]

omit [Ext] in
theorem fwdLines_below (c : Bytes) (k : Nat) (p : Int) (h : p < 0) : fwdLines c k p = if k = 0 then some p else none := by
  cases k with
  | zero => rfl
  | succ k => simp only [fwdLines, lineStep, scanFwd_below _ _ _ h]; rfl

/-! ### The calls that look at point -/

section
variable (args : List Value) (b : Buffer)

theorem np_backward_word : (call b! "backward-word" args b).1 = .panic ↔ ∃ n, CountArg args n ∧ 1 ≤ n ∧ Beyond b := by
  rw [call_backward_word, beyond_iff]
  refine count_panics fun n hn => ?_
  by_cases h1 : (b.content.length : Int) < dec64 b.point
  · simp only [bwdWords_beyond _ _ _ h1]
    by_cases h0 : n.toNat = 0
    · simp only [h0, if_true, done]; constructor
      · intro h; cases h
      · intro h; omega
    · simp only [h0, if_false, crash, true_iff]; omega
  · rw [iff_false_right (by omega)]
    by_cases h2 : dec64 b.point < 0
    · simp only [bwdWords_below _ _ _ h2]; exact np_done _
    · obtain ⟨p, hp⟩ : ∃ p : Nat, dec64 b.point = p := ⟨(dec64 b.point).toNat, by omega⟩
      obtain ⟨k, hk, _⟩ := bwdWords_spec b.content n.toNat p (by omega)
      simp only [hp, hk]; exact np_done _

theorem np_forward_word : (call b! "forward-word" args b).1 = .panic ↔ ∃ n, CountArg args n ∧ 1 ≤ n ∧ Below b := by
  rw [call_forward_word, below_iff]
  refine count_panics fun n hn => ?_
  by_cases h1 : dec64 b.point < 0
  · simp only [fwdWords_below _ _ _ h1]
    by_cases h0 : n.toNat = 0
    · simp only [h0, if_true, done]; constructor
      · intro h; cases h
      · intro h; omega
    · simp only [h0, if_false, crash, true_iff]; omega
  · rw [iff_false_right (by omega)]
    by_cases h2 : (b.content.length : Int) < dec64 b.point
    · simp only [fwdWords_beyond _ _ _ h2]; exact np_done _
    · obtain ⟨p, hp⟩ : ∃ p : Nat, dec64 b.point = p := ⟨(dec64 b.point).toNat, by omega⟩
      obtain ⟨k, hk, _⟩ := fwdWords_spec b.content n.toNat p (by omega)
      simp only [hp, hk]; exact np_done _

theorem np_mark_line : (call b! "mark-line" args b).1 = .panic ↔ ∃ n, CountArg args n ∧ (Beyond b ∨ (1 ≤ n ∧ Below b)) := by
  rw [call_mark_line, below_iff, beyond_iff]
  refine count_panics fun n hn => ?_
  by_cases h1 : dec64 b.point < 0
  · simp only [fwdLines_below _ _ _ h1, scanBack_below _ _ (dec64 b.point) (by omega)]
    by_cases h0 : n.toNat = 0
    · simp only [h0, if_true, done]; constructor
      · intro h; cases h
      · intro h; omega
    · simp only [h0, if_false, crash, true_iff]; omega
  · by_cases h2 : (b.content.length : Int) < dec64 b.point
    · simp only [fwdLines_beyond _ _ _ h2, scanBack_beyond _ _ _ h2, crash, true_iff]; exact .inl h2
    · rw [iff_false_right (by omega)]
      obtain ⟨p, hp⟩ : ∃ p : Nat, dec64 b.point = p := ⟨(dec64 b.point).toNat, by omega⟩
      obtain ⟨k, hk, _⟩ := fwdLines_spec b.content n.toNat p (by omega)
      obtain ⟨k', hk', _⟩ := scanBack_spec b.content (· == nl) p (by omega)
      simp only [hp, hk, hk']; exact np_done _

theorem np_delete_line : (call b! "delete-line" args b).1 = .panic ↔ ∃ n, CountArg args n ∧ (Below b ∨ Beyond b) := by
  rw [call_delete_line, below_iff, beyond_iff]
  refine count_panics fun n hn => ?_
  by_cases h1 : dec64 b.point < 0
  · refine ⟨fun _ => .inl h1, fun _ => ?_⟩
    simp only [fwdLines_below _ _ _ h1, scanBack_below _ _ (dec64 b.point) (by omega)]
    by_cases h0 : n.toNat = 0
    · simp only [h0, if_true]; exact splice_panics _ _ (.inl h1)
    · simp only [h0, if_false, crash]
  · by_cases h2 : (b.content.length : Int) < dec64 b.point
    · simp only [fwdLines_beyond _ _ _ h2, scanBack_beyond _ _ _ h2, crash, true_iff]; exact .inr h2
    · rw [iff_false_right (by omega)]
      obtain ⟨p, hp⟩ : ∃ p : Nat, dec64 b.point = p := ⟨(dec64 b.point).toNat, by omega⟩
      obtain ⟨k, hk, _, _, hkle⟩ := fwdLines_spec b.content n.toNat p (by omega)
      obtain ⟨k', hk', hks⟩ := scanBack_spec b.content (· == nl) p (by omega)
      have := hks.1
      simp only [hp, hk, hk']; exact np_splice _ _ (by omega) (by omega) (by omega) (by omega)

theorem np_kill_word : (call b! "kill-word" args b).1 = .panic ↔ ∃ n, CountArg args n ∧ (Below b ∨ Beyond b) := by
  rw [call_kill_word, below_iff, beyond_iff]
  refine count_panics fun n hn => ?_
  by_cases h1 : dec64 b.point < 0
  · refine ⟨fun _ => .inl h1, fun _ => ?_⟩
    simp only [fwdWords_below _ _ _ h1]
    by_cases h0 : n.toNat = 0
    · simp only [h0, if_true]; exact splice_panics _ _ (.inl h1)
    · simp only [h0, if_false, crash]
  · by_cases h2 : (b.content.length : Int) < dec64 b.point
    · refine ⟨fun _ => .inr h2, fun _ => ?_⟩
      simp only [fwdWords_beyond _ _ _ h2]; exact splice_panics _ _ (.inr (.inl h2))
    · rw [iff_false_right (by omega)]
      obtain ⟨p, hp⟩ : ∃ p : Nat, dec64 b.point = p := ⟨(dec64 b.point).toNat, by omega⟩
      obtain ⟨k, hk, _, _, hkle⟩ := fwdWords_spec b.content n.toNat p (by omega)
      simp only [hp, hk]; exact np_splice _ _ (by omega) (by omega) (by omega) (by omega)

theorem np_backward_kill_word : (call b! "backward-kill-word" args b).1 = .panic ↔ ∃ n, CountArg args n ∧ (Below b ∨ Beyond b) := by
  rw [call_backward_kill_word, below_iff, beyond_iff]
  refine count_panics fun n hn => ?_
  by_cases h1 : dec64 b.point < 0
  · refine ⟨fun _ => .inl h1, fun _ => ?_⟩
    simp only [bwdWords_below _ _ _ h1]; exact splice_panics _ _ (.inl h1)
  · by_cases h2 : (b.content.length : Int) < dec64 b.point
    · refine ⟨fun _ => .inr h2, fun _ => ?_⟩
      simp only [bwdWords_beyond _ _ _ h2]
      by_cases h0 : n.toNat = 0
      · simp only [h0, if_true]; exact splice_panics _ _ (.inr (.inl h2))
      · simp only [h0, if_false, crash]
    · rw [iff_false_right (by omega)]
      obtain ⟨p, hp⟩ : ∃ p : Nat, dec64 b.point = p := ⟨(dec64 b.point).toNat, by omega⟩
      obtain ⟨k, hk, _, hkle⟩ := bwdWords_spec b.content n.toNat p (by omega)
      simp only [hp, hk, incPos_le _ p (show p ≤ b.content.length by omega), atMost_eq]
      exact np_splice _ _ (by omega) (by omega) (by omega) (by omega)

theorem np_delete_backward_char :
    (call b! "delete-backward-char" args b).1 = .panic ↔ ∃ n, CountArg args n ∧ Beyond b ∧ wrap64 (before b - n) < before b := by
  rw [call_delete_backward_char, beyond_iff, show before b = dec64 b.point from rfl]
  refine count_panics fun n hn => ?_
  simp only [atLeast0_eq]
  split
  · exact ⟨fun h => absurd h (np_done _), fun h => by omega⟩
  · by_cases h2 : (b.content.length : Int) < dec64 b.point
    · exact ⟨fun _ => ⟨h2, by omega⟩, fun _ => splice_panics _ _ (.inr (.inr h2))⟩
    · rw [iff_false_right (by omega)]
      exact np_splice _ _ (by omega) (by omega) (by omega) (by omega)

theorem np_delete_char : (call b! "delete-char" args b).1 = .panic ↔
    ∃ n, CountArg args n ∧ 1 ≤ b.point ∧ b.point ≤ b.content.length ∧ wrap64 (b.point - 1 + n) < 0 := by
  rw [call_delete_char]
  refine count_panics fun n hn => ?_
  simp only [atMost_eq]
  split
  · exact ⟨fun h => absurd h (np_done _), fun h => by omega⟩
  · by_cases hw : wrap64 (b.point - 1 + n) < 0
    · refine ⟨fun _ => ⟨by omega, by omega, hw⟩, fun _ => ?_⟩
      unfold spliceOr
      have hs : sliceFrom b.content (min (wrap64 (b.point - 1 + n)) (b.content.length : Int)) = none := by
        unfold sliceFrom; rw [if_neg (by omega)]
      rw [hs]
      split
      · rename_i heq; cases heq
      · rfl
    · rw [iff_false_right (by omega)]
      exact np_splice _ _ (by omega) (by omega) (by omega) (by omega)

theorem np_looking_back : (call b! "looking-back" args b).1 = .panic ↔
    ∃ s, args = [.str s] ∧ Beyond b ∧ ((∃ re, Ext.compile s = .ok re) ∨ (s.length : Int) ≤ before b) := by
  rw [call_looking_back, beyond_iff, show before b = dec64 b.point from rfl]
  have hk : ∀ s, ((builtinLookingBack [.str s] b).1 = .panic ↔ (b.content.length : Int) < dec64 b.point ∧
      ((∃ re, Ext.compile s = .ok re) ∨ (s.length : Int) ≤ dec64 b.point)) := by
    intro s
    simp only [builtinLookingBack, oneStr]
    by_cases h0 : dec64 b.point ≤ 0
    · rw [if_pos h0]; exact ⟨fun h => absurd h (np_ret _ _), fun h => by omega⟩
    · rw [if_neg h0]
      by_cases h2 : (b.content.length : Int) < dec64 b.point
      · have hs : sliceTo b.content (dec64 b.point) = none := by unfold sliceTo; rw [if_neg (by omega)]
        simp only [hs]
        cases hc : Ext.compile s with
        | ok re => simp [crash, h2]
        | error e =>
          simp only []
          split
          · simp only [crash, true_iff]; exact ⟨h2, .inr (by omega)⟩
          · refine ⟨fun h => absurd h (np_ret _ _), ?_⟩
            rintro ⟨_, ⟨re, h⟩ | h⟩
            · cases h
            · omega
      · have hs : sliceTo b.content (dec64 b.point) = some (b.content.take (dec64 b.point).toNat) := by
          unfold sliceTo; rw [if_pos (by omega)]
        rw [iff_false_right (by omega)]
        simp only [hs]
        (repeat' split) <;> exact np_ret _ _
  constructor
  · intro h
    refine Classical.byContradiction fun hn => ?_
    refine np_oneStr (name := b! "looking-back") (args := args) (b := b) (fun s hs => ?_) h
    subst hs
    intro hp
    exact hn ⟨s, rfl, (hk s).1 hp⟩
  · rintro ⟨s, rfl, h⟩
    exact (hk s).2 h

/-! ### The calls that never panic -/

theorem np_beginning_of_line : NoPanic (call b! "beginning-of-line" args b) := by
  rw [call_beginning_of_line]
  refine np_noArgs ?_
  simp only []
  split
  · exact np_done _
  · rename_i hp
    generalize hq : (if dec64 b.point ≥ (b.content.length : Int) then (b.content.length : Int) - 1 else dec64 b.point) = q
    have hle : q ≤ b.content.length := by rw [← hq]; split <;> omega
    by_cases h0 : q ≤ 0
    · simp only [scanBack_below _ _ q h0]; exact np_done _
    · obtain ⟨k, rfl⟩ : ∃ k : Nat, q = k := ⟨q.toNat, by omega⟩
      obtain ⟨k', hk', _⟩ := scanBack_spec b.content (· == nl) k (by omega)
      simp only [hk']; exact np_done _

theorem np_end_of_line : NoPanic (call b! "end-of-line" args b) := by
  rw [call_end_of_line]
  refine np_noArgs ?_
  simp only [atLeast0_eq]
  split
  · exact np_done _
  · obtain ⟨k, hk, _⟩ := scanFwd_spec b.content (· == nl) (dec64 b.point).toNat (by omega)
    simp only [hk]; exact np_done _

theorem np_search_forward : NoPanic (call b! "search-forward" args b) := by
  rw [call_search_forward]
  refine np_oneStr fun s _ => ?_
  simp only [atLeast0_eq]
  split
  · exact np_fail _ _
  · rw [sliceFrom_eq _ _ (by omega)]
    simp only []
    split
    · exact np_fail _ _
    · exact np_done _

theorem np_search_backward : NoPanic (call b! "search-backward" args b) := by
  rw [call_search_backward]
  refine np_oneStr fun s _ => ?_
  simp only [atMost_eq]
  split
  · exact np_fail _ _
  · obtain ⟨k, hk⟩ : ∃ k : Nat, min (dec64 b.point) (b.content.length : Int) = k := ⟨_, (Int.toNat_of_nonneg (by omega)).symm⟩
    rw [hk, sliceTo_eq _ _ (by omega)]
    simp only []
    split
    · exact np_fail _ _
    · exact np_done _

theorem np_re_search_forward [LawfulExt] : NoPanic (call b! "re-search-forward" args b) := by
  rw [call_re_search_forward]
  refine np_oneStr fun s _ => ?_
  simp only [atLeast0_eq]
  generalize (dec64 b.point).toNat = p
  split
  · exact np_fail _ _
  · split
    · exact np_fail _ _
    · rename_i re hre
      rw [sliceFrom_eq _ _ (by omega)]
      simp only []
      split
      · exact np_fail _ _
      · rename_i i j hij
        have hb := LawfulExt.find_bounds _ _ _ _ _ hre hij
        simp only [List.length_drop] at hb
        have : slice b.content ((p : Int) + i) ((p : Int) + j) = some ((b.content.drop (p + i)).take (p + j - (p + i))) := by
          have := slice_eq b.content (p + i) (p + j) (by omega) (by omega)
          simpa using this
        simp only [this]; exact np_done _

theorem np_re_search_backward [LawfulExt] : NoPanic (call b! "re-search-backward" args b) := by
  rw [call_re_search_backward]
  refine np_oneStr fun s _ => ?_
  simp only [atMost_eq]
  split
  · exact np_fail _ _
  · obtain ⟨k, hk⟩ : ∃ k : Nat, min (dec64 b.point) (b.content.length : Int) = k := ⟨_, (Int.toNat_of_nonneg (by omega)).symm⟩
    rw [hk]
    split
    · exact np_fail _ _
    · rename_i re hre
      rw [sliceTo_eq _ _ (by omega)]
      simp only []
      split
      · exact np_fail _ _
      · rename_i i j hij
        have hb := LawfulExt.findAll_bounds _ _ _ _ _ hre (List.mem_of_getLast? hij)
        simp only [List.length_take] at hb
        rw [slice_eq _ _ _ hb.1 (by omega)]; exact np_done _

theorem np_replace_match : NoPanic (call b! "replace-match" args b) := by
  rw [call_replace_match]
  refine np_oneStr fun s _ => ?_
  simp only []
  split
  · exact np_fail _ _
  · split
    · exact np_fail _ _
    · exact np_splice _ _ (by omega) (by omega) (by omega) (by omega)

theorem np_looking_at : NoPanic (call b! "looking-at" args b) := by
  rw [call_looking_at]
  refine np_oneStr fun s _ => ?_
  simp only []
  split
  · exact np_ret _ _
  · obtain ⟨k, hk⟩ : ∃ k : Nat, dec64 b.point = k := ⟨_, (Int.toNat_of_nonneg (by omega)).symm⟩
    rw [hk, sliceFrom_eq _ _ (by omega)]
    simp only []
    (repeat' split) <;> exact np_ret _ _

theorem np_mark_word : NoPanic (call b! "mark-word" args b) := by
  rw [call_mark_word]
  refine np_noArgs ?_
  simp only []
  split
  · exact np_done _
  · obtain ⟨k, hk⟩ : ∃ k : Nat, dec64 b.point = k := ⟨_, (Int.toNat_of_nonneg (by omega)).symm⟩
    obtain ⟨i, hi, _⟩ := scanBack_spec b.content (fun x => !isLetter x) k (by omega)
    obtain ⟨j, hj, _⟩ := scanFwd_spec b.content (fun x => !isLetter x) k (by omega)
    simp only [hk, hi, hj]; exact np_done _

theorem np_delete_region : NoPanic (call b! "delete-region" args b) := by
  rw [call_delete_region]
  refine np_noArgs ?_
  simp only []
  split
  · exact np_done _
  · obtain ⟨i, j, e, h1, h2⟩ := regionBounds_nat b (by omega)
    rw [e]
    exact np_splice _ _ (by omega) (by omega) (by omega) (by omega)

theorem np_replace_region : NoPanic (call b! "replace-region" args b) := by
  rw [call_replace_region]
  refine np_oneStr fun s _ => ?_
  simp only []
  split
  · exact np_done _
  · obtain ⟨i, j, e, h1, h2⟩ := regionBounds_nat b (by omega)
    rw [e]
    exact np_splice _ _ (by simp only []; omega) (by simp only []; omega) (by simp only []; omega) (by simp only []; omega)

theorem np_kill_line : NoPanic (call b! "kill-line" args b) := by
  rw [call_kill_line]
  refine np_withCount fun n hn => ?_
  simp only []
  split
  · exact np_done _
  · obtain ⟨p, hp⟩ : ∃ k : Nat, dec64 b.point = k := ⟨_, (Int.toNat_of_nonneg (by omega)).symm⟩
    rw [hp]
    split
    · obtain ⟨k, hk, hks⟩ := scanFwd_spec b.content (· == nl) (p + 1) (by omega)
      rw [show ((p : Int) + 1) = ((p + 1 : Nat) : Int) by omega, hk]
      have := hks.2.1
      exact np_splice _ _ (by omega) (by omega) (by omega) (by omega)
    · obtain ⟨k', hk', _, _, hle'⟩ := fwdLines_spec b.content n.toNat p (by omega)
      simp only [hk']
      exact np_splice _ _ (by omega) (by omega) (by omega) (by omega)

theorem np_current_column : NoPanic (call b! "current-column" args b) := by
  rw [call_current_column]
  refine np_noArgs ?_
  simp only []
  split
  · exact np_ret _ _
  · obtain ⟨k, hk⟩ := columnLoop_some b.content
      ((if dec64 b.point ≥ (b.content.length : Int) then (b.content.length : Int) - 1 else dec64 b.point) + 1).toNat (by split <;> omega)
    rw [hk]; exact np_ret _ _

theorem np_goto_line : NoPanic (call b! "goto-line" args b) := by
  rw [call_goto_line]
  refine np_oneNum fun n => ?_
  have hlen := splitByte_length b.content
  obtain ⟨q, hq, hqle, _⟩ := lineOffset_spec b.content
    ((if n < 1 then 1 else if n > ((splitByte nl b.content).length : Int) then ((splitByte nl b.content).length : Int) else n) - 1).toNat
    (by split <;> first | omega | (split <;> omega))
  simp only [hq]; exact np_done _

omit [Ext] in
theorem np_substringCore (s : Bytes) (x y : Int) : NoPanic (substringCore s x y b) := by
  unfold substringCore
  simp only [atLeast0_eq, atMost_eq]
  split
  · exact np_ret _ _
  · rename_i hc
    obtain ⟨j, hj⟩ : ∃ j : Nat, min y (s.length : Int) = j := ⟨_, (Int.toNat_of_nonneg (by omega)).symm⟩
    rw [hj] at hc ⊢
    rw [slice_eq _ _ j (by omega) (by omega)]
    exact np_ret _ _

theorem np_substring : NoPanic (call b! "substring" args b) := by
  rw [call_substring]
  unfold builtinSubstring
  split
  · exact np_substringCore _ _ _ _
  · exact np_substringCore _ _ _ _
  · exact np_fail _ _
  · split <;> exact np_fail _ _
  · split <;> exact np_fail _ _
  · exact np_fail _ _

theorem np_buffer_substring : NoPanic (call b! "buffer-substring" args b) := by
  rw [call_buffer_substring]
  unfold builtinBufferSubstring
  split
  · rename_i x y
    simp only [atLeast0_eq, atMost_eq]
    generalize (dec64 x.toInt).toNat = i
    generalize dec64 (if y.toInt = -1 then (b.content.length : Int) + 1 else y.toInt) = z
    split
    · exact np_ret _ _
    · rename_i hc
      obtain ⟨j, hj⟩ : ∃ j : Nat, min z (b.content.length : Int) = j :=
        ⟨_, (Int.toNat_of_nonneg (by omega)).symm⟩
      rw [hj] at hc ⊢
      rw [slice_eq _ i j (by omega) (by omega)]
      exact np_ret _ _
  · exact np_fail _ _
  · exact np_fail _ _

end

/-- **C01**, one call, wherever point is: a call panics exactly in the listed cases. -/
theorem C01_panic_anywhere [LawfulExt] (name : Bytes) (args : List Value) (b : Buffer) :
    (call name args b).1 = .panic ↔ PanicsAnywhere name args b := by
  have other : NoPanic (call name args b) → name ∉ [b! "delete-char", b! "forward-word", b! "backward-word", b! "mark-line",
      b! "delete-line", b! "kill-word", b! "backward-kill-word", b! "delete-backward-char", b! "looking-back"] →
      ((call name args b).1 = .panic ↔ PanicsAnywhere name args b) := by
    intro h hn
    simp only [List.mem_cons, List.not_mem_nil, or_false, not_or] at hn
    obtain ⟨h1, h2, h3, h4, h5, h6, h7, h8, h9⟩ := hn
    refine ⟨fun hp => absurd hp h, ?_⟩
    rintro (⟨e, _⟩ | ⟨e, _⟩ | ⟨e, _⟩ | ⟨e, _⟩ | ⟨e, _⟩ | ⟨e, _⟩ | ⟨e, _⟩)
    · exact absurd e h1
    · exact absurd e h2
    · exact absurd e h3
    · exact absurd e h4
    · simp only [List.mem_cons, List.not_mem_nil, or_false] at e
      rcases e with e | e | e
      · exact absurd e h5
      · exact absurd e h6
      · exact absurd e h7
    · exact absurd e h8
    · exact absurd e h9
  by_cases hn : name ∈ allNames
  · each_name hn
    · exact other (by rw [call_insert]; exact np_oneStr fun _ _ => np_done _) (by decide)
    · exact other (by rw [call_goto_char]; exact np_oneNum fun _ => np_done _) (by decide)
    · exact other (np_goto_line args b) (by decide)
    · exact other (np_search_forward args b) (by decide)
    · exact other (np_search_backward args b) (by decide)
    · exact other (np_re_search_forward args b) (by decide)
    · exact other (by rw [call_end_of_buffer]; exact np_noArgs (np_done _)) (by decide)
    · exact other (by rw [call_set_mark]; exact np_noArgs (np_done _)) (by decide)
    · exact other (by rw [call_mark]; exact np_noArgs (np_ret _ _)) (by decide)
    · exact other (by rw [call_point]; exact np_noArgs (np_ret _ _)) (by decide)
    · exact other (by rw [call_line_number_at_pos]; exact np_noArgs (np_ret _ _)) (by decide)
    · exact other (np_replace_match args b) (by decide)
    · exact other (np_delete_region args b) (by decide)
    · exact other (np_buffer_substring args b) (by decide)
    · exact other (np_mark_word args b) (by decide)
    · exact other (np_replace_region args b) (by decide)
    · exact other (by rw [call_region_beginning]; exact np_noArgs (np_ret _ _)) (by decide)
    · exact other (by rw [call_region_end]; exact np_noArgs (np_ret _ _)) (by decide)
    · exact other (by rw [call_forward_char]; exact np_withCount fun _ _ => np_done _) (by decide)
    · exact other (by rw [call_length]; exact np_oneStr fun _ _ => np_ret _ _) (by decide)
    · exact other (np_substring args b) (by decide)
    · exact other (by rw [call_string_match]; unfold builtinStringMatch; (repeat' split) <;> first | exact np_ret _ _ | exact np_fail _ _) (by decide)
    · exact other (by rw [call_backward_char]; exact np_withCount fun _ _ => np_done _) (by decide)
    · exact other (by rw [call_beginning_of_buffer]; exact np_noArgs (np_done _)) (by decide)
    · exact other (np_beginning_of_line args b) (by decide)
    · exact other (np_end_of_line args b) (by decide)
    · exact other (by rw [call_buffer_size]; exact np_noArgs (np_ret _ _)) (by decide)
    · exact other (by rw [call_point_max]; exact np_noArgs (np_ret _ _)) (by decide)
    · exact other (by rw [call_point_min]; exact np_noArgs (np_ret _ _)) (by decide)
    · exact other (np_current_column args b) (by decide)
    · exact other (by rw [call_upcase]; exact np_oneStr fun _ _ => np_ret _ _) (by decide)
    · exact other (by rw [call_downcase]; exact np_oneStr fun _ _ => np_ret _ _) (by decide)
    · exact other (by rw [call_capitalize]; exact np_oneStr fun s _ => by cases s <;> exact np_ret _ _) (by decide)
    · exact other (by rw [call_concat]; unfold builtinConcat; (repeat' split) <;> first | exact np_ret _ _ | exact np_fail _ _) (by decide)
    · exact other (by rw [call_set_mark_command]; unfold builtinSetMarkCommand; (repeat' split) <;> first | exact np_done _ | exact np_fail _ _) (by decide)
    · exact other (by rw [call_exchange_point_and_mark]; exact np_noArgs (np_done _)) (by decide)
    · exact other (by rw [call_mark_whole_buffer]; exact np_noArgs (np_done _)) (by decide)
    · refine (np_delete_char args b).trans ⟨fun h => .inl ⟨rfl, h⟩, ?_⟩
      rintro (⟨_, h⟩ | ⟨e, _⟩ | ⟨e, _⟩ | ⟨e, _⟩ | ⟨e, _⟩ | ⟨e, _⟩ | ⟨e, _⟩) <;> first | exact h | exact absurd e (by decide)
    · refine (np_delete_backward_char args b).trans ⟨fun h => .inr (.inr (.inr (.inr (.inr (.inl ⟨rfl, h⟩))))), ?_⟩
      rintro (⟨e, _⟩ | ⟨e, _⟩ | ⟨e, _⟩ | ⟨e, _⟩ | ⟨e, _⟩ | ⟨_, h⟩ | ⟨e, _⟩) <;> first | exact h | exact absurd e (by decide)
    · refine (np_forward_word args b).trans ⟨fun h => .inr (.inl ⟨rfl, h⟩), ?_⟩
      rintro (⟨e, _⟩ | ⟨_, h⟩ | ⟨e, _⟩ | ⟨e, _⟩ | ⟨e, _⟩ | ⟨e, _⟩ | ⟨e, _⟩) <;> first | exact h | exact absurd e (by decide)
    · refine (np_backward_word args b).trans ⟨fun h => .inr (.inr (.inl ⟨rfl, h⟩)), ?_⟩
      rintro (⟨e, _⟩ | ⟨e, _⟩ | ⟨_, h⟩ | ⟨e, _⟩ | ⟨e, _⟩ | ⟨e, _⟩ | ⟨e, _⟩) <;> first | exact h | exact absurd e (by decide)
    · exact other (np_looking_at args b) (by decide)
    · refine (np_looking_back args b).trans ⟨fun h => .inr (.inr (.inr (.inr (.inr (.inr ⟨rfl, h⟩))))), ?_⟩
      rintro (⟨e, _⟩ | ⟨e, _⟩ | ⟨e, _⟩ | ⟨e, _⟩ | ⟨e, _⟩ | ⟨e, _⟩ | ⟨_, h⟩) <;> first | exact h | exact absurd e (by decide)
    · refine (np_mark_line args b).trans ⟨fun h => .inr (.inr (.inr (.inl ⟨rfl, h⟩))), ?_⟩
      rintro (⟨e, _⟩ | ⟨e, _⟩ | ⟨e, _⟩ | ⟨_, h⟩ | ⟨e, _⟩ | ⟨e, _⟩ | ⟨e, _⟩) <;> first | exact h | exact absurd e (by decide)
    · refine (np_delete_line args b).trans ⟨fun ⟨n, h1, h2⟩ => .inr (.inr (.inr (.inr (.inl ⟨by decide, ⟨n, h1⟩, h2⟩)))), ?_⟩
      rintro (⟨e, _⟩ | ⟨e, _⟩ | ⟨e, _⟩ | ⟨e, _⟩ | ⟨_, ⟨n, h1⟩, h2⟩ | ⟨e, _⟩ | ⟨e, _⟩) <;> first | exact ⟨n, h1, h2⟩ | exact absurd e (by decide)
    · exact other (np_kill_line args b) (by decide)
    · refine (np_kill_word args b).trans ⟨fun ⟨n, h1, h2⟩ => .inr (.inr (.inr (.inr (.inl ⟨by decide, ⟨n, h1⟩, h2⟩)))), ?_⟩
      rintro (⟨e, _⟩ | ⟨e, _⟩ | ⟨e, _⟩ | ⟨e, _⟩ | ⟨_, ⟨n, h1⟩, h2⟩ | ⟨e, _⟩ | ⟨e, _⟩) <;> first | exact ⟨n, h1, h2⟩ | exact absurd e (by decide)
    · refine (np_backward_kill_word args b).trans ⟨fun ⟨n, h1, h2⟩ => .inr (.inr (.inr (.inr (.inl ⟨by decide, ⟨n, h1⟩, h2⟩)))), ?_⟩
      rintro (⟨e, _⟩ | ⟨e, _⟩ | ⟨e, _⟩ | ⟨e, _⟩ | ⟨_, ⟨n, h1⟩, h2⟩ | ⟨e, _⟩ | ⟨e, _⟩) <;> first | exact ⟨n, h1, h2⟩ | exact absurd e (by decide)
    · exact other (np_re_search_backward args b) (by decide)
    · exact other (by rw [call_replace_regexp_in_string]; unfold builtinReplaceRegexpInString; (repeat' split) <;> first | exact np_ret _ _ | exact np_fail _ _) (by decide)
  · exact other (by rw [call_unknown name hn]; simp [NoPanic]) (by
      intro hm
      refine hn ?_
      simp only [List.mem_cons, List.not_mem_nil, or_false] at hm
      rcases hm with rfl | rfl | rfl | rfl | rfl | rfl | rfl | rfl | rfl <;> simp [allNames, builtinTable])

/-- **C01** for whole programs, without any assumption: a program panics on a text exactly if one of the calls it makes is one of the listed
ones (`progLog` lists the calls with their evaluated arguments and the buffer they are made on). -/
theorem C01_program_anywhere [LawfulExt] (prog : List Value) (text : Bytes) :
    (eval defaultEnv prog (newBuffer text)).1 = .panic ↔
      ∃ c ∈ progLog defaultEnv prog (newBuffer text), PanicsAnywhere c.1 c.2.1 c.2.2 := by
  refine (panic_loop prog prog 0 (.str []) (newBuffer text)).trans ?_
  constructor <;> rintro ⟨c, hc, hp⟩
  · exact ⟨c, hc, (C01_panic_anywhere _ _ _).1 hp⟩
  · exact ⟨c, hc, (C01_panic_anywhere _ _ _).2 hp⟩

/-- A call that moves point to a place it has computed within the text. -/
def BringsBack (name : Bytes) (b : Buffer) : Prop :=
  name ∈ [b! "goto-char", b! "goto-line", b! "beginning-of-buffer", b! "end-of-buffer", b! "forward-char", b! "end-of-line",
    b! "search-forward", b! "search-backward", b! "re-search-forward", b! "re-search-backward", b! "replace-match", b! "mark-whole-buffer"] ∨
  (name = b! "beginning-of-line" ∧ b.content ≠ [])

/-- **C02**: wherever point was, after one of these calls has succeeded it is inside the buffer. -/
theorem C02_brings_back [LawfulExt] (name : Bytes) (args : List Value) (b : Buffer) (hn : BringsBack name b) (v : Value)
    (hv : (call name args b).1 = .ok v) : InRange (call name args b).2 := by
  have inr : ∀ {p : Int}, 1 ≤ p → p ≤ b.content.length + 1 → InRange (done { b with point := p }).2 := fun h1 h2 => ⟨h1, h2⟩
  have strCase : ∀ {name : Bytes} {k : Bytes → Res Bytes Value × Buffer}, (oneStr name args b k).1 = .ok v →
      (∀ s, (k s).1 = .ok v → InRange (k s).2) → InRange (oneStr name args b k).2 := by
    intro name k h hk
    unfold oneStr at h ⊢
    split at h
    · exact hk _ h
    · cases h
    · cases h
  have nilCase : ∀ {name : Bytes} {k : Res Bytes Value × Buffer}, (noArgs name args b k).1 = .ok v →
      (k.1 = .ok v → InRange k.2) → InRange (noArgs name args b k).2 := by
    intro name k h hk
    unfold noArgs at h ⊢
    split at h
    · exact hk h
    · cases h
  have numCase : ∀ {name : Bytes} {k : Int → Res Bytes Value × Buffer}, (oneNum name args b k).1 = .ok v →
      (∀ s, (k s).1 = .ok v → InRange (k s).2) → InRange (oneNum name args b k).2 := by
    intro name k h hk
    unfold oneNum at h ⊢
    split at h
    · exact hk _ h
    · cases h
    · cases h
  rcases hn with hn | ⟨rfl, hne⟩
  · simp only [List.mem_cons, List.not_mem_nil, or_false] at hn
    rcases hn with rfl | rfl | rfl | rfl | rfl | rfl | rfl | rfl | rfl | rfl | rfl | rfl
    · rw [call_goto_char] at hv ⊢
      refine numCase hv fun n _ => ?_
      refine inr ?_ ?_ <;> (split <;> first | omega | (split <;> omega))
    · rw [call_goto_line] at hv ⊢
      refine numCase hv fun n _ => ?_
      have hlen := splitByte_length b.content
      obtain ⟨q, hq, hqle, _⟩ := lineOffset_spec b.content
        ((if n < 1 then 1 else if n > ((splitByte nl b.content).length : Int) then ((splitByte nl b.content).length : Int) else n) - 1).toNat
        (by split <;> first | omega | (split <;> omega))
      simp only [hq]
      exact inr (by omega) (by omega)
    · rw [call_beginning_of_buffer] at hv ⊢
      exact nilCase hv fun _ => inr (by omega) (by omega)
    · rw [call_end_of_buffer] at hv ⊢
      exact nilCase hv fun _ => inr (by omega) (by omega)
    · rw [call_forward_char] at hv ⊢
      unfold builtinForwardChar withCount at hv ⊢
      cases ho : optCount b! "forward-char" args with
      | error e => rw [ho] at hv; cases hv
      | ok n =>
        simp only []
        refine inr ?_ ?_ <;> (split <;> first | omega | (split <;> omega))
    · rw [call_end_of_line] at hv ⊢
      refine nilCase hv fun _ => ?_
      simp only [atLeast0_eq]
      split
      · exact inr (by omega) (by omega)
      · obtain ⟨k, hk, hks⟩ := scanFwd_spec b.content (· == nl) (dec64 b.point).toNat (by omega)
        have := hks.2.1
        simp only [hk]
        exact inr (by omega) (by omega)
    · rw [call_search_forward] at hv ⊢
      refine strCase hv fun s hs => ?_
      simp only [atLeast0_eq] at hs ⊢
      split at hs
      · cases hs
      · rename_i hlt
        rw [if_neg hlt]
        rw [sliceFrom_eq _ _ (by omega)] at hs ⊢
        simp only [] at hs ⊢
        cases hi : indexOf s (b.content.drop (dec64 b.point).toNat) with
        | none => rw [hi] at hs; cases hs
        | some i =>
          have := (indexOf_some hi).1.le
          simp only [List.length_drop] at this
          simp only []
          refine ⟨?_, ?_⟩ <;> simp only [done] <;> omega
    · rw [call_search_backward] at hv ⊢
      refine strCase hv fun s hs => ?_
      simp only [atMost_eq] at hs ⊢
      split at hs
      · cases hs
      · rename_i hlt
        rw [if_neg hlt]
        obtain ⟨k, hk⟩ : ∃ k : Nat, min (dec64 b.point) (b.content.length : Int) = k := ⟨_, (Int.toNat_of_nonneg (by omega)).symm⟩
        rw [hk, sliceTo_eq _ _ (by omega)] at hs ⊢
        simp only [] at hs ⊢
        cases hi : lastIndexOf s (b.content.take k) with
        | none => rw [hi] at hs; cases hs
        | some i =>
          have := (lastIndexOf_some hi).1.le
          simp only [List.length_take] at this
          simp only []
          refine ⟨?_, ?_⟩ <;> simp only [done] <;> omega
    · rw [call_re_search_forward] at hv ⊢
      refine strCase hv fun s hs => ?_
      simp only [atLeast0_eq] at hs ⊢
      generalize (dec64 b.point).toNat = p at hs ⊢
      split at hs
      · cases hs
      · rename_i hlt
        rw [if_neg hlt]
        cases hre : Ext.compile s with
        | error e => rw [hre] at hs; cases hs
        | ok re =>
          rw [hre] at hs
          simp only [sliceFrom_eq b.content p (by omega)] at hs ⊢
          cases hij : re.find (b.content.drop p) with
          | none => rw [hij] at hs; cases hs
          | some ij =>
            obtain ⟨i, j⟩ := ij
            have hb := LawfulExt.find_bounds _ _ _ _ _ hre hij
            simp only [List.length_drop] at hb
            have : slice b.content ((p : Int) + i) ((p : Int) + j) = some ((b.content.drop (p + i)).take (p + j - (p + i))) := by
              have := slice_eq b.content (p + i) (p + j) (by omega) (by omega)
              simpa using this
            simp only [this]
            refine ⟨?_, ?_⟩ <;> simp only [done] <;> omega
    · rw [call_re_search_backward] at hv ⊢
      refine strCase hv fun s hs => ?_
      simp only [atMost_eq] at hs ⊢
      split at hs
      · cases hs
      · rename_i hlt
        rw [if_neg hlt]
        obtain ⟨k, hk⟩ : ∃ k : Nat, min (dec64 b.point) (b.content.length : Int) = k := ⟨_, (Int.toNat_of_nonneg (by omega)).symm⟩
        rw [hk] at hs ⊢
        cases hre : Ext.compile s with
        | error e => rw [hre] at hs; cases hs
        | ok re =>
          rw [hre] at hs
          simp only [sliceTo_eq b.content k (by omega)] at hs ⊢
          cases hij : (re.findAll (b.content.take k)).getLast? with
          | none => rw [hij] at hs; cases hs
          | some ij =>
            obtain ⟨i, j⟩ := ij
            have hb := LawfulExt.findAll_bounds _ _ _ _ _ hre (List.mem_of_getLast? hij)
            simp only [List.length_take] at hb
            simp only [slice_eq b.content i j hb.1 (by omega)]
            refine ⟨?_, ?_⟩ <;> simp only [done] <;> omega
    · rw [call_replace_match] at hv ⊢
      refine strCase hv fun s hs => ?_
      simp only [] at hs ⊢
      split at hs
      · cases hs
      · rename_i h1
        rw [if_neg h1]
        split at hs
        · cases hs
        · rename_i h2
          rw [if_neg h2]
          obtain ⟨i, hi⟩ : ∃ i : Nat, b.lastStart - 1 = i := ⟨(b.lastStart - 1).toNat, by omega⟩
          obtain ⟨j, hj⟩ : ∃ j : Nat, b.lastEnd - 1 = j := ⟨(b.lastEnd - 1).toNat, by omega⟩
          rw [hi, hj]
          exact (good_splice i j s _ (by omega) (by omega) (by omega) (by omega)).2
    · rw [call_mark_whole_buffer] at hv ⊢
      refine nilCase hv fun _ => ⟨?_, ?_⟩
      · show (1 : Int) ≤ b.content.length + 1; omega
      · show (b.content.length : Int) + 1 ≤ b.content.length + 1; omega
  · rw [call_beginning_of_line] at hv ⊢
    refine nilCase hv fun _ => ?_
    have hc : 0 < b.content.length := List.length_pos_iff.2 hne
    simp only []
    split
    · exact inr (by omega) (by omega)
    · obtain ⟨q, hq, hqle⟩ : ∃ q : Nat, (if dec64 b.point ≥ (b.content.length : Int) then (b.content.length : Int) - 1 else dec64 b.point) = q ∧
          q ≤ b.content.length := by
        split
        · exact ⟨b.content.length - 1, by omega, by omega⟩
        · exact ⟨(dec64 b.point).toNat, by omega, by omega⟩
      rw [hq]
      obtain ⟨k, hk, hks⟩ := scanBack_spec b.content (· == nl) q hqle
      have := hks.1
      simp only [hk]
      exact inr (by omega) (by omega)

/-! ### The cases are met

Point behind the end: a mark far away, then `exchange-point-and-mark`. Point before the start: `beginning-of-line` on an empty text. -/

/-- A buffer of two bytes with point at 100. -/
def farBuffer : Buffer := { newBuffer b! "ab" with point := 100, mark := 1 }

/-- An empty buffer with point at 0. -/
def zeroBuffer : Buffer := { newBuffer [] with point := 0 }

-- both are reached by scripts
example : (eval defaultEnv [.list [.sym b! "set-mark-command", numV 100], .list [.sym b! "exchange-point-and-mark"]] (newBuffer b! "ab")).2 =
    farBuffer := rfl

example : (eval defaultEnv [.list [.sym b! "beginning-of-line"]] (newBuffer [])).2 = zeroBuffer := rfl

example [LawfulExt] : PanicsAnywhere b! "kill-word" [] farBuffer ∧ (call b! "kill-word" [] farBuffer).1 = .panic := by
  have h : PanicsAnywhere b! "kill-word" [] farBuffer :=
    .inr (.inr (.inr (.inr (.inl ⟨by decide, ⟨1, .inl ⟨rfl, rfl⟩⟩, .inr (.inl (by decide))⟩))))
  exact ⟨h, (C01_panic_anywhere _ _ _).2 h⟩

example [LawfulExt] : PanicsAnywhere b! "forward-word" [] zeroBuffer ∧ (call b! "forward-word" [] zeroBuffer).1 = .panic := by
  have h : PanicsAnywhere b! "forward-word" [] zeroBuffer :=
    .inr (.inl ⟨rfl, 1, .inl ⟨rfl, rfl⟩, by decide, by decide, by decide⟩)
  exact ⟨h, (C01_panic_anywhere _ _ _).2 h⟩

-- the other direction is not empty either: `forward-word` behind the end and `backward-word` before the start do nothing
example : (call b! "forward-word" [] farBuffer).1 = .ok (.str []) ∧ (call b! "backward-word" [] zeroBuffer).1 = .ok (.str []) :=
  ⟨rfl, rfl⟩

-- a whole script
example : (eval defaultEnv [.list [.sym b! "set-mark-command", numV 100], .list [.sym b! "exchange-point-and-mark"],
    .list [.sym b! "delete-line"]] (newBuffer b! "ab")).1 = .panic := rfl

-- brought back
example [LawfulExt] : BringsBack b! "forward-char" farBuffer ∧ ¬ InRange farBuffer ∧ InRange (call b! "forward-char" [] farBuffer).2 :=
  ⟨by unfold BringsBack; decide, by unfold InRange; decide, C02_brings_back _ _ _ (by unfold BringsBack; decide) (.str []) rfl⟩

-- not brought back: `backward-char` with a small count leaves point outside
example : ¬ InRange (call b! "backward-char" [] farBuffer).2 := by
  have h : (call b! "backward-char" [] farBuffer).2 = { farBuffer with point := 99 } := rfl
  rw [h]; unfold InRange; decide

end Texted
