import Verif.Props.Edit
import Verif.Lemmas.Lines
/-
C10 goto-char, C11 goto-line / line-number-at-pos, C12 beginning-of-line, C13 end-of-line,
C14 forward-char / backward-char, C15 word motion, C59 current-column.
-/
namespace Texted
variable [Ext]

/-! ### C10 -/

/-- goto-char puts point at the number, clamped to [1, point-max], and touches nothing else. -/
theorem C10_goto_char (b : Buffer) (x : F64) :
    call b! "goto-char" [.num x] b =
      (okEmpty, { b with point := max 1 (min x.toInt (b.content.length + 1)) }) := by
  simp only [call_goto_char, builtinGotoChar, oneNum, done, okEmpty]
  congr 2
  split
  · omega
  · split <;> omega

/-- goto-char is exact for a position in range. -/
theorem C10_goto_char_exact (b : Buffer) (x : F64) (h1 : 1 ≤ x.toInt) (h2 : x.toInt ≤ b.content.length + 1) :
    call b! "goto-char" [.num x] b = (okEmpty, { b with point := x.toInt }) := by
  rw [C10_goto_char]; congr 2; omega

/-- (goto-char (point)) is the identity on in-range buffers below 2^53 bytes. -/
theorem C10_goto_char_point (b : Buffer) (h : InRange b) (hb : b.content.length < 9007199254740992) (v : Value)
    (hv : (call b! "point" [] b).1 = .ok v) : call b! "goto-char" [v] b = (okEmpty, b) := by
  have : v = numV b.point := by
    have e : (call b! "point" [] b).1 = .ok (numV b.point) := rfl
    rw [e] at hv; cases hv; rfl
  subst this
  have h1 := h.1
  have h2 := h.2
  have e : (F64.ofInt b.point).toInt = b.point := F64.toInt_ofInt _ (by omega)
  rw [numV, C10_goto_char_exact _ _ (by omega) (by omega), e]

example : InRange { newBuffer b! "hello" with point := 4 } ∧
    call b! "goto-char" [numV 100] (newBuffer b! "hello") = (okEmpty, { newBuffer b! "hello" with point := 6 }) ∧
    call b! "goto-char" [numV (-3)] { newBuffer b! "hello" with point := 4 } = (okEmpty, newBuffer b! "hello") := by
  refine ⟨by simp [InRange, newBuffer], rfl, rfl⟩

/-! ### C11 -/

/-- Number of lines of a text: newlines plus one. -/
def lineCount (c : Bytes) : Nat := nlCount c + 1

/-- After `goto-line n` point is at the start of a line and line-number-at-pos reports `n` clamped to
[1, number of lines]; only point changes. -/
theorem C11_goto_line (b : Buffer) (x : F64) :
    ∃ p : Nat, call b! "goto-line" [.num x] b = (okEmpty, { b with point := p + 1 }) ∧ p ≤ b.content.length ∧
      IsLineStart b.content p p ∧
      call b! "line-number-at-pos" [] { b with point := p + 1 } =
        (.ok (numV (max 1 (min x.toInt (lineCount b.content)))), { b with point := p + 1 }) := by
  have hlen := splitByte_length b.content
  obtain ⟨k, hk, hk'⟩ : ∃ k : Nat,
      (if x.toInt < 1 then (1 : Int) else if x.toInt > (splitByte nl b.content).length then (splitByte nl b.content).length else x.toInt) = k + 1 ∧
        k < (splitByte nl b.content).length ∧ (k : Int) + 1 = max 1 (min x.toInt (lineCount b.content)) := by
    refine ⟨(max 1 (min x.toInt (lineCount b.content)) - 1).toNat, ?_, ?_, ?_⟩
    · simp only [lineCount, hlen]; split
      · omega
      · split <;> omega
    · simp only [lineCount, hlen]; omega
    · simp only [lineCount]; omega
  obtain ⟨p, hp, hle, hc, hs⟩ := lineOffset_spec b.content k hk'.1
  refine ⟨p, ?_, hle, hs, ?_⟩
  · simp only [call_goto_line, builtinGotoLine, oneNum, hk]
    rw [show ((k : Int) + 1 - 1).toNat = k by omega, hp]; rfl
  · simp only [call_line_number_at_pos, builtinLineNumberAtPos, noArgs, ret, dec64_succ, atLeast0_eq, atMost_eq]
    have e : (min (((p : Int).toNat : Nat) : Int) (b.content.length : Int)).toNat = p := by omega
    rw [e, ← hk'.2]
    simp only [nlCount] at hc
    rw [hc]
    congr 3; omega

/-- line-number-at-pos is one plus the number of newlines before point. -/
theorem C11_line_number (b : Buffer) (h : InRange b) :
    call b! "line-number-at-pos" [] b = (.ok (numV (1 + nlCount b.before)), b) := by
  obtain ⟨p, hp, hle⟩ := h.exists
  simp only [call_line_number_at_pos, builtinLineNumberAtPos, noArgs, ret, atLeast0_eq, atMost_eq, hp, dec64_succ]
  have e : (min (((p : Int).toNat : Nat) : Int) (b.content.length : Int)).toNat = p := by omega
  have e2 : (b.point - 1).toNat = p := by omega
  rw [e]
  simp only [Buffer.before, e2, nlCount]

example : call b! "goto-line" [numV 2] (newBuffer b! "one\ntwo\nthree") =
    (okEmpty, { newBuffer b! "one\ntwo\nthree" with point := 5 }) ∧
    call b! "goto-line" [numV 99] (newBuffer b! "one\ntwo\nthree") =
    (okEmpty, { newBuffer b! "one\ntwo\nthree" with point := 9 }) := ⟨rfl, rfl⟩

/-! ### C12 -/

/-- beginning-of-line goes to the start of the line of point, when point is on a character or at the end of a text
whose last byte is no newline. (The two remaining positions are treated below: there the command goes elsewhere.) -/
theorem C12_beginning_of_line (b : Buffer) (h : InRange b)
    (hon : b.point ≤ b.content.length ∨ (b.content ≠ [] ∧ b.content.getLast? ≠ some nl)) :
    ∃ k : Nat, call b! "beginning-of-line" [] b = (okEmpty, { b with point := k + 1 }) ∧
      IsLineStart b.content (b.point - 1).toNat k := by
  obtain ⟨p, hp, hle⟩ := h.exists
  have e2 : (b.point - 1).toNat = p := by omega
  rw [e2]
  simp only [call_beginning_of_line, builtinBeginningOfLine, noArgs, hp, dec64_succ]
  rw [if_neg (by omega)]
  by_cases hlt : p < b.content.length
  · rw [if_neg (by omega)]
    obtain ⟨k, hk, hs⟩ := scanBack_line b.content p hle
    exact ⟨k, by rw [hk]; rfl, hs⟩
  · have hpe : p = b.content.length := by omega
    obtain ⟨hne, hlast⟩ := hon.resolve_left (by omega)
    have hpos : 0 < b.content.length := List.length_pos_iff.2 hne
    rw [if_pos (by omega)]
    obtain ⟨k, hk, hs⟩ := scanBack_line b.content (b.content.length - 1) (by omega)
    refine ⟨k, ?_, ?_⟩
    · rw [show (b.content.length : Int) - 1 = ((b.content.length - 1 : Nat) : Int) by omega, hk]; rfl
    · refine ⟨by have := hs.1; omega, hs.2.1, fun j h1 h2 => ?_⟩
      by_cases hj : j < b.content.length - 1
      · exact hs.2.2 j h1 hj
      · have : j = b.content.length - 1 := by omega
        subst this
        rw [List.getLast?_eq_getElem?] at hlast
        exact hlast

/-- After a final newline beginning-of-line goes to the start of the line which that newline ends, not to point's own (empty) line. -/
theorem C12_after_final_newline (b : Buffer) (hp : b.point = b.content.length + 1) (hlast : b.content.getLast? = some nl) :
    ∃ k : Nat, call b! "beginning-of-line" [] b = (okEmpty, { b with point := k + 1 }) ∧ IsLineStart b.content (b.content.length - 1) k ∧
      k + 1 < b.point ∧ IsLineStart b.content (b.point - 1).toNat (b.point - 1).toNat := by
  have hpos : 0 < b.content.length := by
    rcases hc : b.content with _ | ⟨x, xs⟩
    · rw [hc] at hlast; exact nomatch hlast
    · simp
  obtain ⟨k, hk, hs⟩ := scanBack_line b.content (b.content.length - 1) (by omega)
  refine ⟨k, ?_, hs, by have := hs.1; omega, by omega, .inr ?_, by omega⟩
  · simp only [call_beginning_of_line, builtinBeginningOfLine, noArgs, hp, dec64_succ]
    rw [if_neg (by omega), if_pos (by omega), show (b.content.length : Int) - 1 = ((b.content.length - 1 : Nat) : Int) by omega, hk]; rfl
  · rw [List.getLast?_eq_getElem?] at hlast
    rw [show (b.point - 1).toNat - 1 = b.content.length - 1 by omega]
    exact hlast

/-- On an empty buffer beginning-of-line always sets point to 0, before point-min. -/
theorem C12_empty_buffer (b : Buffer) (hc : b.content = []) (hp : b.point = 1) :
    call b! "beginning-of-line" [] b = (okEmpty, { b with point := 0 }) := by
  simp only [call_beginning_of_line, builtinBeginningOfLine, noArgs, hp, hc]
  rfl

/-- At the end of a text that ends in a newline, beginning-of-line goes to the start of the *previous* line, so the
claim "it goes to the start of the line of point" is false. -/
theorem C12_false_after_final_newline :
    call b! "beginning-of-line" [] { newBuffer b! "ab\n" with point := 4 } =
      (okEmpty, { newBuffer b! "ab\n" with point := 1 }) ∧
    IsLineStart b! "ab\n" 3 3 ∧ ¬ IsLineStart b! "ab\n" 3 0 := by
  refine ⟨rfl, ⟨by omega, .inr rfl, by omega⟩, fun h => h.2.2 2 (by omega) (by omega) rfl⟩

/-- On an empty buffer beginning-of-line sets point to 0, before point-min. -/
theorem C12_false_empty_buffer :
    call b! "beginning-of-line" [] (newBuffer []) = (okEmpty, { newBuffer [] with point := 0 }) := rfl

example : InRange { newBuffer b! "ab\ncd" with point := 6 } ∧
    call b! "beginning-of-line" [] { newBuffer b! "ab\ncd" with point := 6 } =
      (okEmpty, { newBuffer b! "ab\ncd" with point := 4 }) := by
  refine ⟨by simp [InRange, newBuffer], rfl⟩

/-! ### C13 -/

/-- end-of-line goes to the next newline at or after point, or to point-max; nothing else changes. -/
theorem C13_end_of_line (b : Buffer) (h : InRange b) :
    ∃ k : Nat, call b! "end-of-line" [] b = (okEmpty, { b with point := k + 1 }) ∧
      IsLineEnd b.content (b.point - 1).toNat k := by
  obtain ⟨p, hp, hle⟩ := h.exists
  have e2 : (b.point - 1).toNat = p := by omega
  rw [e2]
  simp only [call_end_of_line, builtinEndOfLine, noArgs, hp, dec64_succ, atLeast0_eq]
  have e3 : (((p : Int).toNat : Nat) : Int) = p := by omega
  rw [e3]
  by_cases hlt : p < b.content.length
  · rw [if_neg (by omega)]
    obtain ⟨k, hk, hs⟩ := scanFwd_line b.content p hle
    exact ⟨k, by rw [hk]; rfl, hs⟩
  · rw [if_pos (by omega)]
    exact ⟨b.content.length, rfl, by omega, by omega, .inl rfl, by omega⟩

/-- end-of-line is idempotent. -/
theorem C13_end_of_line_idempotent (b : Buffer) (h : InRange b) :
    call b! "end-of-line" [] (call b! "end-of-line" [] b).2 = call b! "end-of-line" [] b := by
  obtain ⟨k, hk, hs⟩ := C13_end_of_line b h
  rw [hk]
  have hr : InRange { b with point := (k : Int) + 1 } := by
    have := hs.2.1
    exact ⟨by simp only; omega, by simp only; omega⟩
  obtain ⟨k', hk', hs'⟩ := C13_end_of_line _ hr
  rw [hk']
  have : IsLineEnd b.content k k := ⟨by omega, hs.2.1, hs.2.2.1, by omega⟩
  have e : ((k : Int) + 1 - 1).toNat = k := by omega
  simp only [e] at hs'
  rw [lineEnd_unique hs' this]

example : call b! "end-of-line" [] { newBuffer b! "ab\ncd" with point := 2 } =
      (okEmpty, { newBuffer b! "ab\ncd" with point := 3 }) := rfl

/-! ### C14 -/

/-- forward-char n moves to point+n clamped to [1, point-max] (as long as the 64-bit sum does not overflow). -/
theorem C14_forward_char (b : Buffer) (args : List Value) (n : Int) (hn : CountArg args n)
    (h1 : minInt ≤ b.point + n) (h2 : b.point + n ≤ maxInt) :
    call b! "forward-char" args b =
      (okEmpty, { b with point := max 1 (min (b.point + n) (b.content.length + 1)) }) := by
  simp only [call_forward_char, builtinForwardChar, withCount_of hn, done, okEmpty, wrap64_eq h1 h2]
  congr 2
  split
  · omega
  · split <;> omega

/-- backward-char n moves to point-n, but not before 1. -/
theorem C14_backward_char (b : Buffer) (args : List Value) (n : Int) (hn : CountArg args n)
    (h1 : minInt ≤ b.point - n) (h2 : b.point - n ≤ maxInt) :
    call b! "backward-char" args b = (okEmpty, { b with point := max 1 (b.point - n) }) := by
  simp only [call_backward_char, builtinBackwardChar, withCount_of hn, done, okEmpty, wrap64_eq h1 h2]
  congr 2
  split <;> omega

/-- backward-char n undoes forward-char n when the move stays inside the buffer. -/
theorem C14_inverse (b : Buffer) (args : List Value) (n : Int) (hn : CountArg args n) (h : InRange b)
    (h1 : 1 ≤ b.point + n) (h2 : b.point + n ≤ b.content.length + 1) (hb : (b.content.length : Int) < maxInt) :
    call b! "backward-char" args (call b! "forward-char" args b).2 = (okEmpty, b) := by
  have h3 := h.1
  have h4 := h.2
  rw [C14_forward_char b args n hn (by omega) (by omega)]
  rw [show max 1 (min (b.point + n) (b.content.length + 1)) = b.point + n by omega]
  rw [C14_backward_char _ args n hn (by simp only; omega) (by simp only; omega)]
  congr 2
  simp only; omega

/-- The bound is needed: for `n = 2^63 - 1024` and point beyond 1024 the 64-bit sum wraps around and a huge
forward move lands at the *start* of the buffer. -/
theorem C14_overflow_counterexample (b : Buffer) (h1 : 1024 ≤ b.point) (h2 : b.point ≤ maxInt) :
    call b! "forward-char" [.num (F64.fin false 9007199254740991 10)] b = (okEmpty, { b with point := 1 }) := by
  have hn : CountArg [.num (F64.fin false 9007199254740991 10)] 9223372036854774784 := .inr ⟨_, rfl, by simp [F64.toInt, F64.truncAbs]⟩
  have hw : wrap64 (b.point + 9223372036854774784) < 1 := by simp only [wrap64]; omega
  simp only [call_forward_char, builtinForwardChar, withCount_of hn, done, okEmpty, if_pos hw]

/-- backward-char does not clamp at the end: a negative count leaves the buffer. -/
theorem C14_backward_char_no_upper_clamp :
    call b! "backward-char" [numV (-10)] (newBuffer b! "abc") = (okEmpty, { newBuffer b! "abc" with point := 11 }) := rfl

example : CountArg [numV 3] 3 ∧ call b! "forward-char" [numV 3] (newBuffer b! "abcdef") =
    (okEmpty, { newBuffer b! "abcdef" with point := 4 }) := by
  refine ⟨countArg_numV 3 (by omega), ?_⟩
  rw [C14_forward_char _ _ 3 (countArg_numV 3 (by omega)) (by decide) (by decide)]
  rfl

/-! ### C15 -/

/-- forward-word n repeats, n times, the motion to the end of the next word (or the end of the text). -/
theorem C15_forward_word (b : Buffer) (args : List Value) (n : Int) (hn : CountArg args n) (h : InRange b) :
    ∃ k : Nat, call b! "forward-word" args b = (okEmpty, { b with point := k + 1 }) ∧ k ≤ b.content.length ∧
      Iter (IsNextWordEnd b.content) n.toNat (b.point - 1).toNat k := by
  obtain ⟨p, hp, hle⟩ := h.exists
  have e2 : (b.point - 1).toNat = p := by omega
  obtain ⟨k, hk, hs, h1, h2⟩ := fwdWords_spec b.content n.toNat p hle
  refine ⟨k, ?_, h2, by rwa [e2]⟩
  simp only [call_forward_word, builtinForwardWord, withCount_of hn, hp, dec64_succ, hk, incPos_le _ _ h2]; rfl

/-- backward-word n repeats, n times, the motion to the start of the previous word (or the start of the text). -/
theorem C15_backward_word (b : Buffer) (args : List Value) (n : Int) (hn : CountArg args n) (h : InRange b) :
    ∃ k : Nat, call b! "backward-word" args b = (okEmpty, { b with point := k + 1 }) ∧ k ≤ (b.point - 1).toNat ∧
      Iter (IsPrevWordStart b.content) n.toNat (b.point - 1).toNat k := by
  obtain ⟨p, hp, hle⟩ := h.exists
  have e2 : (b.point - 1).toNat = p := by omega
  obtain ⟨k, hk, hs, h1⟩ := bwdWords_spec b.content n.toNat p hle
  refine ⟨k, ?_, by omega, by rwa [e2]⟩
  simp only [call_backward_word, builtinBackwardWord, withCount_of hn, hp, dec64_succ, hk, incPos_le _ _ (Nat.le_trans h1 hle)]; rfl

omit [Ext] in
/-- The word relations determine their end points: there is only one next word end. -/
theorem C15_next_word_end_unique (c : Bytes) (i k k' : Nat) (h : IsNextWordEnd c i k) (h' : IsNextWordEnd c i k') :
    k = k' := by
  obtain ⟨m, a1, a2, a3, a4, a5, a6, a7⟩ := h
  obtain ⟨m', b1, b2, b3, b4, b5, b6, b7⟩ := h'
  have hm : m = m' := by
    rcases Nat.lt_trichotomy m m' with hl | he | hl
    · rcases a5 with a5 | a5
      · omega
      · exact absurd a5 (b4 m a1 hl)
    · exact he
    · rcases b5 with b5 | b5
      · omega
      · exact absurd b5 (a4 m' b1 hl)
  subst hm
  rcases Nat.lt_trichotomy k k' with hl | he | hl
  · exact absurd (b6 k a2 hl) a7
  · exact he
  · exact absurd (a6 k' b2 hl) b7

example : call b! "forward-word" [numV 2] (newBuffer b! "  foo, bar1 baz") =
      (okEmpty, { newBuffer b! "  foo, bar1 baz" with point := 12 }) ∧
    call b! "backward-word" [] { newBuffer b! "  foo, bar1 baz" with point := 13 } =
      (okEmpty, { newBuffer b! "  foo, bar1 baz" with point := 8 }) := ⟨rfl, rfl⟩

/-! ### C59 -/

omit [Ext] in
theorem columnLoop_spec (c : Bytes) (n : Nat) (h : n ≤ c.length) :
    ∃ k : Nat, IsLineStart c n k ∧ columnLoop c n = some (n - k) := by
  induction n with
  | zero => exact ⟨0, ⟨by omega, .inl rfl, by omega⟩, rfl⟩
  | succ n ih =>
    have hx : c[n]? = some c[n] := List.getElem?_eq_getElem (by omega)
    simp only [columnLoop, hx]
    by_cases hn : c[n] = nl
    · refine ⟨n + 1, ⟨by omega, .inr (by simp [hx, hn]), by omega⟩, by simp [hn]⟩
    · obtain ⟨k, hk, hc⟩ := ih (by omega)
      refine ⟨k, ⟨by have := hk.1; omega, hk.2.1, fun j h1 h2 => ?_⟩, ?_⟩
      · by_cases hj : j = n
        · subst hj; rw [hx]; simpa using hn
        · exact hk.2.2 j h1 (by omega)
      · have := hk.1
        simp only [hn, if_false, hc, Option.map_some]
        congr 1; omega

/-- The exact value of current-column for a point on a character: the distance from the start of the line to just
*after* the character at point, where a newline already belongs to the next line (so it gives 0). -/
theorem C59_current_column_exact (b : Buffer) (h1 : 1 ≤ b.point) (h2 : b.point ≤ b.content.length) :
    ∃ k : Nat, IsLineStart b.content b.point.toNat k ∧
      call b! "current-column" [] b = (.ok (numV (b.point.toNat - k : Nat)), b) := by
  obtain ⟨p, hp⟩ : ∃ p : Nat, b.point = p + 1 := ⟨(b.point - 1).toNat, by omega⟩
  obtain ⟨k, hk, hc⟩ := columnLoop_spec b.content (p + 1) (by omega)
  have e : b.point.toNat = p + 1 := by omega
  refine ⟨k, by rwa [e], ?_⟩
  simp only [call_current_column, builtinCurrentColumn, noArgs, hp, dec64_succ]
  rw [if_neg (by omega), if_neg (by omega)]
  rw [show ((p : Int) + 1).toNat = p + 1 by omega, hc]; rfl

/-- At the end of the buffer current-column is right: the distance from the start of the line to point. -/
theorem C59_at_end (b : Buffer) (h : b.point = b.content.length + 1) :
    ∃ k : Nat, IsLineStart b.content b.content.length k ∧ call b! "current-column" [] b = (.ok (numV (b.content.length - k : Nat)), b) := by
  obtain ⟨k, hk, hc⟩ := columnLoop_spec b.content b.content.length (by omega)
  refine ⟨k, hk, ?_⟩
  simp only [call_current_column, builtinCurrentColumn, noArgs, h, dec64_succ]
  rw [if_neg (by omega), if_pos (by omega), show ((b.content.length : Int) - 1 + 1).toNat = b.content.length by omega, hc]; rfl

/-- The documented 0-based column is never reported for a point on a character: on a newline the answer is 0, elsewhere it is one more
than the distance from the start of the line. -/
theorem C59_off_by_one (b : Buffer) (h1 : 1 ≤ b.point) (h2 : b.point ≤ b.content.length) (k : Nat) (hk : IsLineStart b.content (b.point - 1).toNat k) :
    call b! "current-column" [] b =
      (.ok (numV (if b.content[(b.point - 1).toNat]? = some nl then 0 else (b.point - 1).toNat - k + 1 : Nat)), b) := by
  obtain ⟨k', hk', hc⟩ := C59_current_column_exact b h1 h2
  rw [hc]
  congr 3
  obtain ⟨p, hp⟩ : ∃ p : Nat, b.point = p + 1 := ⟨(b.point - 1).toNat, by omega⟩
  have e1 : b.point.toNat = p + 1 := by omega
  have e2 : (b.point - 1).toNat = p := by omega
  rw [e1] at hk' ⊢
  rw [e2] at hk ⊢
  have := hk.1
  have := hk'.1
  split
  · rename_i hn
    rcases Nat.lt_or_ge p k' with h | h
    · omega
    · exact absurd hn (hk'.2.2 p h (by omega))
  · rename_i hn
    have : k' = k := by
      rcases Nat.lt_trichotomy k k' with h | h | h
      · exfalso
        rcases hk'.2.1 with h0 | h0
        · omega
        · rcases Nat.lt_or_ge (k' - 1) p with h' | h'
          · exact hk.2.2 (k' - 1) (by omega) h' h0
          · rw [show k' - 1 = p by omega] at h0; exact hn h0
      · exact h.symm
      · exfalso
        rcases hk.2.1 with h0 | h0
        · omega
        · exact hk'.2.2 (k - 1) (by omega) (by omega) h0
    omega

/-- C59 is false: at the first character of a line the column is 1, and on a newline it is 0. -/
theorem C59_false :
    call b! "current-column" [] (newBuffer b! "abc\n") = (.ok (numV 1), newBuffer b! "abc\n") ∧
    call b! "current-column" [] { newBuffer b! "abc\n" with point := 4 } =
      (.ok (numV 0), { newBuffer b! "abc\n" with point := 4 }) := ⟨rfl, rfl⟩

end Texted
