import Verif.Props.Motion
import Verif.Props.Edit
/- C16–C20: word and line deletion and marking. -/
namespace Texted
variable [Ext]

/-! ### C16 -/

/-- kill-word n removes exactly the text forward-word n would move over and leaves point (and everything else)
where it was. -/
theorem C16_kill_word (b : Buffer) (args : List Value) (n : Int) (hn : CountArg args n) (h : InRange b) :
    ∃ k : Nat, call b! "forward-word" args b = (okEmpty, { b with point := k + 1 }) ∧
      b.point ≤ k + 1 ∧ k ≤ b.content.length ∧
      call b! "kill-word" args b = (okEmpty, { b with content := b.before ++ b.content.drop k }) := by
  obtain ⟨p, hp, hle⟩ := h.exists
  have e : (b.point - 1).toNat = p := by omega
  obtain ⟨k, hk, hs, h1, h2⟩ := fwdWords_spec b.content n.toNat p hle
  refine ⟨k, ?_, by omega, h2, ?_⟩
  · simp only [call_forward_word, builtinForwardWord, withCount_of hn, hp, dec64_succ, hk, incPos_le _ _ h2]; rfl
  · simp only [call_kill_word, builtinKillWord, withCount_of hn, hp, dec64_succ, hk, spliceOr_eq _ _ _ _ _ hle h2,
      Buffer.before]
    simp [← hp, e]

/-- kill-word n has the same effect on text and point as set-mark, forward-word n, delete-region. -/
theorem C16_kill_word_as_region (b : Buffer) (args : List Value) (n : Int) (hn : CountArg args n) (h : InRange b)  :
    let b1 := (call b! "set-mark" [] b).2
    let b2 := (call b! "forward-word" args b1).2
    let b3 := (call b! "delete-region" [] b2).2
    b3.content = (call b! "kill-word" args b).2.content ∧ b3.point = (call b! "kill-word" args b).2.point := by
  obtain ⟨k, hk1, hk2, hk3, hk4⟩ := C16_kill_word b args n hn h
  obtain ⟨k', hk1', -, -, -⟩ := C16_kill_word { b with mark := b.point } args n hn h
  have hkk : k' = k := by
    have e1 : (call b! "forward-word" args { b with mark := b.point }).2.point =
        (call b! "forward-word" args b).2.point := by
      simp only [call_forward_word, builtinForwardWord, withCount_of hn]
      cases fwdWords b.content n.toNat (dec64 b.point) <;> rfl
    rw [hk1, hk1'] at e1
    simp only at e1; omega
  subst hkk
  obtain ⟨h1, h2⟩ := h
  simp only [show (call b! "set-mark" [] b).2 = { b with mark := b.point } from rfl, hk1', hk4]
  rw [C04_delete_region _ (by simp only; omega) (by simp only; omega)]
  have e1 : regionLo { b with mark := b.point, point := (k' : Int) + 1 } = (b.point - 1).toNat := by
    simp only [regionLo]; omega
  have e2 : regionHi { b with mark := b.point, point := (k' : Int) + 1 } = k' := by
    simp only [regionHi]; omega
  rw [e1, e2]
  split
  · exact ⟨rfl, by simp only; omega⟩
  · have : (b.point - 1).toNat = k' := by omega
    refine ⟨?_, by simp only; omega⟩
    simp [Buffer.before, this]

example : call b! "kill-word" [numV 2] { newBuffer b! "one two three" with point := 4 } =
    (okEmpty, { newBuffer b! "one" with point := 4 }) := rfl

/-! ### C17 -/

/-- What backward-kill-word n really removes: from where backward-word n would land *through the character at
point* (if there is one). -/
theorem C17_backward_kill_word_exact (b : Buffer) (args : List Value) (n : Int) (hn : CountArg args n) (h : InRange b) :
    ∃ k : Nat, call b! "backward-word" args b = (okEmpty, { b with point := k + 1 }) ∧ k + 1 ≤ b.point ∧
      call b! "backward-kill-word" args b =
        (okEmpty, { b with content := b.content.take k ++ b.after.drop 1, point := k + 1 }) := by
  obtain ⟨p, hp, hle⟩ := h.exists
  have e : (b.point - 1).toNat = p := by omega
  obtain ⟨k, hk, hs, h1⟩ := bwdWords_spec b.content n.toNat p hle
  refine ⟨k, ?_, by omega, ?_⟩
  · simp only [call_backward_word, builtinBackwardWord, withCount_of hn, hp, dec64_succ, hk,
      incPos_le _ _ (Nat.le_trans h1 hle)]; rfl
  · simp only [call_backward_kill_word, builtinBackwardKillWord, withCount_of hn, hp, dec64_succ, hk,
      incPos_le _ _ hle, atMost_eq, Buffer.after]
    rw [show min ((p : Int) + 1) (b.content.length : Int) = ((min (p + 1) b.content.length : Nat) : Int) by omega]
    rw [spliceOr_eq _ _ _ _ _ (by omega) (by omega)]
    have hd : b.content.drop (min (p + 1) b.content.length) = b.content.drop (p + 1) := by
      by_cases hlt : p + 1 ≤ b.content.length
      · rw [Nat.min_eq_left hlt]
      · rw [Nat.min_eq_right (by omega), List.drop_eq_nil_of_le (by omega), List.drop_eq_nil_of_le (by omega)]
    have e3 : ((p : Int) + 1 - 1).toNat = p := by omega
    simp only [List.append_nil, List.drop_drop, e3, hd]

/-- With point at the end of the buffer, backward-kill-word n removes exactly the text backward-word n would move
over. (Elsewhere the property is false; see below.) -/
theorem C17_backward_kill_word_at_end (b : Buffer) (args : List Value) (n : Int) (hn : CountArg args n)
    (h : b.point = b.content.length + 1) :
    ∃ k : Nat, call b! "backward-word" args b = (okEmpty, { b with point := k + 1 }) ∧ k + 1 ≤ b.point ∧
      call b! "backward-kill-word" args b = (okEmpty, { b with content := b.content.take k ++ b.after, point := k + 1 }) := by
  obtain ⟨k, h1, h2, h3⟩ := C17_backward_kill_word_exact b args n hn ⟨by omega, by omega⟩
  refine ⟨k, h1, h2, ?_⟩
  rw [h3]
  have : (b.point - 1).toNat = b.content.length := by omega
  simp [Buffer.after, this]

/-- Counterexample: with point before the space of "foo bar", the space is removed as well. -/
theorem C17_false :
    (call b! "backward-kill-word" [] { newBuffer b! "foo bar" with point := 4 }).2.content = b! "bar" := rfl

/-- Counterexample: a count of 0 removes a character. -/
theorem C17_false_count_zero :
    (call b! "backward-kill-word" [numV 0] { newBuffer b! "foo bar" with point := 5 }).2.content = b! "foo ar" := rfl

example : (call b! "backward-kill-word" [] { newBuffer b! "foo bar" with point := 8 }).2 =
    { newBuffer b! "foo " with point := 5 } := rfl

/-! ### C18 -/

/-- mark-line n puts mark at the start of the current line and point n line steps ahead; delete-line n removes
exactly the text between them and puts point at its start. -/
theorem C18_mark_line (b : Buffer) (args : List Value) (n : Int) (hn : CountArg args n) (h : InRange b) :
    ∃ s e : Nat, IsLineStart b.content (b.point - 1).toNat s ∧
      Iter (IsLineNext b.content) n.toNat (b.point - 1).toNat e ∧
      s ≤ e ∧ e ≤ b.content.length ∧
      call b! "mark-line" args b = (okEmpty, { b with mark := s + 1, point := e + 1 }) ∧
      call b! "delete-line" args b =
        (okEmpty, { b with content := b.content.take s ++ b.content.drop e, point := s + 1 }) := by
  obtain ⟨p, hp, hle⟩ := h.exists
  have e' : (b.point - 1).toNat = p := by omega
  obtain ⟨s, hs, hss⟩ := scanBack_line b.content p hle
  obtain ⟨e, he, hes, h1, h2⟩ := fwdLines_spec b.content n.toNat p hle
  have h3 := hss.1
  refine ⟨s, e, by rwa [e'], by rwa [e'], by omega, h2, ?_, ?_⟩
  · simp only [call_mark_line, builtinMarkLine, withCount_of hn, hp, dec64_succ, hs, he,
      incPos_le _ _ h2, incPos_le b.content s (by omega)]; rfl
  · simp only [call_delete_line, builtinDeleteLine, withCount_of hn, hp, dec64_succ, hs, he]
    rw [spliceOr_eq _ _ _ _ _ (by omega) h2]
    simp

/-- mark-line n followed by delete-region leaves the same text and point as delete-line n. -/
theorem C18_mark_line_delete_region (b : Buffer) (args : List Value) (n : Int) (hn : CountArg args n) (h : InRange b) :
    let b1 := (call b! "mark-line" args b).2
    (call b! "delete-region" [] b1).1 = (call b! "delete-line" args b).1 ∧
    (call b! "delete-region" [] b1).2.content = (call b! "delete-line" args b).2.content ∧
    (call b! "delete-region" [] b1).2.point = (call b! "delete-line" args b).2.point := by
  obtain ⟨s, e, _, _, h1, h2, hm, hd⟩ := C18_mark_line b args n hn h
  simp only [hm, hd]
  rw [C04_delete_region _ (by simp only; omega) (by simp only; omega)]
  have e1 : regionLo { b with mark := (s : Int) + 1, point := (e : Int) + 1 } = s := by
    simp only [regionLo]; omega
  have e2 : regionHi { b with mark := (s : Int) + 1, point := (e : Int) + 1 } = e := by
    simp only [regionHi]; omega
  rw [e1, e2]
  refine ⟨rfl, ?_⟩
  split
  · exact ⟨rfl, rfl⟩
  · have : s = e := by omega
    subst this
    simp

omit [Ext] in
theorem slice_cat {α} (c : List α) (i j k : Nat) (h1 : i ≤ j) (h2 : j ≤ k) :
    (c.drop i).take (k - i) = (c.drop i).take (j - i) ++ (c.drop j).take (k - j) := by
  have e : k - i = (j - i) + (k - j) := by omega
  rw [e, List.take_add, List.drop_drop]
  congr 3; omega

omit [Ext] in
theorem nlCount_slice_zero (c : Bytes) (i e : Nat) (h : ∀ j, i ≤ j → j < e → c[j]? ≠ some nl) :
    nlCount ((c.drop i).take (e - i)) = 0 := by
  apply nlCount_notMem
  intro hm
  obtain ⟨j, hj⟩ := List.mem_iff_getElem?.1 hm
  rw [List.getElem?_take] at hj
  split at hj
  · rw [List.getElem?_drop] at hj
    exact h (i + j) (by omega) (by omega) hj
  · cases hj

omit [Ext] in
theorem isLineNext_newlines {c : Bytes} {i k : Nat} (h : IsLineNext c i k) :
    (nlCount ((c.drop i).take (k - i)) = 1 ∧ i < k ∧ c[k - 1]? = some nl) ∨
      (k = c.length ∧ nlCount ((c.drop i).take (k - i)) = 0) := by
  obtain ⟨e, ⟨h1, h2, h3, h4⟩, h5⟩ := h
  have hz := nlCount_slice_zero c i e h4
  rcases h5 with ⟨h5, rfl⟩ | ⟨h5, rfl⟩
  · left
    have hx : c[e]? = some nl := by
      rcases h3 with h3 | h3
      · omega
      · exact h3
    refine ⟨?_, by omega, by simpa using hx⟩
    rw [slice_cat c i e (e + 1) h1 (by omega), nlCount_append, hz]
    have : (c.drop e).take (e + 1 - e) = [nl] := by
      rw [List.drop_eq_getElem_cons h5]
      rw [List.getElem?_eq_getElem h5] at hx
      simp at hx
      simp [hx]
    rw [this]; rfl
  · right
    exact ⟨h5, hz⟩

omit [Ext] in
/-- n ≥ 1 line steps go through the n-th newline, or to the end of the text if there are fewer. -/
theorem iter_lineNext_newlines {c : Bytes} (n : Nat) {i k : Nat} (h : Iter (IsLineNext c) (n + 1) i k) :
    (nlCount ((c.drop i).take (k - i)) = n + 1 ∧ i < k ∧ c[k - 1]? = some nl) ∨
      (k = c.length ∧ nlCount ((c.drop i).take (k - i)) ≤ n) := by
  induction n generalizing i with
  | zero =>
    obtain ⟨y, h1, rfl⟩ := h
    rcases isLineNext_newlines h1 with h2 | h2
    · exact .inl h2
    · exact .inr ⟨h2.1, by omega⟩
  | succ n ih =>
    obtain ⟨y, h1, h2⟩ := h
    have hy := h1.le
    have hk : y ≤ k ∧ k ≤ c.length := by
      clear ih h1
      have : ∀ m y, y ≤ c.length → Iter (IsLineNext c) m y k → y ≤ k ∧ k ≤ c.length := by
        intro m
        induction m with
        | zero => rintro y hy rfl; exact ⟨by omega, hy⟩
        | succ m ihm =>
          rintro y hy ⟨z, hz, hz'⟩
          have := hz.le
          have := ihm z (by omega) hz'
          omega
      exact this _ _ hy.2 h2
    have hsl := slice_cat c i y k hy.1 hk.1
    rw [hsl, nlCount_append]
    rcases isLineNext_newlines h1 with h3 | h3
    · rcases ih h2 with h4 | h4
      · left; exact ⟨by omega, by omega, h4.2.2⟩
      · right; exact ⟨h4.1, by omega⟩
    · right
      have : k = y := by omega
      subst this
      refine ⟨h3.1, ?_⟩
      simp [nlCount_nil]; omega

/-- For n ≥ 1 what delete-line removes is whole lines: it starts at a line start, and it ends right after the n-th
newline from point, or at the end of the text when fewer than n newlines follow. -/
theorem C18_delete_line_whole_lines (b : Buffer) (args : List Value) (n : Nat) (hn : CountArg args (n + 1 : Nat))
    (h : InRange b) :
    ∃ pre del post, b.content = pre ++ del ++ post ∧
      call b! "delete-line" args b = (okEmpty, { b with content := pre ++ post, point := pre.length + 1 }) ∧
      (pre = [] ∨ pre.getLast? = some nl) ∧
      (b.point - 1).toNat - pre.length ≤ del.length ∧ pre.length ≤ (b.point - 1).toNat ∧
      nl ∉ del.take ((b.point - 1).toNat - pre.length) ∧
      ((nlCount del = n + 1 ∧ del.getLast? = some nl) ∨ (post = [] ∧ nlCount del ≤ n)) := by
  obtain ⟨s, e, hs, he, h1, h2, _, hd⟩ := C18_mark_line b args _ hn h
  obtain ⟨p, hp, hle⟩ := h.exists
  have e' : (b.point - 1).toNat = p := by omega
  rw [e'] at hs he ⊢
  have hpe : p ≤ e ∧ (p < e ∨ e = b.content.length) := by
    rcases iter_lineNext_newlines n he with h3 | h3
    · omega
    · omega
  have hsp := hs.1
  refine ⟨b.content.take s, (b.content.drop s).take (e - s), b.content.drop e, ?_, ?_, ?_, ?_, ?_, ?_, ?_⟩
  · have h4 := slice_cat b.content 0 s e (by omega) h1
    have h5 := slice_cat b.content 0 e b.content.length (by omega) h2
    simp only [List.drop_zero, Nat.sub_zero, List.take_length] at h4 h5
    rw [← h4]
    conv => lhs; rw [h5]
    congr 1
    apply List.take_of_length_le
    simp
  · rw [hd]
    congr 2
    simp; omega
  · by_cases hz : s = 0
    · left; simp [hz]
    · right
      rcases hs.2.1 with h4 | h4
      · omega
      · rw [List.getLast?_eq_getElem?, List.getElem?_take]
        simp only [List.length_take]
        rw [Nat.min_eq_left (by omega), if_pos (by omega), h4]
  · simp; omega
  · simp; omega
  · intro hm
    obtain ⟨j, hj⟩ := List.mem_iff_getElem?.1 hm
    simp only [List.length_take, Nat.min_eq_left (show s ≤ b.content.length by omega)] at hj
    rw [List.getElem?_take] at hj
    split at hj
    · rw [List.getElem?_take] at hj
      split at hj
      · rw [List.getElem?_drop] at hj
        exact hs.2.2 (s + j) (by omega) (by omega) hj
      · cases hj
    · cases hj
  · have hz := nlCount_slice_zero b.content s p hs.2.2
    rw [slice_cat b.content s p e hsp hpe.1, nlCount_append, hz]
    rcases iter_lineNext_newlines n he with h3 | h3
    · left
      refine ⟨by omega, ?_⟩
      rw [← slice_cat b.content s p e hsp hpe.1, List.getLast?_eq_getElem?, List.getElem?_take]
      simp only [List.length_take, List.length_drop]
      rw [Nat.min_eq_left (by omega), if_pos (by omega), List.getElem?_drop]
      rw [show s + (e - s - 1) = e - 1 by omega]
      exact h3.2.2
    · right
      exact ⟨by simp [h3.1], by omega⟩

example : call b! "delete-line" [numV 2] { newBuffer b! "a\nbcd\ne\nf" with point := 4 } =
      (okEmpty, { newBuffer b! "a\nf" with point := 3 }) ∧
    call b! "mark-line" [numV 2] { newBuffer b! "a\nbcd\ne\nf" with point := 4 } =
      (okEmpty, { newBuffer b! "a\nbcd\ne\nf" with mark := 3, point := 9 }) := ⟨rfl, rfl⟩

/-! ### C19 -/

/-- kill-line with point on a character other than a newline removes exactly the rest of the current line after
that character; no newline is removed. -/
theorem C19_kill_line_not_on_newline (b : Buffer) (args : List Value) (hn : CountArg args 1) (h1 : 1 ≤ b.point)
    (h2 : b.point ≤ b.content.length) (hx : b.content[(b.point - 1).toNat]? ≠ some nl) :
    ∃ e : Nat, IsLineEnd b.content (b.point - 1).toNat e ∧ b.point ≤ e ∧
      call b! "kill-line" args b =
        (okEmpty, { b with content := b.content.take b.point.toNat ++ b.content.drop e }) := by
  obtain ⟨p, hp⟩ : ∃ p : Nat, b.point = p + 1 := ⟨(b.point - 1).toNat, by omega⟩
  have e' : (b.point - 1).toNat = p := by omega
  rw [e'] at hx ⊢
  obtain ⟨e, he, hs⟩ := scanFwd_line b.content (p + 1) (by omega)
  have h3 := hs.1
  have h4 := hs.2.1
  refine ⟨e, ⟨by omega, h4, hs.2.2.1, ?_⟩, by omega, ?_⟩
  · intro j hj1 hj2
    by_cases hjp : j = p
    · subst hjp; exact hx
    · exact hs.2.2.2 j (by omega) hj2
  · simp only [call_kill_line, builtinKillLine, withCount_of hn, hp, dec64_succ]
    rw [if_neg (by omega), if_pos trivial]
    simp only [show ((p : Int) + 1) = ((p + 1 : Nat) : Int) by omega, he]
    rw [spliceOr_eq _ _ _ _ _ (by omega) h4]
    simp [← hp]; omega

/-- What kill-line removes in general: from *after* the character at point to the end of the line that starts or
continues there. With point on a newline this is the whole text of the *next* line. -/
theorem C19_kill_line_exact (b : Buffer) (args : List Value) (hn : CountArg args 1) (h1 : 1 ≤ b.point)
    (h2 : b.point ≤ b.content.length) :
    ∃ e : Nat, IsLineEnd b.content b.point.toNat e ∧
      call b! "kill-line" args b =
        (okEmpty, { b with content := b.content.take b.point.toNat ++ b.content.drop e }) := by
  obtain ⟨p, hp⟩ : ∃ p : Nat, b.point = p + 1 := ⟨(b.point - 1).toNat, by omega⟩
  obtain ⟨e, he, hs⟩ := scanFwd_line b.content (p + 1) (by omega)
  refine ⟨e, by rw [hp]; exact hs, ?_⟩
  simp only [call_kill_line, builtinKillLine, withCount_of hn, hp, dec64_succ]
  rw [if_neg (by omega), if_pos trivial]
  simp only [show ((p : Int) + 1) = ((p + 1 : Nat) : Int) by omega, he]
  rw [spliceOr_eq _ _ _ _ _ (by omega) hs.2.1]
  simp [← hp]; omega

/-- Counterexample to "stays on the current line". -/
theorem C19_false :
    (call b! "kill-line" [] { newBuffer b! "ab\ncd\ne" with point := 3 }).2.content = b! "ab\n\ne" := rfl

/-- kill-line n for n ≠ 1 removes from point over n line steps (for n ≥ 2: through the n-th newline, or to the end
of the text); at the end of the buffer nothing happens. -/
theorem C19_kill_line_n (b : Buffer) (args : List Value) (n : Int) (hn : CountArg args n) (hn1 : n ≠ 1) (h : InRange b) :
    ∃ e : Nat, Iter (IsLineNext b.content) n.toNat (b.point - 1).toNat e ∧ b.point ≤ e + 1 ∧ e ≤ b.content.length ∧
      (2 ≤ n → nlCount ((b.content.drop (b.point - 1).toNat).take (e - (b.point - 1).toNat)) = n ∨ e = b.content.length) ∧
      call b! "kill-line" args b = (okEmpty, { b with content := b.before ++ b.content.drop e }) := by
  obtain ⟨p, hp, hle⟩ := h.exists
  have e' : (b.point - 1).toNat = p := by omega
  rw [e']
  obtain ⟨e, he, hes, h1, h2⟩ := fwdLines_spec b.content n.toNat p hle
  refine ⟨e, hes, by omega, h2, ?_, ?_⟩
  · intro h2n
    obtain ⟨m, hm⟩ : ∃ m : Nat, n.toNat = m + 1 := ⟨n.toNat - 1, by omega⟩
    rw [hm] at hes
    rcases iter_lineNext_newlines m hes with h3 | h3
    · left; rw [h3.1]; omega
    · right; exact h3.1
  · simp only [call_kill_line, builtinKillLine, withCount_of hn, hp, dec64_succ, Buffer.before]
    by_cases hlt : (p : Int) < 0 ∨ (p : Int) ≥ (b.content.length : Int)
    · rw [if_pos hlt]
      have : p = b.content.length := by omega
      have he2 : e = b.content.length := by omega
      rw [he2]
      rw [← this, ← hp, e', this]
      simp [done, okEmpty]
    · rw [if_neg hlt, if_neg hn1]
      simp only [he]
      rw [spliceOr_eq _ _ _ _ _ hle h2]
      simp [← hp, e']

/-- At the end of the buffer kill-line does nothing. -/
theorem C19_kill_line_at_end (b : Buffer) (args : List Value) (n : Int) (hn : CountArg args n)
    (h : b.point = b.content.length + 1) : call b! "kill-line" args b = (okEmpty, b) := by
  simp only [call_kill_line, builtinKillLine, withCount_of hn, h, dec64_succ]
  rw [if_pos (by omega)]; rfl

example : call b! "kill-line" [] { newBuffer b! "abc\nd" with point := 2 } =
      (okEmpty, { newBuffer b! "ab\nd" with point := 2 }) ∧
    call b! "kill-line" [numV 2] { newBuffer b! "abc\nd\ne" with point := 2 } =
      (okEmpty, { newBuffer b! "ae" with point := 2 }) := ⟨rfl, rfl⟩

/-! ### C20 -/

/-- `[s, e)` is the maximal run of letters and digits containing offset `p`. -/
def IsWordRun (c : Bytes) (p s e : Nat) : Prop :=
  s ≤ p ∧ p < e ∧ (∀ j, s ≤ j → j < e → WordAt c j) ∧ (s = 0 ∨ ¬ WordAt c (s - 1)) ∧ ¬ WordAt c e

omit [Ext] in
/-- There is at most one such run. -/
theorem C20_word_run_unique {c : Bytes} {p s e s' e' : Nat} (h : IsWordRun c p s e) (h' : IsWordRun c p s' e') :
    s = s' ∧ e = e' := by
  obtain ⟨a1, a2, a3, a4, a5⟩ := h
  obtain ⟨b1, b2, b3, b4, b5⟩ := h'
  constructor
  · rcases Nat.lt_trichotomy s s' with hl | he | hl
    · rcases b4 with b4 | b4
      · omega
      · exact absurd (a3 _ (by omega) (by omega)) b4
    · exact he
    · rcases a4 with a4 | a4
      · omega
      · exact absurd (b3 _ (by omega) (by omega)) a4
  · rcases Nat.lt_trichotomy e e' with hl | he | hl
    · exact absurd (b3 _ (by omega) (by omega)) a5
    · exact he
    · exact absurd (a3 _ (by omega) (by omega)) b5

/-- On a letter or digit, mark-word selects the maximal run of letters and digits containing it. -/
theorem C20_mark_word (b : Buffer) (hp : 1 ≤ b.point) (hw : WordAt b.content (b.point - 1).toNat) :
    ∃ s e : Nat, IsWordRun b.content (b.point - 1).toNat s e ∧
      call b! "mark-word" [] b = (okEmpty, { b with mark := s + 1, point := e + 1 }) := by
  obtain ⟨p, hp⟩ : ∃ p : Nat, b.point = p + 1 := ⟨(b.point - 1).toNat, by omega⟩
  have e' : (b.point - 1).toNat = p := by omega
  rw [e'] at hw ⊢
  have hlt : p < b.content.length := by
    obtain ⟨x, hx, _⟩ := hw
    exact (List.getElem?_eq_some_iff.1 hx).1
  obtain ⟨s, hs, h1, h2, h3⟩ := scanBack_spec b.content (fun x => !isLetter x) p (by omega)
  obtain ⟨e, he, g0, g1, g2, g3⟩ := scanFwd_spec b.content (fun x => !isLetter x) p (by omega)
  simp only [wordAt_iff] at hw
  have hpe : p < e := by
    rcases Nat.lt_or_ge p e with h | h
    · exact h
    · have : e = p := by omega
      subst this
      rcases g2 with g2 | ⟨x, hx, hx'⟩
      · omega
      · obtain ⟨y, hy, hy'⟩ := hw
        rw [hx] at hy; cases hy
        simp [hy'] at hx'
  refine ⟨s, e, ⟨h1, hpe, ?_, ?_, ?_⟩, ?_⟩
  · intro j hj1 hj2
    rw [wordAt_iff]
    by_cases hjp : j < p
    · obtain ⟨x, hx, hx'⟩ := h3 j hj1 hjp
      exact ⟨x, hx, by simpa using hx'⟩
    · obtain ⟨x, hx, hx'⟩ := g3 j (by omega) hj2
      exact ⟨x, hx, by simpa using hx'⟩
  · rcases h2 with h2 | ⟨x, hx, hx'⟩
    · exact .inl h2
    · right
      rw [wordAt_iff]
      rintro ⟨y, hy, hy'⟩
      rw [hx] at hy; cases hy
      simp [hy'] at hx'
  · rw [wordAt_iff]
    rintro ⟨y, hy, hy'⟩
    rcases g2 with g2 | ⟨x, hx, hx'⟩
    · rw [g2, List.getElem?_eq_none (Nat.le_refl _)] at hy; cases hy
    · rw [hx] at hy; cases hy
      simp [hy'] at hx'
  · simp only [call_mark_word, builtinMarkWord, noArgs, hp, dec64_succ]
    rw [if_neg (by omega)]
    simp only [hs, he]; rfl

/-- Off a word (or at the end of the buffer) point does not move; at the end of the buffer nothing changes. -/
theorem C20_mark_word_off_word (b : Buffer) (h : InRange b) (hw : ¬ WordAt b.content (b.point - 1).toNat) :
    ∃ m, call b! "mark-word" [] b = (okEmpty, { b with mark := m }) ∧
      (b.point = b.content.length + 1 → m = b.mark) := by
  obtain ⟨p, hp, hle⟩ := h.exists
  have e' : (b.point - 1).toNat = p := by omega
  rw [e'] at hw
  by_cases hlt : p < b.content.length
  · obtain ⟨s, hs, h1, h2, h3⟩ := scanBack_spec b.content (fun x => !isLetter x) p (by omega)
    have he : scanFwd b.content (fun x => !isLetter x) p = some (p : Int) := by
      refine scanFwd_of_spec hle ⟨by omega, hle, .inr ?_, by omega⟩
      refine ⟨b.content[p], List.getElem?_eq_getElem hlt, ?_⟩
      rw [wordAt_iff] at hw
      cases hl : isLetter b.content[p] with
      | false => simp [hl]
      | true => exact absurd ⟨_, List.getElem?_eq_getElem hlt, hl⟩ hw
    refine ⟨s + 1, ?_, by omega⟩
    simp only [call_mark_word, builtinMarkWord, noArgs, hp, dec64_succ]
    rw [if_neg (by omega)]
    simp only [hs, he, done, okEmpty, ← hp]
  · refine ⟨b.mark, ?_, by simp⟩
    simp only [call_mark_word, builtinMarkWord, noArgs, hp, dec64_succ]
    rw [if_pos (by omega), ← hp]; rfl

example : WordAt b! "ab cd1, e" 4 ∧ call b! "mark-word" [] { newBuffer b! "ab cd1, e" with point := 5 } =
    (okEmpty, { newBuffer b! "ab cd1, e" with mark := 4, point := 7 }) :=
  ⟨⟨100, rfl, by simp [WordByte]⟩, rfl⟩

end Texted
