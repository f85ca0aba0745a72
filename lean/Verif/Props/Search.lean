import Verif.Lemmas.Index
import Verif.Props.Edit
/-
C06 search-forward, C07 search-backward, C08 search then replace-match, C09 stale matches.
-/
namespace Texted
variable [Ext]

/-- The buffer after a search that matched the `len` bytes at 0-based offset `i`. -/
def Buffer.matched (b : Buffer) (i : Nat) (m : Bytes) : Buffer :=
  { b with point := i + m.length + 1, lastMatch := m, lastStart := i + 1, lastEnd := i + m.length + 1 }

/-! ### C06 -/

/-- search-forward finds the earliest occurrence at or after point and moves past it. No byte of the pattern is
special: occurrence is literal. -/
theorem C06_search_forward_success (b : Buffer) (p : Bytes) (hp : minInt < b.point) (i : Nat)
    (hpt : (b.point - 1).toNat < b.content.length)
    (hfrom : (b.point - 1).toNat ≤ i) (hocc : OccursAt p b.content i)
    (hmin : ∀ j, (b.point - 1).toNat ≤ j → j < i → ¬ OccursAt p b.content j) :
    call b! "search-forward" [.str p] b = (okEmpty, b.matched i p) := by
  have e1 : atLeast0 (dec64 b.point) = (((b.point - 1).toNat : Nat) : Int) := by
    rw [dec64_of hp, atLeast0_eq]
  have hidx : indexOf p (b.content.drop (b.point - 1).toNat) = some (i - (b.point - 1).toNat) := by
    apply indexOf_eq_some
    · rw [occursAt_drop _ _ _ _ (by omega)]; rwa [show (b.point - 1).toNat + (i - (b.point - 1).toNat) = i by omega]
    · intro j hj
      rw [occursAt_drop _ _ _ _ (by omega)]
      exact hmin _ (by omega) (by omega)
  simp only [call_search_forward, builtinSearchForward, oneStr, e1, sliceFrom_eq _ _ (Nat.le_of_lt hpt), hidx]
  rw [if_neg (by omega)]
  simp only [done, okEmpty, Buffer.matched]
  congr 2 <;> omega

/-- search-forward fails, changing nothing, when point is at the end or nothing occurs at or after it. -/
theorem C06_search_forward_failure (b : Buffer) (p : Bytes) (hp : minInt < b.point)
    (h : b.content.length ≤ (b.point - 1).toNat ∨ ∀ j, (b.point - 1).toNat ≤ j → ¬ OccursAt p b.content j) :
    call b! "search-forward" [.str p] b = (.err b! "search failed", b) := by
  have e1 : atLeast0 (dec64 b.point) = (((b.point - 1).toNat : Nat) : Int) := by
    rw [dec64_of hp, atLeast0_eq]
  simp only [call_search_forward, builtinSearchForward, oneStr, e1]
  by_cases hpt : b.content.length ≤ (b.point - 1).toNat
  · rw [if_pos (by omega)]; rfl
  · rw [if_neg (by omega), sliceFrom_eq _ _ (by omega)]
    have hidx : indexOf p (b.content.drop (b.point - 1).toNat) = none := by
      apply indexOf_eq_none
      intro i
      rw [occursAt_drop _ _ _ _ (by omega)]
      exact (h.resolve_left hpt) _ (by omega)
    simp only [hidx, fail]

example : InRange (newBuffer b! "a.b*a.b*") ∧ OccursAt b! ".b*" b! "a.b*a.b*" 1 ∧
    call b! "search-forward" [.str b! ".b*"] (newBuffer b! "a.b*a.b*") =
      (okEmpty, (newBuffer b! "a.b*a.b*").matched 1 b! ".b*") := by
  refine ⟨by simp [InRange, newBuffer], ⟨b! "a", b! "a.b*", rfl, rfl⟩, rfl⟩

/-! ### C07 -/

/-- search-backward finds the last occurrence that ends at or before point and moves to its end. -/
theorem C07_search_backward_success (b : Buffer) (p : Bytes) (hp : 1 ≤ b.point) (i : Nat)
    (hto : (i : Int) + p.length ≤ b.point - 1) (hocc : OccursAt p b.content i)
    (hmax : ∀ j : Nat, i < j → (j : Int) + p.length ≤ b.point - 1 → ¬ OccursAt p b.content j) :
    call b! "search-backward" [.str p] b = (okEmpty, b.matched i p) := by
  obtain ⟨n, hn, hnl⟩ : ∃ n : Nat, atMost b.content.length (dec64 b.point) = (n : Int) ∧
      n = min (b.point - 1).toNat b.content.length := by
    refine ⟨_, ?_, rfl⟩
    rw [dec64_of (by omega), atMost_eq]; omega
  have hl := hocc.le
  have hidx : lastIndexOf p (b.content.take n) = some i := by
    apply lastIndexOf_eq_some
    · rw [occursAt_take _ _ _ _ (by omega)]; exact ⟨hocc, by omega⟩
    · intro j hj
      rw [occursAt_take _ _ _ _ (by omega)]
      rintro ⟨h1, h2⟩
      exact hmax j hj (by omega) h1
  simp only [call_search_backward, builtinSearchBackward, oneStr, hn]
  rw [if_neg (by omega), sliceTo_eq _ _ (by omega)]
  simp only [hidx, done, okEmpty, Buffer.matched]
  congr 2 <;> omega

/-- search-backward fails, changing nothing, when nothing occurs before point. -/
theorem C07_search_backward_failure (b : Buffer) (p : Bytes) (hp : minInt < b.point)
    (h : b.point < 1 ∨ ∀ j : Nat, (j : Int) + p.length ≤ b.point - 1 → ¬ OccursAt p b.content j) :
    call b! "search-backward" [.str p] b = (.err b! "search failed", b) := by
  simp only [call_search_backward, builtinSearchBackward, oneStr]
  by_cases hlt : b.point < 1
  · rw [if_pos]
    · rfl
    · rw [dec64_of hp, atMost_eq]; omega
  · obtain ⟨n, hn, hnl⟩ : ∃ n : Nat, atMost b.content.length (dec64 b.point) = (n : Int) ∧
        n = min (b.point - 1).toNat b.content.length := by
      refine ⟨_, ?_, rfl⟩
      rw [dec64_of (by omega), atMost_eq]; omega
    rw [hn, if_neg (by omega), sliceTo_eq _ _ (by omega)]
    have hidx : lastIndexOf p (b.content.take n) = none := by
      apply lastIndexOf_eq_none
      intro i
      rw [occursAt_take _ _ _ _ (by omega)]
      rintro ⟨h1, h2⟩
      exact (h.resolve_left hlt) i (by omega) h1
    simp only [hidx, fail]

example : call b! "search-backward" [.str b! "ab"] { newBuffer b! "ab ab ab" with point := 8 } =
      (okEmpty, ({ newBuffer b! "ab ab ab" with point := 8 } : Buffer).matched 3 b! "ab") := rfl

/-! ### C08 -/

/-- The recorded match is really in the text, at the recorded place. -/
def MatchValid (b : Buffer) : Prop :=
  ∃ u v, b.content = u ++ b.lastMatch ++ v ∧ b.lastStart = u.length + 1 ∧
    b.lastEnd = u.length + b.lastMatch.length + 1

/-- The four search commands. -/
def searchNames : List Bytes := [b! "search-forward", b! "search-backward", b! "re-search-forward", b! "re-search-backward"]

omit [Ext] in
theorem matchValid_of_slice (c m : Bytes) (i j : Int) (pt mk : Int) (h : slice c i j = some m) :
    MatchValid { content := c, point := pt, mark := mk, lastMatch := m, lastStart := i + 1, lastEnd := j + 1 } := by
  unfold slice at h
  split at h
  · rename_i hb
    cases h
    refine ⟨c.take i.toNat, c.drop j.toNat, ?_, by simp; omega, by simp; omega⟩
    have e : c.drop j.toNat = (c.drop i.toNat).drop (j - i).toNat := by rw [List.drop_drop]; congr 1; omega
    simp only
    rw [e, List.append_assoc, List.take_append_drop, List.take_append_drop]
  · cases h

/-- After any successful search — literal or regexp, forward or backward — the recorded match is in the text,
the text and the mark are as before, and point is at the end of the match. -/
theorem C08_search_records_match (name : Bytes) (hn : name ∈ searchNames) (p : Bytes) (b b' : Buffer) (v : Value)
    (hp : minInt < b.point) (h : call name [.str p] b = (.ok v, b')) :
    MatchValid b' ∧ b'.content = b.content ∧ b'.mark = b.mark ∧ b'.point = b'.lastEnd := by
  simp only [searchNames, List.mem_cons, List.not_mem_nil, or_false] at hn
  have hs : atLeast0 (dec64 b.point) = (((b.point - 1).toNat : Nat) : Int) := by
    rw [dec64_of hp, atLeast0_eq]
  rcases hn with rfl | rfl | rfl | rfl
  · simp only [call_search_forward, builtinSearchForward, oneStr, hs, done, fail, crash] at h
    split at h
    · cases h
    · rename_i hlt
      rw [sliceFrom_eq _ _ (by omega)] at h
      simp only at h
      split at h
      · cases h
      · rename_i idx hidx
        cases h
        obtain ⟨u, w, he, hu⟩ := (occursAt_drop _ _ _ _ (by omega)).1 (indexOf_some hidx).1
        exact ⟨⟨u, w, he, by simp; omega, by simp; omega⟩, rfl, rfl, rfl⟩
  · simp only [call_search_backward, builtinSearchBackward, oneStr, done, fail, crash] at h
    split at h
    · cases h
    · rename_i hlt
      split at h
      · cases h
      · rename_i area harea
        split at h
        · cases h
        · rename_i idx hidx
          cases h
          unfold sliceTo at harea
          split at harea
          · rename_i hb
            cases harea
            obtain ⟨u, w, he, hu⟩ := ((occursAt_take _ _ _ _ (by omega)).1 (lastIndexOf_some hidx).1).1
            exact ⟨⟨u, w, he, by simp; omega, by simp; omega⟩, rfl, rfl, rfl⟩
          · cases harea
  · simp only [call_re_search_forward, builtinReSearchForward, oneStr, done, fail, crash] at h
    split at h
    · cases h
    · split at h
      · cases h
      · split at h
        · cases h
        · split at h
          · cases h
          · split at h
            · cases h
            · rename_i hm
              cases h
              exact ⟨matchValid_of_slice _ _ _ _ _ _ hm, rfl, rfl, rfl⟩
  · simp only [call_re_search_backward, builtinReSearchBackward, oneStr, done, fail, crash] at h
    split at h
    · cases h
    · split at h
      · cases h
      · split at h
        · cases h
        · split at h
          · cases h
          · split at h
            · cases h
            · rename_i hm
              cases h
              exact ⟨matchValid_of_slice _ _ _ _ _ _ hm, rfl, rfl, rfl⟩

/-- replace-match on a valid, non-empty match replaces exactly the matched text and leaves point after it. -/
theorem C08_replace_valid_match (b : Buffer) (r : Bytes) (hv : MatchValid b) (hne : b.lastMatch ≠ []) :
    ∃ u v, b.content = u ++ b.lastMatch ++ v ∧ b.lastStart = u.length + 1 ∧
      call b! "replace-match" [.str r] b =
        (okEmpty, { b with content := u ++ r ++ v, point := u.length + r.length + 1 }) := by
  obtain ⟨u, v, he, h1, h2⟩ := hv
  refine ⟨u, v, he, h1, ?_⟩
  have hpos : 0 < b.lastMatch.length := List.length_pos_iff.2 hne
  have hlen : b.content.length = u.length + b.lastMatch.length + v.length := by rw [he]; simp; omega
  simp only [call_replace_match, builtinReplaceMatch, oneStr, hne, if_false]
  have e1 : b.lastStart - 1 = (u.length : Int) := by omega
  have e2 : b.lastEnd - 1 = ((u.length + b.lastMatch.length : Nat) : Int) := by omega
  rw [e1, e2, if_neg (by omega), spliceOr_eq _ _ _ _ _ (by omega) (by omega)]
  congr 2
  congr 1
  · congr 1
    rw [he, List.append_assoc, List.take_left' rfl]
  · rw [he, ← List.length_append, List.drop_left' rfl]

/-- C08: after a successful search with a non-empty match, replace-match edits exactly the match. -/
theorem C08_search_then_replace (name : Bytes) (hn : name ∈ searchNames) (p r : Bytes) (b b' : Buffer) (v : Value)
    (hp : minInt < b.point) (h : call name [.str p] b = (.ok v, b')) (hne : b'.lastMatch ≠ []) :
    ∃ u w, b.content = u ++ b'.lastMatch ++ w ∧
      call b! "replace-match" [.str r] b' =
        (okEmpty, { b' with content := u ++ r ++ w, point := u.length + r.length + 1 }) := by
  obtain ⟨hv, hc, _, _⟩ := C08_search_records_match name hn p b b' v hp h
  obtain ⟨u, w, he, _, hr⟩ := C08_replace_valid_match b' r hv hne
  exact ⟨u, w, hc ▸ he, hr⟩

/-- For the literal searches the match is the pattern itself. -/
theorem C08_literal_match_is_pattern (name : Bytes) (hn : name = b! "search-forward" ∨ name = b! "search-backward")
    (p : Bytes) (b b' : Buffer) (v : Value) (h : call name [.str p] b = (.ok v, b')) : b'.lastMatch = p := by
  rcases hn with rfl | rfl
  · simp only [call_search_forward, builtinSearchForward, oneStr, done, fail, crash] at h
    (repeat' split at h) <;> cases h <;> rfl
  · simp only [call_search_backward, builtinSearchBackward, oneStr, done, fail, crash] at h
    (repeat' split at h) <;> cases h <;> rfl

/-- Without a recorded match replace-match fails and changes nothing. -/
theorem C08_replace_without_search (b : Buffer) (r : Bytes) (h : b.lastMatch = []) :
    call b! "replace-match" [.str r] b = (.err b! "no previous search", b) := by
  simp [call_replace_match, builtinReplaceMatch, oneStr, h, fail]

/-- A fresh buffer has no recorded match, and a concrete search-and-replace. -/
example : (newBuffer b! "Hello world").lastMatch = [] ∧
    (call b! "replace-match" [.str b! "there"] (call b! "search-forward" [.str b! "world"] (newBuffer b! "Hello world, hi")).2).2.content
      = b! "Hello there, hi" := ⟨rfl, rfl⟩

/-! ### C09 -/

/-- replace-match replaces the bytes at the positions that the last search recorded, whatever they are by now, and fails without any
effect if there was no (non-empty) match or these positions no longer exist. -/
theorem C09_replaces_recorded_positions (b : Buffer) (r : Bytes) :
    ((b.lastMatch ≠ [] ∧ 1 ≤ b.lastStart ∧ b.lastStart < b.lastEnd ∧ b.lastEnd ≤ b.content.length + 1) →
      call b! "replace-match" [.str r] b = (okEmpty, { b with
        content := b.content.take (b.lastStart - 1).toNat ++ r ++ b.content.drop (b.lastEnd - 1).toNat, point := b.lastStart + r.length })) ∧
    (¬ (b.lastMatch ≠ [] ∧ 1 ≤ b.lastStart ∧ b.lastStart < b.lastEnd ∧ b.lastEnd ≤ b.content.length + 1) →
      ∃ e, call b! "replace-match" [.str r] b = (.err e, b)) := by
  simp only [call_replace_match, builtinReplaceMatch, oneStr]
  constructor
  · rintro ⟨h1, h2, h3, h4⟩
    rw [if_neg h1, if_neg (by omega)]
    have hs : b.lastStart - 1 = ((b.lastStart - 1).toNat : Int) := by omega
    have he : b.lastEnd - 1 = ((b.lastEnd - 1).toNat : Int) := by omega
    rw [hs, he, spliceOr_eq _ _ _ _ _ (by omega) (by omega)]
    congr 2
    omega
  · intro hn
    by_cases h1 : b.lastMatch = []
    · rw [if_pos h1]; exact ⟨_, rfl⟩
    · rw [if_neg h1]
      have : b.lastStart - 1 < 0 ∨ b.lastEnd - 1 > (b.content.length : Int) ∨ b.lastStart - 1 ≥ b.lastEnd - 1 := by
        rcases Int.lt_or_le b.lastStart 1 with h | h
        · omega
        · rcases Int.lt_or_le b.lastStart b.lastEnd with h' | h'
          · rcases Int.lt_or_le (b.content.length + 1) b.lastEnd with h'' | h''
            · omega
            · exact absurd ⟨h1, h, h', h''⟩ hn
          · omega
      rw [if_pos this]; exact ⟨_, rfl⟩

/-- C09 is false: a second replace-match overwrites text that was never matched. Script:
search-forward "ab"; replace-match "x"; replace-match "y" on "abcd" gives "yd", destroying the "c". -/
theorem C09_false_second_replace :
    let b1 := (call b! "search-forward" [.str b! "ab"] (newBuffer b! "abcd")).2
    let b2 := (call b! "replace-match" [.str b! "x"] b1).2
    call b! "replace-match" [.str b! "y"] b2 = (okEmpty, { b2 with content := b! "yd", point := 2 }) ∧
      b2.content = b! "xcd" := ⟨rfl, rfl⟩

/-- C09 is false: an insert between search and replace-match makes it overwrite unmatched text. -/
theorem C09_false_insert_between :
    let b1 := (call b! "search-forward" [.str b! "world"] (newBuffer b! "hello world")).2
    let b2 := { b1 with point := 1 }
    let b3 := (call b! "insert" [.str b! ">>> "] b2).2
    (call b! "replace-match" [.str b! "X"] b3).2.content = b! ">>> heX" ++ b! "orld" := rfl

end Texted
