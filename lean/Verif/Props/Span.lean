import Verif.Props.Safety
/- C52: text outside the edited span survives every edit. -/
namespace Texted
variable [Ext]

/-- Where a command may edit: the 0-based offsets `lo ≤ hi` between which text may be replaced. -/
def Extent (name : Bytes) (b : Buffer) (lo hi : Nat) : Prop :=
  (name = b! "insert" → (lo : Int) = b.point - 1 ∧ hi = lo) ∧
  (name = b! "delete-region" ∨ name = b! "replace-region" →
    ((lo : Int) = max 0 (min b.mark b.point - 1) ∧ (hi : Int) = min (b.content.length : Int) (max b.mark b.point - 1)) ∨ hi = lo) ∧
  (name = b! "replace-match" → (lo : Int) = b.lastStart - 1 ∧ (hi : Int) = b.lastEnd - 1) ∧
  (name = b! "delete-char" ∨ name = b! "kill-word" ∨ name = b! "kill-line" → b.point - 1 ≤ (lo : Int)) ∧
  (name = b! "delete-backward-char" → (hi : Int) ≤ b.point - 1) ∧
  (name = b! "backward-kill-word" → (hi : Int) ≤ b.point) ∧
  (name = b! "delete-line" → IsLineStart b.content (b.point - 1).toNat lo ∧ b.point - 1 ≤ (hi : Int))

/-- The new text of an edit: nothing for deletions, the argument for insertions and replacements. The one exception is
`delete-char` with a negative count, which duplicates the bytes before point. -/
def NewText (name : Bytes) (args : List Value) (t : Bytes) : Prop :=
  t = [] ∨ args = [.str t] ∨ (name = b! "delete-char" ∧ ∃ n, CountArg args n ∧ n < 0)

/-- The effect of an edit. -/
def Spliced (name : Bytes) (args : List Value) (b b' : Buffer) : Prop :=
  ∃ (lo hi : Nat) (t : Bytes), lo ≤ hi ∧ hi ≤ b.content.length ∧ Extent name b lo hi ∧ NewText name args t ∧
    b'.content = b.content.take lo ++ t ++ b.content.drop hi

/-- No edit at all. -/
theorem spliced_same (name : Bytes) (args : List Value) (b b' : Buffer) (lo hi : Nat) (h1 : lo = hi) (h : hi ≤ b.content.length)
    (he : Extent name b lo hi) (hc : b'.content = b.content) : Spliced name args b b' :=
  ⟨lo, hi, [], by omega, h, he, .inl rfl, by subst h1; rw [hc]; simp⟩

omit [Ext] in
theorem splice_ok {b b' : Buffer} {i j : Nat} {t : Bytes} {p : Int} {v : Value} (hi : i ≤ b.content.length) (hj : j ≤ b.content.length)
    (h : spliceOr b i t j p = (.ok v, b')) : b'.content = b.content.take i ++ t ++ b.content.drop j := by
  rw [spliceOr_eq _ _ _ _ _ hi hj] at h
  simp only [okEmpty, Prod.mk.injEq] at h
  rw [← h.2]

theorem withCount_ok {name args} {b b' : Buffer} {k : Int → Res Bytes Value × Buffer} {v : Value}
    (h : withCount name args b k = (.ok v, b')) : ∃ n, CountArg args n ∧ k n = (.ok v, b') := by
  unfold withCount optCount at h
  split at h
  · rename_i n hn
    split at hn
    · cases hn; exact ⟨1, .inl ⟨rfl, rfl⟩, h⟩
    · cases hn; exact ⟨_, .inr ⟨_, rfl, rfl⟩, h⟩
    · cases hn
    · cases hn
  · simp [fail] at h

omit [Ext] in
theorem oneStr_ok {name args} {b b' : Buffer} {k : Bytes → Res Bytes Value × Buffer} {v : Value}
    (h : oneStr name args b k = (.ok v, b')) : ∃ s, args = [.str s] ∧ k s = (.ok v, b') := by
  unfold oneStr at h
  split at h
  · exact ⟨_, rfl, h⟩
  · simp [fail] at h
  · simp [fail] at h

omit [Ext] in
theorem noArgs_ok {name args} {b b' : Buffer} {k : Res Bytes Value × Buffer} {v : Value}
    (h : noArgs name args b k = (.ok v, b')) : args = [] ∧ k = (.ok v, b') := by
  unfold noArgs at h
  split at h
  · exact ⟨rfl, h⟩
  · simp [fail] at h

omit [Ext] in
theorem done_ok {b b' : Buffer} {v : Value} (h : done b = (.ok v, b')) : b' = b := by
  simp only [done, Prod.mk.injEq] at h; exact h.2.symm

omit [Ext] in
theorem regionBounds_minmax (b : Buffer) (hm : minInt < b.mark) (hp : 1 ≤ b.point) :
    (regionBounds b).1 = max 0 (min b.mark b.point - 1) ∧ (regionBounds b).2 = min (b.content.length : Int) (max b.mark b.point - 1) := by
  simp only [regionBounds, atLeast0_eq, atMost_eq]
  rw [dec64_of, dec64_of]
  · split <;> omega
  · split <;> omega
  · split <;> omega

/-- Every successful editing command started with point inside the buffer keeps the text before `lo` and from `hi` on,
where `lo` and `hi` are determined by point, mark, the recorded match or the line as `Extent` says, and puts
`NewText` between them. (`mark` above the smallest int: the only excluded value is -2^63; a Go string is always shorter than 2^63.) -/
theorem C52_edits_are_local (name : Bytes) (hn : name ∈ editNames) (args : List Value) (b b' : Buffer) (v : Value)
    (h : InRange b) (hlen : (b.content.length : Int) ≤ maxInt)
    (hm : minInt < b.mark) (hc : call name args b = (.ok v, b')) : Spliced name args b b' := by
  obtain ⟨p, hpt, hle, hd⟩ := point_off h
  simp only [editNames, List.mem_cons, List.not_mem_nil, or_false] at hn
  rcases hn with rfl | rfl | rfl | rfl | rfl | rfl | rfl | rfl | rfl | rfl
  · -- insert
    rw [call_insert] at hc
    obtain ⟨s, rfl, hk⟩ := oneStr_ok hc
    have := done_ok hk
    subst this
    refine ⟨p, p, s, by omega, hle, ?_, .inr (.inl rfl), ?_⟩
    · simp [Extent]; omega
    · unfold Buffer.insert
      simp only []
      split
      · have : p = 0 := by omega
        subst this; simp
      · rw [if_neg (by omega), show (b.point - 1).toNat = p by omega]
  · -- replace-match
    rw [call_replace_match] at hc
    obtain ⟨s, rfl, hk⟩ := oneStr_ok hc
    simp only [] at hk
    split at hk
    · simp [fail] at hk
    · split at hk
      · simp [fail] at hk
      · obtain ⟨i, hi⟩ : ∃ i : Nat, b.lastStart - 1 = i := ⟨(b.lastStart - 1).toNat, by omega⟩
        obtain ⟨j, hj⟩ : ∃ j : Nat, b.lastEnd - 1 = j := ⟨(b.lastEnd - 1).toNat, by omega⟩
        rw [hi, hj] at hk
        refine ⟨i, j, s, by omega, by omega, ?_, .inr (.inl rfl), splice_ok (by omega) (by omega) hk⟩
        simp [Extent]; omega
  · -- replace-region
    rw [call_replace_region] at hc
    obtain ⟨s, rfl, hk⟩ := oneStr_ok hc
    simp only [] at hk
    split at hk
    · exact spliced_same _ _ _ _ 0 0 rfl (by omega) (by simp [Extent]) (by rw [done_ok hk])
    · obtain ⟨i, j, e, h1, h2⟩ := regionBounds_nat b (by omega)
      have hr := regionBounds_minmax b hm (by omega)
      rw [e] at hk hr
      refine ⟨i, j, s, by omega, by omega, ?_, .inr (.inl rfl), splice_ok (by omega) (by omega) hk⟩
      simp [Extent]; simp at hr; omega
  · -- delete-char
    rw [call_delete_char] at hc
    obtain ⟨n, hn, hk⟩ := withCount_ok hc
    simp only [] at hk
    split at hk
    · exact spliced_same _ _ _ _ p p rfl hle (by simp [Extent]; omega) (by rw [done_ok hk])
    · rename_i hin
      have hp : ¬ Panics b! "delete-char" args b := by
        rintro ⟨_, m, hm, hle', hw⟩
        obtain rfl := countArg_unique hn hm
        have hs : sliceFrom b.content (atMost (b.content.length : Int) (wrap64 (b.point - 1 + n))) = none := by
          unfold sliceFrom; rw [atMost_eq, if_neg (by omega)]
        simp only [spliceOr, hs] at hk
        split at hk
        · rename_i heq; cases heq
        · simp [crash] at hk
      have hw : ¬ wrap64 (b.point - 1 + n) < 0 := fun hc => hp ⟨rfl, n, hn, by omega, hc⟩
      obtain ⟨j, hj⟩ : ∃ j : Nat, atMost (b.content.length : Int) (wrap64 (b.point - 1 + n)) = j :=
        ⟨_, (Int.toNat_of_nonneg (by rw [atMost_eq]; omega)).symm⟩
      have hjle : j ≤ b.content.length := by rw [atMost_eq] at hj; omega
      rw [hj, show b.point - 1 = (p : Int) by omega] at hk
      have hcont := splice_ok hle hjle hk
      by_cases hpj : p ≤ j
      · exact ⟨p, j, [], hpj, hjle, by simp [Extent]; omega, .inl rfl, hcont⟩
      · refine ⟨p, p, (b.content.drop j).take (p - j), by omega, hle, by simp [Extent]; omega, .inr (.inr ⟨rfl, n, hn, ?_⟩), ?_⟩
        · refine Classical.byContradiction fun hneg => ?_
          rw [atMost_eq] at hj
          have hr := hn.range
          have hw2 : wrap64 (b.point - 1 + n) < p := by omega
          simp only [wrap64] at hw hw2
          omega
        · rw [hcont]
          have : (b.content.drop j) = (b.content.drop j).take (p - j) ++ b.content.drop p := by
            have e : b.content.drop p = (b.content.drop j).drop (p - j) := by
              rw [List.drop_drop, show j + (p - j) = p by omega]
            rw [e, List.take_append_drop]
          rw [List.append_nil, List.append_assoc, ← this]
  · -- delete-backward-char
    rw [call_delete_backward_char] at hc
    obtain ⟨n, hn, hk⟩ := withCount_ok hc
    simp only [hd, atLeast0_eq] at hk
    split at hk
    · exact spliced_same _ _ _ _ p p rfl hle (by simp [Extent]; omega) (by rw [done_ok hk])
    · exact ⟨_, p, [], by omega, hle, by simp [Extent]; omega, .inl rfl, splice_ok (by omega) hle hk⟩
  · -- delete-region
    rw [call_delete_region] at hc
    obtain ⟨rfl, hk⟩ := noArgs_ok hc
    simp only [] at hk
    split at hk
    · exact spliced_same _ _ _ _ 0 0 rfl (by omega) (by simp [Extent]) (by rw [done_ok hk])
    · obtain ⟨i, j, e, h1, h2⟩ := regionBounds_nat b (by omega)
      have hr := regionBounds_minmax b hm (by omega)
      rw [e] at hk hr
      refine ⟨i, j, [], by omega, by omega, ?_, .inl rfl, splice_ok (by omega) (by omega) hk⟩
      simp [Extent]; simp at hr; omega
  · -- delete-line
    rw [call_delete_line] at hc
    obtain ⟨n, hn, hk⟩ := withCount_ok hc
    obtain ⟨k, hs, hks⟩ := scanBack_line b.content p hle
    obtain ⟨k', hs', _, hge, hle'⟩ := fwdLines_spec b.content n.toNat p hle
    simp only [hd, hs, hs'] at hk
    have := hks.1
    refine ⟨k, k', [], by omega, hle', ?_, .inl rfl, splice_ok (by omega) (by omega) hk⟩
    have e : (b.point - 1).toNat = p := by omega
    simp only [Extent, e]
    simp; exact ⟨hks, by omega⟩
  · -- kill-line
    rw [call_kill_line] at hc
    obtain ⟨n, hn, hk⟩ := withCount_ok hc
    simp only [hd] at hk
    split at hk
    · exact spliced_same _ _ _ _ p p rfl hle (by simp [Extent]; omega) (by rw [done_ok hk])
    · split at hk
      · obtain ⟨k, hk', hks⟩ := scanFwd_spec b.content (· == nl) (p + 1) (by omega)
        rw [show ((p : Int) + 1) = ((p + 1 : Nat) : Int) by omega, hk'] at hk
        have := hks.1
        have := hks.2.1
        exact ⟨p + 1, k, [], by omega, by omega, by simp [Extent]; omega, .inl rfl, splice_ok (by omega) (by omega) hk⟩
      · obtain ⟨k', hk', _, hge, hle'⟩ := fwdLines_spec b.content n.toNat p hle
        simp only [hk'] at hk
        exact ⟨p, k', [], by omega, by omega, by simp [Extent]; omega, .inl rfl, splice_ok (by omega) (by omega) hk⟩
  · -- kill-word
    rw [call_kill_word] at hc
    obtain ⟨n, hn, hk⟩ := withCount_ok hc
    obtain ⟨k, hs, _, hge, hle'⟩ := fwdWords_spec b.content n.toNat p hle
    simp only [hd, hs] at hk
    exact ⟨p, k, [], by omega, hle', by simp [Extent]; omega, .inl rfl, splice_ok (by omega) (by omega) hk⟩
  · -- backward-kill-word
    rw [call_backward_kill_word] at hc
    obtain ⟨n, hn, hk⟩ := withCount_ok hc
    obtain ⟨k, hs, _, hge⟩ := bwdWords_spec b.content n.toNat p hle
    simp only [hd, hs] at hk
    rw [incPos_le _ p hle] at hk
    obtain ⟨j, hj⟩ : ∃ j : Nat, atMost (b.content.length : Int) ((p : Int) + 1) = j :=
      ⟨_, (Int.toNat_of_nonneg (by rw [atMost_eq]; omega)).symm⟩
    have hj' := hj
    rw [atMost_eq] at hj'
    rw [hj] at hk
    exact ⟨k, j, [], by omega, by omega, by simp [Extent]; omega, .inl rfl, splice_ok (by omega) (by omega) hk⟩

/-- Deletions never add bytes, and insertions and replacements add exactly their argument. -/
theorem C52_length (name : Bytes) (hn : name ∈ editNames) (args : List Value) (b b' : Buffer) (v : Value)
    (h : InRange b) (hlen : (b.content.length : Int) ≤ maxInt)
    (hm : minInt < b.mark) (hc : call name args b = (.ok v, b'))
    (hdc : name = b! "delete-char" → ∀ n, CountArg args n → 0 ≤ n) :
    b'.content.length ≤ b.content.length ∨ ∃ t, args = [.str t] ∧ b'.content.length ≤ b.content.length + t.length := by
  obtain ⟨lo, hi, t, h1, h2, _, ht, he⟩ := C52_edits_are_local name hn args b b' v h hlen hm hc
  rw [he]
  simp only [List.length_append, List.length_take, List.length_drop]
  rcases ht with rfl | rfl | ⟨hdn, n, hcn, hneg⟩
  · left; simp; omega
  · right; exact ⟨t, rfl, by omega⟩
  · have := hdc hdn n hcn; omega

/-- In particular: the commands that work forward from point never touch the text before point ... -/
theorem C52_before_point_survives (name : Bytes) (hn : name ∈ [b! "insert", b! "delete-char", b! "kill-word", b! "kill-line"])
    (args : List Value) (b b' : Buffer) (v : Value) (h : InRange b) (hlen : (b.content.length : Int) ≤ maxInt)
    (hm : minInt < b.mark)
    (hc : call name args b = (.ok v, b')) : b.before <+: b'.content := by
  have he : name ∈ editNames := by
    simp only [List.mem_cons, List.not_mem_nil, or_false] at hn
    rcases hn with rfl | rfl | rfl | rfl <;> decide
  obtain ⟨lo, hi, t, h1, h2, hx, ht, he⟩ := C52_edits_are_local name he args b b' v h hlen hm hc
  have hlo : b.point - 1 ≤ (lo : Int) := by
    simp only [List.mem_cons, List.not_mem_nil, or_false] at hn
    rcases hn with rfl | rfl | rfl | rfl
    · have := hx.1 rfl; omega
    · exact hx.2.2.2.1 (.inl rfl)
    · exact hx.2.2.2.1 (.inr (.inl rfl))
    · exact hx.2.2.2.1 (.inr (.inr rfl))
  rw [he]
  have : b.before <+: b.content.take lo := by
    unfold Buffer.before
    exact List.take_prefix_take_left (by omega)
  exact (this.trans (List.prefix_append _ _)).trans (List.prefix_append _ _)

/-- ... and delete-backward-char and insert never touch the text from point on. -/
theorem C52_after_point_survives (name : Bytes) (hn : name ∈ [b! "insert", b! "delete-backward-char"])
    (args : List Value) (b b' : Buffer) (v : Value) (h : InRange b) (hlen : (b.content.length : Int) ≤ maxInt)
    (hm : minInt < b.mark)
    (hc : call name args b = (.ok v, b')) : b.after <:+ b'.content := by
  have he : name ∈ editNames := by
    simp only [List.mem_cons, List.not_mem_nil, or_false] at hn
    rcases hn with rfl | rfl <;> decide
  obtain ⟨lo, hi, t, h1, h2, hx, ht, he⟩ := C52_edits_are_local name he args b b' v h hlen hm hc
  have hlo : (hi : Int) ≤ b.point - 1 := by
    simp only [List.mem_cons, List.not_mem_nil, or_false] at hn
    rcases hn with rfl | rfl
    · have := hx.1 rfl; omega
    · exact hx.2.2.2.2.1 rfl
  rw [he]
  have : b.after <:+ b.content.drop hi := by
    unfold Buffer.after
    rw [show (b.point - 1).toNat = hi + ((b.point - 1).toNat - hi) by omega, ← List.drop_drop]
    exact List.drop_suffix _ _
  exact this.trans (List.suffix_append _ _)

example : b! "kill-word" ∈ editNames ∧ InRange { newBuffer b! "ab cd ef" with point := 3 } ∧
    call b! "kill-word" [] { newBuffer b! "ab cd ef" with point := 3 } =
      (.ok (.str []), { newBuffer b! "ab ef" with point := 3 }) := by
  refine ⟨by decide, ?_, rfl⟩
  constructor <;> simp [newBuffer]

/-- The exception in `NewText` is real: delete-char with count -1 duplicates a byte. -/
theorem C52_negative_delete_char : (call b! "delete-char" [numV (-1)] { newBuffer b! "abc" with point := 3 }).2.content = b! "abbc" := rfl

end Texted
