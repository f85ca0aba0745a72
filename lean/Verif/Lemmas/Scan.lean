import Verif.Spec.Text
/- Lemmas about Go slices and the scanning loops. -/
namespace Texted

theorem sliceTo_eq (c : Bytes) (n : Nat) (h : n ≤ c.length) : sliceTo c n = some (c.take n) := by
  simp [sliceTo]; omega

theorem sliceFrom_eq (c : Bytes) (n : Nat) (h : n ≤ c.length) : sliceFrom c n = some (c.drop n) := by
  simp [sliceFrom]; omega

theorem slice_eq (c : Bytes) (i j : Nat) (h : i ≤ j) (h' : j ≤ c.length) :
    slice c i j = some ((c.drop i).take (j - i)) := by
  have e : ((j : Int) - (i : Int)).toNat = j - i := by omega
  simp [slice, e]; omega

theorem dec64_succ (n : Nat) : dec64 ((n : Int) + 1) = n := by simp [dec64]; omega

theorem dec64_of {x : Int} (h : minInt < x) : dec64 x = x - 1 := by
  unfold dec64; rw [if_neg]; omega

theorem atLeast0_eq (x : Int) : atLeast0 x = ((x.toNat : Nat) : Int) := by unfold atLeast0; split <;> omega

theorem atMost_eq (n x : Int) : atMost n x = min x n := by unfold atMost; split <;> omega

theorem incPos_le (c : Bytes) (n : Nat) (h : n ≤ c.length) : incPos c n = n + 1 := by
  simp [incPos]; omega

theorem InRange.exists {b : Buffer} (h : InRange b) : ∃ p : Nat, b.point = p + 1 ∧ p ≤ b.content.length := by
  obtain ⟨h1, h2⟩ := h
  exact ⟨(b.point - 1).toNat, by omega, by omega⟩

/-! ### Backward scan -/

/-- What `for pos > 0 && !stop(c[pos-1]) { pos-- }` computes. -/
def BackSpec (c : Bytes) (stop : UInt8 → Bool) (n k : Nat) : Prop :=
  k ≤ n ∧ (k = 0 ∨ ∃ x, c[k - 1]? = some x ∧ stop x = true) ∧
    ∀ j, k ≤ j → j < n → ∃ x, c[j]? = some x ∧ stop x = false

theorem scanBackN_spec (c : Bytes) (stop : UInt8 → Bool) (n : Nat) (h : n ≤ c.length) :
    ∃ k, scanBackN c stop n = some k ∧ BackSpec c stop n k := by
  induction n with
  | zero => exact ⟨0, rfl, by simp [BackSpec]⟩
  | succ n ih =>
    have hx : c[n]? = some c[n] := List.getElem?_eq_getElem (by omega)
    simp only [scanBackN, hx]
    cases hs : stop c[n] with
    | true => exact ⟨n + 1, by simp, by simp, .inr ⟨c[n], by simp [hx], hs⟩, by omega⟩
    | false =>
      obtain ⟨k, hk, h1, h2, h3⟩ := ih (by omega)
      refine ⟨k, by simpa using hk, by omega, h2, fun j hj hj' => ?_⟩
      by_cases hjn : j = n
      · subst hjn; exact ⟨_, hx, hs⟩
      · exact h3 j hj (by omega)

theorem BackSpec.unique {c stop n k k'} (h : BackSpec c stop n k) (h' : BackSpec c stop n k') : k = k' := by
  obtain ⟨a1, a2, a3⟩ := h
  obtain ⟨b1, b2, b3⟩ := h'
  rcases Nat.lt_trichotomy k k' with hl | he | hl
  · rcases b2 with b2 | ⟨x, hx, hs⟩
    · omega
    · obtain ⟨y, hy, hs'⟩ := a3 (k' - 1) (by omega) (by omega)
      rw [hx] at hy; cases hy; simp [hs] at hs'
  · exact he
  · rcases a2 with a2 | ⟨x, hx, hs⟩
    · omega
    · obtain ⟨y, hy, hs'⟩ := b3 (k - 1) (by omega) (by omega)
      rw [hx] at hy; cases hy; simp [hs] at hs'

theorem scanBack_spec (c : Bytes) (stop : UInt8 → Bool) (n : Nat) (h : n ≤ c.length) :
    ∃ k : Nat, scanBack c stop n = some (k : Int) ∧ BackSpec c stop n k := by
  obtain ⟨k, hk, hs⟩ := scanBackN_spec c stop n h
  refine ⟨k, ?_, hs⟩
  unfold scanBack
  split
  · have : n = 0 := by omega
    subst this; simp [scanBackN] at hk; subst hk; rfl
  · simp [hk]

theorem scanBack_of_spec {c stop} {n k : Nat} (h : n ≤ c.length) (hs : BackSpec c stop n k) :
    scanBack c stop n = some (k : Int) := by
  obtain ⟨k', hk', hs'⟩ := scanBack_spec c stop n h
  rw [hs.unique hs', hk']

/-! ### Forward scan -/

/-- What `for pos < len(c) && !stop(c[pos]) { pos++ }` computes. -/
def FwdSpec (c : Bytes) (stop : UInt8 → Bool) (n k : Nat) : Prop :=
  n ≤ k ∧ k ≤ c.length ∧ (k = c.length ∨ ∃ x, c[k]? = some x ∧ stop x = true) ∧
    ∀ j, n ≤ j → j < k → ∃ x, c[j]? = some x ∧ stop x = false

theorem runLen_spec (stop : UInt8 → Bool) (l : Bytes) :
    runLen stop l ≤ l.length ∧ (runLen stop l = l.length ∨ ∃ x, l[runLen stop l]? = some x ∧ stop x = true) ∧
      ∀ j, j < runLen stop l → ∃ x, l[j]? = some x ∧ stop x = false := by
  induction l with
  | nil => simp [runLen]
  | cons x xs ih =>
    obtain ⟨h1, h2, h3⟩ := ih
    simp only [runLen]
    cases hs : stop x with
    | true => simp [hs]
    | false =>
      refine ⟨by simp; omega, ?_, ?_⟩
      · rcases h2 with h2 | ⟨y, hy, hsy⟩
        · left; simp [h2]
        · right; exact ⟨y, by simpa using hy, hsy⟩
      · intro j hj
        cases j with
        | zero => exact ⟨x, by simp, hs⟩
        | succ j => obtain ⟨y, hy⟩ := h3 j (by simp at hj; omega); exact ⟨y, by simpa using hy⟩

theorem scanFwd_spec (c : Bytes) (stop : UInt8 → Bool) (n : Nat) (h : n ≤ c.length) :
    ∃ k : Nat, scanFwd c stop n = some (k : Int) ∧ FwdSpec c stop n k := by
  unfold scanFwd
  split
  · exact ⟨n, rfl, by omega, h, .inl (by omega), by omega⟩
  · obtain ⟨h1, h2, h3⟩ := runLen_spec stop (c.drop n)
    have hn : ¬ ((n : Int) < 0) := by omega
    rw [if_neg hn]
    refine ⟨n + runLen stop (c.drop n), by simp, by omega, ?_, ?_, ?_⟩
    · simp at h1; omega
    · rcases h2 with h2 | ⟨x, hx, hs⟩
      · left; simp at h2; omega
      · right; exact ⟨x, by simpa using hx, hs⟩
    · intro j hj hj'
      obtain ⟨x, hx, hs⟩ := h3 (j - n) (by omega)
      refine ⟨x, ?_, hs⟩
      rw [List.getElem?_drop] at hx
      rwa [show n + (j - n) = j by omega] at hx

theorem FwdSpec.unique {c stop n k k'} (h : FwdSpec c stop n k) (h' : FwdSpec c stop n k') : k = k' := by
  obtain ⟨a0, a1, a2, a3⟩ := h
  obtain ⟨b0, b1, b2, b3⟩ := h'
  rcases Nat.lt_trichotomy k k' with hl | he | hl
  · rcases a2 with a2 | ⟨x, hx, hs⟩
    · omega
    · obtain ⟨y, hy, hs'⟩ := b3 k (by omega) (by omega)
      rw [hx] at hy; cases hy; simp [hs] at hs'
  · exact he
  · rcases b2 with b2 | ⟨x, hx, hs⟩
    · omega
    · obtain ⟨y, hy, hs'⟩ := a3 k' (by omega) (by omega)
      rw [hx] at hy; cases hy; simp [hs] at hs'

theorem scanFwd_of_spec {c stop} {n k : Nat} (h : n ≤ c.length) (hs : FwdSpec c stop n k) :
    scanFwd c stop n = some (k : Int) := by
  obtain ⟨k', hk', hs'⟩ := scanFwd_spec c stop n h
  rw [hs.unique hs', hk']

/-! ### Letters -/

theorem isLetter_iff (x : UInt8) : isLetter x = true ↔ WordByte x := by
  simp only [isLetter, WordByte, Bool.or_eq_true, Bool.and_eq_true, decide_eq_true_eq, UInt8.le_iff_toNat_le]
  simp [or_assoc]

theorem wordAt_iff (c : Bytes) (j : Nat) : WordAt c j ↔ ∃ x, c[j]? = some x ∧ isLetter x = true := by
  simp [WordAt, isLetter_iff]

/-! ### Lines -/

theorem backSpec_line {c : Bytes} {n k : Nat} (hn : n ≤ c.length) :
    BackSpec c (· == nl) n k ↔ IsLineStart c n k := by
  unfold BackSpec IsLineStart
  refine and_congr_right fun hk => and_congr ?_ ?_
  · refine or_congr_right ⟨?_, ?_⟩
    · rintro ⟨x, hx, hs⟩; simp at hs; rw [hx, hs]
    · intro h; exact ⟨nl, h, by simp⟩
  · refine forall_congr' fun j => forall_congr' fun _ => forall_congr' fun hj => ⟨?_, ?_⟩
    · rintro ⟨x, hx, hs⟩ h; rw [hx] at h; cases h; simp at hs
    · intro h
      have hx : c[j]? = some c[j] := List.getElem?_eq_getElem (by omega)
      refine ⟨c[j], hx, ?_⟩
      rw [hx] at h; simpa using h

theorem fwdSpec_line {c : Bytes} {n k : Nat} : FwdSpec c (· == nl) n k ↔ IsLineEnd c n k := by
  unfold FwdSpec IsLineEnd
  refine and_congr_right fun hk => and_congr_right fun hk' => and_congr ?_ ?_
  · refine or_congr_right ⟨?_, ?_⟩
    · rintro ⟨x, hx, hs⟩; simp at hs; rw [hx, hs]
    · intro h; exact ⟨nl, h, by simp⟩
  · refine forall_congr' fun j => forall_congr' fun _ => forall_congr' fun hj => ⟨?_, ?_⟩
    · rintro ⟨x, hx, hs⟩ h; rw [hx] at h; cases h; simp at hs
    · intro h
      have hx : c[j]? = some c[j] := List.getElem?_eq_getElem (by omega)
      refine ⟨c[j], hx, ?_⟩
      rw [hx] at h; simpa using h

theorem lineStart_unique {c : Bytes} {n k k' : Nat} (hn : n ≤ c.length) (h : IsLineStart c n k)
    (h' : IsLineStart c n k') : k = k' :=
  ((backSpec_line hn).2 h).unique ((backSpec_line hn).2 h')

theorem lineEnd_unique {c : Bytes} {n k k' : Nat} (h : IsLineEnd c n k) (h' : IsLineEnd c n k') : k = k' :=
  (fwdSpec_line.2 h).unique (fwdSpec_line.2 h')

theorem scanBack_line (c : Bytes) (n : Nat) (h : n ≤ c.length) :
    ∃ k : Nat, scanBack c (· == nl) n = some (k : Int) ∧ IsLineStart c n k := by
  obtain ⟨k, hk, hs⟩ := scanBack_spec c (· == nl) n h
  exact ⟨k, hk, (backSpec_line h).1 hs⟩

theorem scanFwd_line (c : Bytes) (n : Nat) (h : n ≤ c.length) :
    ∃ k : Nat, scanFwd c (· == nl) n = some (k : Int) ∧ IsLineEnd c n k := by
  obtain ⟨k, hk, hs⟩ := scanFwd_spec c (· == nl) n h
  exact ⟨k, hk, fwdSpec_line.1 hs⟩

theorem lineStep_spec (c : Bytes) (n : Nat) (h : n ≤ c.length) :
    ∃ k : Nat, lineStep c n = some (k : Int) ∧ IsLineNext c n k := by
  obtain ⟨e, he, hs⟩ := scanFwd_line c n h
  unfold lineStep
  simp only [he]
  by_cases hl : e < c.length
  · have hx : c[e]? = some nl := by
      rcases hs.2.2.1 with h | h
      · omega
      · exact h
    refine ⟨e + 1, ?_, e, hs, .inl ⟨hl, rfl⟩⟩
    have : ((e : Int) < (c.length : Int)) ∧ c[(e : Int).toNat]? = some nl := ⟨by omega, by simpa using hx⟩
    rw [if_pos this]; simp
  · refine ⟨e, ?_, e, hs, .inr ⟨by have := hs.2.1; omega, rfl⟩⟩
    rw [if_neg]; omega

theorem IsLineNext.le {c : Bytes} {i k : Nat} (h : IsLineNext c i k) : i ≤ k ∧ k ≤ c.length := by
  obtain ⟨e, ⟨h1, h2, _⟩, h4⟩ := h
  omega

theorem IsLineNext.unique {c : Bytes} {i k k' : Nat} (h : IsLineNext c i k) (h' : IsLineNext c i k') : k = k' := by
  obtain ⟨e, h1, h2⟩ := h
  obtain ⟨e', h1', h2'⟩ := h'
  have := lineEnd_unique h1 h1'
  omega

theorem fwdLines_spec (c : Bytes) (m n : Nat) (h : n ≤ c.length) :
    ∃ k : Nat, fwdLines c m n = some (k : Int) ∧ Iter (IsLineNext c) m n k ∧ n ≤ k ∧ k ≤ c.length := by
  induction m generalizing n with
  | zero => exact ⟨n, rfl, rfl, by omega, h⟩
  | succ m ih =>
    obtain ⟨k, hk, hs⟩ := lineStep_spec c n h
    obtain ⟨k', hk', hs', h1, h2⟩ := ih k hs.le.2
    refine ⟨k', ?_, ⟨k, hs, hs'⟩, ?_, h2⟩
    · simp [fwdLines, hk, hk']
    · have := hs.le; omega

/-! ### Words -/

theorem fwdWord_step (c : Bytes) (n : Nat) (h : n ≤ c.length) :
    ∃ m k : Nat, scanFwd c isLetter n = some (m : Int) ∧ scanFwd c (fun x => !isLetter x) m = some (k : Int) ∧
      IsNextWordEnd c n k ∧ n ≤ k ∧ k ≤ c.length ∧ (n < c.length → n < k) := by
  obtain ⟨m, hm, hms⟩ := scanFwd_spec c isLetter n h
  obtain ⟨k, hk, hks⟩ := scanFwd_spec c (fun x => !isLetter x) m hms.2.1
  obtain ⟨a0, a1, a2, a3⟩ := hms
  obtain ⟨b0, b1, b2, b3⟩ := hks
  have hmk : m = c.length ∨ m < k := by
    rcases Nat.eq_or_lt_of_le b0 with he | hl
    · left
      rcases a2 with a2 | ⟨x, hx, hs⟩
      · exact a2
      · rcases b2 with b2 | ⟨y, hy, hs'⟩
        · omega
        · rw [← he, hx] at hy; cases hy; simp [hs] at hs'
    · exact .inr hl
  refine ⟨m, k, hm, hk, ⟨m, a0, b0, b1, ?_, ?_, ?_, ?_⟩, by omega, b1, by omega⟩
  · intro j hj hj' hw
    obtain ⟨x, hx, hs⟩ := a3 j hj hj'
    obtain ⟨y, hy, hs'⟩ := (wordAt_iff c j).1 hw
    rw [hx] at hy; cases hy; simp [hs] at hs'
  · exact a2.imp id (wordAt_iff c m).2
  · intro j hj hj'
    obtain ⟨x, hx, hs⟩ := b3 j hj hj'
    exact (wordAt_iff c j).2 ⟨x, hx, by simpa using hs⟩
  · intro hw
    obtain ⟨x, hx, hs⟩ := (wordAt_iff c k).1 hw
    rcases b2 with b2 | ⟨y, hy, hs'⟩
    · rw [b2, List.getElem?_eq_none (Nat.le_refl _)] at hx; cases hx
    · rw [hx] at hy; cases hy; simp [hs] at hs'

/-- At the end of the text there is no next word, and the motion stays. -/
theorem isNextWordEnd_end (c : Bytes) : IsNextWordEnd c c.length c.length := by
  have hn : ¬ WordAt c c.length := by
    rintro ⟨x, hx, _⟩
    rw [List.getElem?_eq_none (Nat.le_refl _)] at hx; cases hx
  exact ⟨c.length, by omega, by omega, by omega, by omega, .inl rfl, by omega, hn⟩

theorem fwdWords_spec (c : Bytes) (m n : Nat) (h : n ≤ c.length) :
    ∃ k : Nat, fwdWords c m n = some (k : Int) ∧ Iter (IsNextWordEnd c) m n k ∧ n ≤ k ∧ k ≤ c.length := by
  induction m generalizing n with
  | zero => exact ⟨n, rfl, rfl, by omega, h⟩
  | succ m ih =>
    obtain ⟨p, k, hp, hk, hs, h1, h2, _⟩ := fwdWord_step c n h
    by_cases hn : n < c.length
    · obtain ⟨k', hk', hs', h1', h2'⟩ := ih k h2
      refine ⟨k', ?_, ⟨k, hs, hs'⟩, by omega, h2'⟩
      have : ((n : Int) < (c.length : Int)) := by omega
      simp only [fwdWords, if_pos this, hp, hk, hk']
    · have hne : n = c.length := by omega
      obtain ⟨k', hk', hs', h1', h2'⟩ := ih n h
      have e : k' = n := by omega
      subst e
      refine ⟨k', ?_, ⟨k', ?_, hs'⟩, by omega, h⟩
      · have : ¬ ((k' : Int) < (c.length : Int)) := by omega
        simp only [fwdWords, if_neg this]
      · rw [hne]; exact isNextWordEnd_end c

theorem bwdWord_step (c : Bytes) (n : Nat) (h : n ≤ c.length) :
    ∃ m k : Nat, scanBack c isLetter n = some (m : Int) ∧ scanBack c (fun x => !isLetter x) m = some (k : Int) ∧
      IsPrevWordStart c n k ∧ k ≤ n := by
  obtain ⟨m, hm, hms⟩ := scanBack_spec c isLetter n h
  obtain ⟨k, hk, hks⟩ := scanBack_spec c (fun x => !isLetter x) m (by have := hms.1; omega)
  obtain ⟨a1, a2, a3⟩ := hms
  obtain ⟨b1, b2, b3⟩ := hks
  refine ⟨m, k, hm, hk, ⟨m, b1, a1, ?_, ?_, ?_, ?_⟩, by omega⟩
  · intro j hj hj' hw
    obtain ⟨x, hx, hs⟩ := a3 j hj hj'
    obtain ⟨y, hy, hs'⟩ := (wordAt_iff c j).1 hw
    rw [hx] at hy; cases hy; simp [hs] at hs'
  · exact a2.imp id (wordAt_iff c (m - 1)).2
  · intro j hj hj'
    obtain ⟨x, hx, hs⟩ := b3 j hj hj'
    exact (wordAt_iff c j).2 ⟨x, hx, by simpa using hs⟩
  · refine b2.imp id ?_
    rintro ⟨x, hx, hs⟩ hw
    obtain ⟨y, hy, hs'⟩ := (wordAt_iff c _).1 hw
    rw [hx] at hy; cases hy; simp [hs'] at hs

theorem isPrevWordStart_zero (c : Bytes) : IsPrevWordStart c 0 0 :=
  ⟨0, by omega, by omega, by omega, .inl rfl, by omega, .inl rfl⟩

theorem bwdWords_spec (c : Bytes) (m n : Nat) (h : n ≤ c.length) :
    ∃ k : Nat, bwdWords c m n = some (k : Int) ∧ Iter (IsPrevWordStart c) m n k ∧ k ≤ n := by
  induction m generalizing n with
  | zero => exact ⟨n, rfl, rfl, by omega⟩
  | succ m ih =>
    obtain ⟨p, k, hp, hk, hs, h1⟩ := bwdWord_step c n h
    by_cases hn : 0 < n
    · obtain ⟨k', hk', hs', h1'⟩ := ih k (by omega)
      refine ⟨k', ?_, ⟨k, hs, hs'⟩, by omega⟩
      have : (0 : Int) < (n : Int) := by omega
      simp only [bwdWords, if_pos this, hp, hk, hk']
    · have hne : n = 0 := by omega
      subst hne
      obtain ⟨k', hk', hs', h1'⟩ := ih 0 (by omega)
      have e : k' = 0 := by omega
      subst e
      exact ⟨0, by simp [bwdWords], ⟨0, isPrevWordStart_zero c, hs'⟩, by omega⟩

end Texted
