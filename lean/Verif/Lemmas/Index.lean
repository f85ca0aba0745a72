import Verif.Spec.Text
/- strings.Index and strings.LastIndex find the first and last occurrence. -/
namespace Texted

theorem occursAt_iff (p c : Bytes) (i : Nat) : OccursAt p c i ↔ i ≤ c.length ∧ p <+: c.drop i := by
  constructor
  · rintro ⟨u, v, rfl, rfl⟩
    refine ⟨by simp, ⟨v, ?_⟩⟩
    simp [List.append_assoc]
  · rintro ⟨h, ⟨v, hv⟩⟩
    refine ⟨c.take i, v, ?_, by simp; omega⟩
    rw [List.append_assoc, hv, List.take_append_drop]

theorem occursAt_cons_succ (p : Bytes) (x : UInt8) (xs : Bytes) (i : Nat) :
    OccursAt p (x :: xs) (i + 1) ↔ OccursAt p xs i := by
  simp [occursAt_iff]

theorem occursAt_zero (p c : Bytes) : OccursAt p c 0 ↔ p <+: c := by simp [occursAt_iff]

theorem occursAt_nil (p : Bytes) (i : Nat) : OccursAt p [] i ↔ p = [] ∧ i = 0 := by
  simp [occursAt_iff]; exact And.comm

theorem OccursAt.le {p c : Bytes} {i : Nat} (h : OccursAt p c i) : i + p.length ≤ c.length := by
  obtain ⟨u, v, rfl, rfl⟩ := h; simp

theorem indexOf_some {p c : Bytes} {i : Nat} (h : indexOf p c = some i) :
    OccursAt p c i ∧ ∀ j, j < i → ¬ OccursAt p c j := by
  induction c generalizing i with
  | nil =>
    simp only [indexOf] at h
    split at h
    · rename_i hp; subst hp; cases h; simp [occursAt_nil]
    · cases h
  | cons x xs ih =>
    simp only [indexOf] at h
    split at h
    · rename_i hp; cases h
      exact ⟨(occursAt_zero _ _).2 (List.isPrefixOf_iff_prefix.1 hp), by omega⟩
    · rename_i hp
      cases hi : indexOf p xs with
      | none => simp [hi] at h
      | some k =>
        simp [hi] at h; subst h
        obtain ⟨h1, h2⟩ := ih hi
        refine ⟨(occursAt_cons_succ ..).2 h1, fun j hj => ?_⟩
        cases j with
        | zero => rw [occursAt_zero]; intro h; exact hp (List.isPrefixOf_iff_prefix.2 h)
        | succ j => rw [occursAt_cons_succ]; exact h2 j (by omega)

theorem indexOf_none {p c : Bytes} (h : indexOf p c = none) : ∀ i, ¬ OccursAt p c i := by
  induction c with
  | nil =>
    intro i
    simp only [indexOf] at h
    split at h
    · cases h
    · rename_i hp; rw [occursAt_nil]; exact fun h => hp h.1
  | cons x xs ih =>
    simp only [indexOf] at h
    split at h
    · cases h
    · rename_i hp
      intro i
      cases i with
      | zero => rw [occursAt_zero]; intro h; exact hp (List.isPrefixOf_iff_prefix.2 h)
      | succ i =>
        rw [occursAt_cons_succ]
        exact ih (by simpa using h) i

theorem indexOf_eq_some {p c : Bytes} {i : Nat} (h : OccursAt p c i) (hm : ∀ j, j < i → ¬ OccursAt p c j) :
    indexOf p c = some i := by
  cases hi : indexOf p c with
  | none => exact absurd h (indexOf_none hi i)
  | some k =>
    obtain ⟨h1, h2⟩ := indexOf_some hi
    congr 1
    rcases Nat.lt_trichotomy k i with hl | he | hl
    · exact absurd h1 (hm k hl)
    · exact he
    · exact absurd h (h2 i hl)

theorem indexOf_eq_none {p c : Bytes} (h : ∀ i, ¬ OccursAt p c i) : indexOf p c = none := by
  cases hi : indexOf p c with
  | none => rfl
  | some k => exact absurd (indexOf_some hi).1 (h k)

theorem lastIndexOf_some {p c : Bytes} {i : Nat} (h : lastIndexOf p c = some i) :
    OccursAt p c i ∧ ∀ j, i < j → ¬ OccursAt p c j := by
  induction c generalizing i with
  | nil =>
    simp only [lastIndexOf] at h
    split at h
    · rename_i hp; subst hp; cases h; simp [occursAt_nil]
      omega
    · cases h
  | cons x xs ih =>
    simp only [lastIndexOf] at h
    cases hi : lastIndexOf p xs with
    | some k =>
      simp [hi] at h; subst h
      obtain ⟨h1, h2⟩ := ih hi
      refine ⟨(occursAt_cons_succ ..).2 h1, fun j hj => ?_⟩
      cases j with
      | zero => omega
      | succ j => rw [occursAt_cons_succ]; exact h2 j (by omega)
    | none =>
      simp only [hi] at h
      have hn : ∀ j, ¬ OccursAt p xs j := by
        intro j hj
        clear ih h
        induction xs generalizing j with
        | nil =>
          simp only [lastIndexOf] at hi
          split at hi
          · cases hi
          · rename_i hp; exact hp ((occursAt_nil _ _).1 hj).1
        | cons y ys ih =>
          simp only [lastIndexOf] at hi
          cases hy : lastIndexOf p ys with
          | some k => simp [hy] at hi
          | none =>
            simp only [hy] at hi
            split at hi
            · cases hi
            · rename_i hp
              cases j with
              | zero => rw [occursAt_zero] at hj; exact hp (List.isPrefixOf_iff_prefix.2 hj)
              | succ j => rw [occursAt_cons_succ] at hj; exact ih hy j hj
      split at h
      · rename_i hp; cases h
        refine ⟨(occursAt_zero _ _).2 (List.isPrefixOf_iff_prefix.1 hp), fun j hj => ?_⟩
        cases j with
        | zero => omega
        | succ j => rw [occursAt_cons_succ]; exact hn j
      · cases h

theorem lastIndexOf_none {p c : Bytes} (h : lastIndexOf p c = none) : ∀ i, ¬ OccursAt p c i := by
  induction c with
  | nil =>
    intro i
    simp only [lastIndexOf] at h
    split at h
    · cases h
    · rename_i hp; rw [occursAt_nil]; exact fun h => hp h.1
  | cons y ys ih =>
    simp only [lastIndexOf] at h
    cases hy : lastIndexOf p ys with
    | some k => simp [hy] at h
    | none =>
      simp only [hy] at h
      split at h
      · cases h
      · rename_i hp
        intro j hj
        cases j with
        | zero => rw [occursAt_zero] at hj; exact hp (List.isPrefixOf_iff_prefix.2 hj)
        | succ j => rw [occursAt_cons_succ] at hj; exact ih hy j hj

theorem lastIndexOf_eq_some {p c : Bytes} {i : Nat} (h : OccursAt p c i) (hm : ∀ j, i < j → ¬ OccursAt p c j) :
    lastIndexOf p c = some i := by
  cases hi : lastIndexOf p c with
  | none => exact absurd h (lastIndexOf_none hi i)
  | some k =>
    obtain ⟨h1, h2⟩ := lastIndexOf_some hi
    congr 1
    rcases Nat.lt_trichotomy k i with hl | he | hl
    · exact absurd h (h2 i hl)
    · exact he
    · exact absurd h1 (hm k hl)

theorem lastIndexOf_eq_none {p c : Bytes} (h : ∀ i, ¬ OccursAt p c i) : lastIndexOf p c = none := by
  cases hi : lastIndexOf p c with
  | none => rfl
  | some k => exact absurd (lastIndexOf_some hi).1 (h k)

/-- Occurrences in a suffix are occurrences in the whole, shifted. -/
theorem occursAt_drop (p c : Bytes) (n i : Nat) (hn : n ≤ c.length) :
    OccursAt p (c.drop n) i ↔ OccursAt p c (n + i) := by
  simp only [occursAt_iff, List.drop_drop, List.length_drop]
  constructor
  · rintro ⟨h1, h2⟩; exact ⟨by omega, h2⟩
  · rintro ⟨h1, h2⟩; exact ⟨by omega, h2⟩

/-- Occurrences in a prefix are the occurrences in the whole that end inside it. -/
theorem occursAt_take (p c : Bytes) (n i : Nat) (hn : n ≤ c.length) :
    OccursAt p (c.take n) i ↔ OccursAt p c i ∧ i + p.length ≤ n := by
  constructor
  · intro h
    have hl := h.le
    obtain ⟨u, v, he, hu⟩ := h
    refine ⟨⟨u, v ++ c.drop n, ?_, hu⟩, ?_⟩
    · rw [← List.append_assoc, ← he, List.take_append_drop]
    · simp at hl; omega
  · rintro ⟨⟨u, v, rfl, rfl⟩, h⟩
    refine ⟨u, v.take (n - u.length - p.length), ?_, rfl⟩
    have e : n = (u ++ p).length + (n - u.length - p.length) := by simp; omega
    conv => lhs; rw [e, List.take_length_add_append]

end Texted
