import Verif.Lemmas.Scan
/- strings.Split on newlines and line offsets. -/
namespace Texted

theorem nlCount_append (a b : Bytes) : nlCount (a ++ b) = nlCount a + nlCount b := by simp [nlCount]

theorem nlCount_nil : nlCount [] = 0 := rfl

theorem nlCount_cons_nl (b : Bytes) : nlCount (nl :: b) = nlCount b + 1 := by simp [nlCount]

theorem splitByte_decomp (c : Bytes) :
    (splitByte nl c = [c] ∧ nl ∉ c) ∨
      ∃ l r, c = l ++ nl :: r ∧ nl ∉ l ∧ splitByte nl c = l :: splitByte nl r := by
  induction c with
  | nil => left; simp [splitByte]
  | cons x xs ih =>
    by_cases hx : x = nl
    · right; subst hx; exact ⟨[], xs, rfl, by simp, by simp [splitByte]⟩
    · rcases ih with ⟨h1, h2⟩ | ⟨l, r, h1, h2, h3⟩
      · left
        refine ⟨by simp [splitByte, hx, h1], ?_⟩
        simp [h2, Ne.symm hx]
      · right
        refine ⟨x :: l, r, by simp [h1], by simp [h2, Ne.symm hx], ?_⟩
        simp [splitByte, hx, h3]

theorem nlCount_notMem (c : Bytes) (h : nl ∉ c) : nlCount c = 0 := by
  simp only [nlCount, List.length_eq_zero_iff, List.filter_eq_nil_iff]
  intro a ha he
  simp at he; subst he; exact h ha

theorem splitByte_length (c : Bytes) : (splitByte nl c).length = nlCount c + 1 := by
  generalize hn : c.length = n
  induction n using Nat.strongRecOn generalizing c with
  | ind n ih =>
    rcases splitByte_decomp c with ⟨h1, h2⟩ | ⟨l, r, h1, h2, h3⟩
    · rw [h1, nlCount_notMem c h2]; rfl
    · rw [h3, List.length_cons, ih r.length (by subst hn; rw [h1]; simp; omega) r rfl]
      rw [h1, nlCount_append, nlCount_cons_nl, nlCount_notMem l h2]; omega

theorem lineOffset_cons (l : Bytes) (ls : List Bytes) (k i : Nat) :
    lineOffset (l :: ls) k (i + 1) = lineOffset ls k i := by
  induction k generalizing i with
  | zero => rfl
  | succ k ih => simp only [lineOffset, List.getElem?_cons_succ, ih]

/-- Line `k` (0-based) starts where exactly `k` newlines precede, at 0 or right after a newline. -/
theorem lineOffset_spec (c : Bytes) (k : Nat) (h : k < (splitByte nl c).length) :
    ∃ p : Nat, lineOffset (splitByte nl c) k 0 = some ((p : Int) + 1) ∧ p ≤ c.length ∧
      nlCount (c.take p) = k ∧ IsLineStart c p p := by
  induction k generalizing c with
  | zero => exact ⟨0, rfl, by omega, by simp [nlCount], by omega, .inl rfl, by omega⟩
  | succ k ih =>
    rcases splitByte_decomp c with ⟨h1, h2⟩ | ⟨l, r, h1, h2, h3⟩
    · rw [h1] at h; simp at h
    · rw [h3] at h ⊢
      obtain ⟨p, hp, hle, hc, hs⟩ := ih r (by simpa using h)
      refine ⟨l.length + 1 + p, ?_, by rw [h1]; simp; omega, ?_, by omega, .inr ?_, by omega⟩
      · simp only [lineOffset, List.getElem?_cons_zero]
        rw [lineOffset_cons, hp]
        simp; omega
      · rw [h1]
        have e : l ++ nl :: r = (l ++ [nl]) ++ r := by simp
        have e2 : l.length + 1 + p = (l ++ [nl]).length + p := by simp
        rw [e, e2, List.take_length_add_append, nlCount_append, nlCount_append, hc, nlCount_notMem l h2]
        simp [nlCount]; omega
      · rw [h1]
        have e : l ++ nl :: r = (l ++ [nl]) ++ r := by simp
        by_cases h0 : p = 0
        · subst h0
          rw [show l.length + 1 + 0 - 1 = l.length by omega]; simp
        · have h1' := hs.2.1.resolve_left h0
          rw [e, List.getElem?_append_right (by simp; omega), ← h1']
          congr 1; simp; omega

end Texted
