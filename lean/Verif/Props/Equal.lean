import Verif.Spec.Eval
/- C44: Equal. -/
namespace Texted

/-! ### C44 -/

theorem goEq_iff (x y : F64) : F64.goEq x y = true ↔ SameNumber x y := by
  unfold SameNumber
  cases x with
  | nan => simp [F64.goEq]
  | inf a => cases y <;> simp [F64.goEq]
  | fin s m e =>
    cases y with
    | nan => simp [F64.goEq]
    | inf b => simp [F64.goEq]
    | fin t m' e' =>
      simp only [F64.goEq, Bool.or_eq_true, Bool.and_eq_true, beq_iff_eq]
      constructor
      · rintro (⟨rfl, rfl⟩ | ⟨⟨rfl, rfl⟩, rfl⟩)
        · exact ⟨by simp, by simp, .inr ⟨s, t, e, e', rfl, rfl⟩⟩
        · exact ⟨by simp, by simp, .inl rfl⟩
      · rintro ⟨-, -, h | ⟨_, _, _, _, h1, h2⟩⟩
        · cases h; simp
        · cases h1; cases h2; simp

mutual
theorem sameValue_of_goEqual : ∀ a b : Value, goEqual a b = true → SameValue a b
  | .sym a, .sym b, h => by simp [goEqual] at h; subst h; exact .sym a
  | .str a, .str b, h => by simp [goEqual] at h; subst h; exact .str a
  | .num a, .num b, h => by simp only [goEqual, goEq_iff] at h; exact .num a b h
  | .list a, .list b, h => by simp only [goEqual] at h; exact .list a b (sameValues_of_goEquals a b h)
  | .sym _, .str _, h | .sym _, .num _, h | .sym _, .list _, h | .str _, .sym _, h | .str _, .num _, h
  | .str _, .list _, h | .num _, .sym _, h | .num _, .str _, h | .num _, .list _, h | .list _, .sym _, h
  | .list _, .str _, h | .list _, .num _, h => by simp [goEqual] at h
theorem sameValues_of_goEquals : ∀ a b : List Value, goEquals a b = true → SameValues a b
  | [], [], _ => .nil
  | [], _ :: _, h => by simp [goEquals] at h
  | _ :: _, [], h => by simp [goEquals] at h
  | x :: xs, y :: ys, h => by
    simp only [goEquals, Bool.and_eq_true] at h
    exact .cons x y xs ys (sameValue_of_goEqual x y h.1) (sameValues_of_goEquals xs ys h.2)
end

mutual
theorem goEqual_of_sameValue {a b : Value} : SameValue a b → goEqual a b = true
  | .sym s => by simp [goEqual]
  | .str s => by simp [goEqual]
  | .num x y h => by simp only [goEqual, goEq_iff]; exact h
  | .list l m h => by simp only [goEqual]; exact goEquals_of_sameValues h
theorem goEquals_of_sameValues {a b : List Value} : SameValues a b → goEquals a b = true
  | .nil => by simp [goEquals]
  | .cons x y xs ys h h' => by simp [goEquals, goEqual_of_sameValue h, goEquals_of_sameValues h']
end

/-- Equal is true exactly when kinds and contents coincide, at every depth. -/
theorem C44_equal_iff (a b : Value) : goEqual a b = true ↔ SameValue a b :=
  ⟨sameValue_of_goEqual a b, goEqual_of_sameValue⟩

mutual
theorem sameValue_refl : ∀ a : Value, NoNaN a → SameValue a a
  | .sym s, _ => .sym s
  | .str s, _ => .str s
  | .num x, h => by simp only [NoNaN] at h; exact .num x x ⟨h, h, .inl rfl⟩
  | .list l, h => .list l l (sameValues_refl l (by simpa [NoNaN] using h))
theorem sameValues_refl : ∀ a : List Value, NoNaNs a → SameValues a a
  | [], _ => .nil
  | x :: xs, h => by
    simp only [NoNaNs] at h
    exact .cons x x xs xs (sameValue_refl x h.1) (sameValues_refl xs h.2)
end

mutual
theorem sameValue_symm {a b : Value} : SameValue a b → SameValue b a
  | .sym s => .sym s
  | .str s => .str s
  | .num x y h => .num y x (by
      obtain ⟨h1, h2, h3⟩ := h
      refine ⟨h2, h1, ?_⟩
      rcases h3 with rfl | ⟨s, t, e, e', h4, h5⟩
      · exact .inl rfl
      · exact .inr ⟨t, s, e', e, h5, h4⟩)
  | .list l m h => .list m l (sameValues_symm h)
theorem sameValues_symm {a b : List Value} : SameValues a b → SameValues b a
  | .nil => .nil
  | .cons x y xs ys h h' => .cons y x ys xs (sameValue_symm h) (sameValues_symm h')
end

theorem sameNumber_trans {x y z : F64} (h : SameNumber x y) (h' : SameNumber y z) : SameNumber x z := by
  obtain ⟨a1, a2, a3⟩ := h
  obtain ⟨b1, b2, b3⟩ := h'
  refine ⟨a1, b2, ?_⟩
  rcases a3 with rfl | ⟨s, t, e, e', h1, h2⟩
  · exact b3
  · rcases b3 with rfl | ⟨s', t', f, f', h3, h4⟩
    · exact .inr ⟨s, t, e, e', h1, h2⟩
    · exact .inr ⟨s, t', e, f', h1, h4⟩

mutual
theorem sameValue_trans {a b : Value} : ∀ {c : Value}, SameValue a b → SameValue b c → SameValue a c
  | _, .sym s, h => h
  | _, .str s, h => h
  | _, .num x y h, .num _ z h' => .num x z (sameNumber_trans h h')
  | _, .list l m h, .list _ n h' => .list l n (sameValues_trans h h')
theorem sameValues_trans {a b : List Value} : ∀ {c : List Value}, SameValues a b → SameValues b c → SameValues a c
  | _, .nil, h => h
  | _, .cons x y xs ys h h', .cons _ z _ zs g g' => .cons x z xs zs (sameValue_trans h g) (sameValues_trans h' g')
end

/-- Equal is an equivalence relation on values without NaN (symmetric and transitive on all values). -/
theorem C44_equivalence :
    (∀ a, NoNaN a → goEqual a a = true) ∧ (∀ a b, goEqual a b = goEqual b a) ∧
      (∀ a b c, goEqual a b = true → goEqual b c = true → goEqual a c = true) := by
  refine ⟨fun a h => (C44_equal_iff a a).2 (sameValue_refl a h), ?_, ?_⟩
  · intro a b
    rw [Bool.eq_iff_iff, C44_equal_iff, C44_equal_iff]
    exact ⟨sameValue_symm, sameValue_symm⟩
  · intro a b c
    simp only [C44_equal_iff]
    exact sameValue_trans

/-- NaN is not equal to itself. -/
theorem C44_nan : goEqual (.num .nan) (.num .nan) = false := rfl

example : goEqual (.list [.sym b! "f", .num (.fin true 0 0)]) (.list [.sym b! "f", .num (.fin false 0 0)]) = true ∧
    goEqual (.list [.sym b! "f"]) (.list [.str b! "f"]) = false := ⟨rfl, rfl⟩

end Texted
