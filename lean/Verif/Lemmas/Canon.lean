import Verif.Lemmas.Number
/- Reading a number always gives a float64: `parseFloat` and the conversion from `int` only produce canonical values. -/
namespace Texted
namespace F64

/-- The integer part of `num / (den * 2^e)`. -/
def quo (num den : Nat) (e : Int) : Nat := (scale num den e).1 / (scale num den e).2

theorem quo_succ (num den : Nat) (e : Int) : quo num den (e + 1) = quo num den e / 2 := by
  simp only [quo, scale]
  by_cases h : 0 ≤ e
  · rw [if_pos (by omega), if_pos h]
    simp only
    rw [show (e + 1).toNat = e.toNat + 1 by omega, Nat.pow_succ, ← Nat.mul_assoc, Nat.div_div_eq_div_mul]
  · by_cases h1 : e = -1
    · subst h1
      simp [Nat.div_div_eq_div_mul]
      rw [Nat.mul_div_mul_right _ _ (by decide)]
    · rw [if_neg (by omega), if_neg h]
      simp only
      rw [show (-e).toNat = (-(e + 1)).toNat + 1 by omega, Nat.pow_succ, ← Nat.mul_assoc, Nat.div_div_eq_div_mul,
        Nat.mul_div_mul_right _ _ (by decide)]

theorem quo_antitone (num den : Nat) (e : Int) (k : Nat) : quo num den (e + k) ≤ quo num den e := by
  induction k with
  | zero => simp
  | succ k ih =>
    rw [show e + ((k + 1 : Nat) : Int) = e + k + 1 by omega, quo_succ]
    omega

theorem quo_start (num den : Nat) (hd : den ≠ 0) :
    quo num den ((num.log2 : Int) - den.log2 - 53) < 18014398509481984 := by
  have h1 : num < 2 ^ (num.log2 + 1) := Nat.lt_log2_self
  have h2 : 2 ^ den.log2 ≤ den := Nat.log2_self_le hd
  simp only [quo, scale]
  split
  · rename_i h
    simp only
    apply Nat.div_lt_of_lt_mul
    have e : ((num.log2 : Int) - den.log2 - 53).toNat + (den.log2 + 54) = num.log2 + 1 := by omega
    calc num < 2 ^ (num.log2 + 1) := h1
      _ = 2 ^ den.log2 * 2 ^ ((num.log2 : Int) - den.log2 - 53).toNat * 18014398509481984 := by
        rw [← e, show (18014398509481984 : Nat) = 2 ^ 54 from rfl, ← Nat.pow_add, ← Nat.pow_add]
        congr 1; omega
      _ ≤ _ := Nat.mul_le_mul_right _ (Nat.mul_le_mul_right _ h2)
  · rename_i h
    simp only
    apply Nat.div_lt_of_lt_mul
    calc num * 2 ^ (-((num.log2 : Int) - den.log2 - 53)).toNat
        < 2 ^ (num.log2 + 1) * 2 ^ (-((num.log2 : Int) - den.log2 - 53)).toNat :=
          Nat.mul_lt_mul_of_pos_right h1 (Nat.two_pow_pos _)
      _ = 2 ^ den.log2 * 18014398509481984 := by
        rw [show (18014398509481984 : Nat) = 2 ^ 54 from rfl, ← Nat.pow_add, ← Nat.pow_add]
        congr 1; omega
      _ ≤ _ := Nat.mul_le_mul_right _ h2

theorem quo_roundExp (num den : Nat) (hd : den ≠ 0) : quo num den (roundExp num den) < 9007199254740992 := by
  have h0 := quo_start num den hd
  have key : ∀ e : Int, quo num den e < 9007199254740992 → quo num den (if e < -1074 then -1074 else e) < 9007199254740992 := by
    intro e he
    split
    · have := quo_antitone num den e (-1074 - e).toNat
      rw [show e + ((-1074 - e).toNat : Int) = -1074 by omega] at this
      omega
    · exact he
  unfold roundExp
  simp only
  apply key
  split
  · rename_i h; exact h
  · rw [quo_succ]; omega

theorem roundExp_ge (num den : Nat) : -1074 ≤ roundExp num den := by
  have key : ∀ e : Int, -1074 ≤ if e < -1074 then -1074 else e := fun e => by split <;> omega
  exact key _

theorem mk_canon (neg : Bool) (q : Nat) (e : Int) (hq : q ≤ 9007199254740992) (he : -1074 ≤ e) :
    ∃ m e', mk neg q e = .fin neg m e' ∧ ((m = 0 ∧ e' = 0) ∨ (m % 2 = 1 ∧ m < 9007199254740992 ∧ -1074 ≤ e')) := by
  by_cases h0 : q = 0
  · subst h0; exact ⟨0, 0, rfl, .inl ⟨rfl, rfl⟩⟩
  · obtain ⟨m, j, hmj, hodd⟩ := exists_odd q h0
    subst hmj
    refine ⟨m, e + j, mk_pow neg m j e hodd, .inr ⟨hodd, ?_, by omega⟩⟩
    have : m ≤ m * 2 ^ j := Nat.le_mul_of_pos_right m (Nat.two_pow_pos j)
    by_cases hm : m = 9007199254740992
    · subst hm; exact absurd hodd (by decide)
    · omega

/-- Rounding a fraction gives a float64. -/
theorem roundRat_canon (neg : Bool) (num den : Nat) (hd : den ≠ 0) : (roundRat neg num den).Canon := by
  unfold roundRat
  split
  · exact .inl ⟨rfl, rfl⟩
  · rename_i hn
    have hq := quo_roundExp num den hd
    have he := roundExp_ge num den
    simp only [quo] at hq
    simp only
    generalize hs : scale num den (roundExp num den) = s at *
    obtain ⟨m, e', h1, h2⟩ := mk_canon neg (if s.2 < 2 * (s.1 % s.2) ∨ (2 * (s.1 % s.2) = s.2 ∧ s.1 / s.2 % 2 = 1) then s.1 / s.2 + 1 else s.1 / s.2)
      (roundExp num den) (by split <;> omega) he
    rw [h1]
    simp only
    split
    · trivial
    · rcases h2 with ⟨rfl, rfl⟩ | ⟨a, b, c⟩
      · exact .inl ⟨rfl, rfl⟩
      · exact .inr ⟨a, b, c, by omega⟩

theorem ofInt_canon (n : Int) : (ofInt n).Canon := roundRat_canon _ _ _ (by decide)

end F64

theorem scaled_canon (neg : Bool) (d base : Nat) (hb : 0 < base) (k : Int) : (scaled neg d base k).Canon := by
  unfold scaled
  split
  · exact F64.roundRat_canon _ _ _ (by decide)
  · exact F64.roundRat_canon _ _ _ (Nat.pos_iff_ne_zero.1 (Nat.pow_pos hb))

/-- Whatever text reads as a number, the number is a float64. -/
theorem parseFloat_canon {s : Bytes} {x : F64} (h : parseFloat s = some x) : x.Canon := by
  unfold parseFloat at h
  split at h
  · rename_i y hy
    cases h
    unfold parseSpecial at hy
    simp only at hy
    split at hy
    · cases hy; trivial
    · split at hy
      · cases hy; trivial
      · split at hy
        · cases hy; trivial
        · cases hy
  · split at h
    · cases h
    · rename_i hr
      rw [readFloat] at h
      simp only at h
      split at h
      · cases h
      · split at h
        · cases h
        · split at h
          · cases h
          · split at h <;> cases h <;> exact scaled_canon _ _ _ (by decide) _

end Texted
