import Mathlib.Tactic.Linarith
import Mathlib.Tactic.Positivity
import Mathlib.Tactic.FieldSimp
import Mathlib.Tactic.Ring
import Mathlib.Tactic.NormNum
import Verif.Spec.Float
import Verif.Lemmas.F64
/- `roundRat` rounds to the nearest float64. -/
namespace Texted
open Spec
namespace F64

theorem scale_val (num den : Nat) (e : Int) (hd : 0 < den) : 0 < (scale num den e).2 ∧
    ((scale num den e).1 : ℚ) = (num : ℚ) / den / 2 ^ e * ((scale num den e).2 : ℚ) := by
  have hd' : (den : ℚ) ≠ 0 := by exact_mod_cast hd.ne'
  have h2 : (2 : ℚ) ≠ 0 := by norm_num
  unfold scale
  split
  · rename_i h
    refine ⟨Nat.mul_pos hd (Nat.two_pow_pos _), ?_⟩
    have : (2 : ℚ) ^ e = 2 ^ e.toNat := by rw [← zpow_natCast, Int.toNat_of_nonneg h]
    simp only [this]; push_cast; field_simp
  · rename_i h
    refine ⟨hd, ?_⟩
    have : (2 : ℚ) ^ e = (2 ^ (-e).toNat)⁻¹ := by
      rw [← zpow_natCast, Int.toNat_of_nonneg (by omega), ← zpow_neg, neg_neg]
    simp only [this]; push_cast; field_simp

/-- The quotient of the scaled fraction. -/
theorem scale_floor (num den : Nat) (e : Int) (hd : 0 < den) :
    (((scale num den e).1 / (scale num den e).2 : Nat) : ℚ) ≤ (num : ℚ) / den / 2 ^ e ∧
    (num : ℚ) / den / 2 ^ e < (((scale num den e).1 / (scale num den e).2 : Nat) : ℚ) + 1 := by
  obtain ⟨hp, hv⟩ := scale_val num den e hd
  generalize scale num den e = s at *
  have hp' : (0 : ℚ) < s.2 := by exact_mod_cast hp
  have h1 : s.1 / s.2 * s.2 ≤ s.1 := Nat.div_mul_le_self _ _
  have h2 : s.1 < (s.1 / s.2 + 1) * s.2 := by
    have := Nat.lt_mul_div_succ s.1 hp
    rwa [mul_comm] at this
  have h1' : ((s.1 / s.2 : Nat) : ℚ) * s.2 ≤ s.1 := by exact_mod_cast h1
  have h2' : (s.1 : ℚ) < (((s.1 / s.2 : Nat) : ℚ) + 1) * s.2 := by exact_mod_cast h2
  rw [hv] at h1' h2'
  exact ⟨le_of_mul_le_mul_right h1' hp', lt_of_mul_lt_mul_right h2' hp'.le⟩

theorem floor_lt_iff (num den : Nat) (e : Int) (hd : 0 < den) (k : Nat) :
    (scale num den e).1 / (scale num den e).2 < k ↔ (num : ℚ) / den / 2 ^ e < k := by
  obtain ⟨h1, h2⟩ := scale_floor num den e hd
  generalize (scale num den e).1 / (scale num den e).2 = q at *
  constructor
  · intro h
    have : ((q + 1 : Nat) : ℚ) ≤ (k : ℚ) := by exact_mod_cast h
    push_cast at this; linarith
  · intro h
    have : (q : ℚ) < k := lt_of_le_of_lt h1 h
    exact_mod_cast this

theorem log2_bounds (n : Nat) (h : n ≠ 0) : (2 : ℚ) ^ (n.log2 : ℤ) ≤ n ∧ (n : ℚ) < 2 ^ ((n.log2 : ℤ) + 1) := by
  have h1 : 2 ^ n.log2 ≤ n := Nat.log2_self_le h
  have h2 : n < 2 ^ (n.log2 + 1) := Nat.lt_log2_self
  constructor
  · rw [zpow_natCast]; exact_mod_cast h1
  · have : ((n.log2 : ℤ) + 1) = ((n.log2 + 1 : Nat) : ℤ) := by push_cast; rfl
    rw [this, zpow_natCast]; exact_mod_cast h2

/-- The scale chosen for rounding. -/
theorem roundExp_spec (num den : Nat) (hn : num ≠ 0) (hd : 0 < den) : -1074 ≤ roundExp num den ∧
    (num : ℚ) / den / 2 ^ roundExp num den < 2 ^ 53 ∧
    (-1074 < roundExp num den → 2 ^ 52 ≤ (num : ℚ) / den / 2 ^ roundExp num den) := by
  have h2 : (2 : ℚ) ≠ 0 := by norm_num
  have pz : ∀ k : ℤ, (0 : ℚ) < 2 ^ k := fun k => by positivity
  have hdq : (0 : ℚ) < den := by exact_mod_cast hd
  obtain ⟨n1, n2⟩ := log2_bounds num hn
  obtain ⟨d1, d2⟩ := log2_bounds den (by omega)
  -- the quotient lies between 2^52 and 2^54 units of the first scale
  have lo : (2 : ℚ) ^ 52 ≤ (num : ℚ) / den / 2 ^ ((num.log2 : ℤ) - den.log2 - 53) := by
    rw [le_div_iff₀ (pz _), le_div_iff₀ hdq]
    calc (2 : ℚ) ^ 52 * 2 ^ ((num.log2 : ℤ) - den.log2 - 53) * den
        ≤ (2 : ℚ) ^ 52 * 2 ^ ((num.log2 : ℤ) - den.log2 - 53) * 2 ^ ((den.log2 : ℤ) + 1) :=
          mul_le_mul_of_nonneg_left d2.le (by positivity)
      _ = 2 ^ (num.log2 : ℤ) := by
          rw [← zpow_natCast, ← zpow_add₀ h2, ← zpow_add₀ h2]; congr 1; push_cast; ring
      _ ≤ num := n1
  have hi : (num : ℚ) / den / 2 ^ ((num.log2 : ℤ) - den.log2 - 53) < 2 ^ 54 := by
    rw [div_lt_iff₀ (pz _), div_lt_iff₀ hdq]
    calc (num : ℚ) < 2 ^ ((num.log2 : ℤ) + 1) := n2
      _ = (2 : ℚ) ^ 54 * 2 ^ ((num.log2 : ℤ) - den.log2 - 53) * 2 ^ (den.log2 : ℤ) := by
          rw [← zpow_natCast, ← zpow_add₀ h2, ← zpow_add₀ h2]; congr 1; push_cast; ring
      _ ≤ (2 : ℚ) ^ 54 * 2 ^ ((num.log2 : ℤ) - den.log2 - 53) * den := mul_le_mul_of_nonneg_left d1 (by positivity)
  have key : ∃ e : ℤ, roundExp num den = (if e < -1074 then -1074 else e) ∧
      (num : ℚ) / den / 2 ^ e < 2 ^ 53 ∧ 2 ^ 52 ≤ (num : ℚ) / den / 2 ^ e := by
    have hf := floor_lt_iff num den ((num.log2 : ℤ) - den.log2 - 53) hd 9007199254740992
    by_cases hc : (scale num den ((num.log2 : ℤ) - den.log2 - 53)).1 / (scale num den ((num.log2 : ℤ) - den.log2 - 53)).2 < 9007199254740992
    · refine ⟨(num.log2 : ℤ) - den.log2 - 53, by simp only [roundExp, if_pos hc], ?_, lo⟩
      have := hf.1 hc
      refine lt_of_lt_of_eq this (by norm_num)
    · refine ⟨(num.log2 : ℤ) - den.log2 - 53 + 1, by simp only [roundExp, if_neg hc], ?_, ?_⟩
      · rw [zpow_add₀ h2, zpow_one, ← div_div]; linarith
      · have h := fun h => hc (hf.2 h)
        rw [zpow_add₀ h2, zpow_one, ← div_div]
        have h' := not_lt.1 h
        have e : ((9007199254740992 : Nat) : ℚ) = 2 * 2 ^ 52 := by norm_num
        rw [e] at h'
        linarith
  obtain ⟨e, he, h1, h2'⟩ := key
  rw [he]
  split
  · rename_i hlt
    refine ⟨le_refl _, ?_, fun h => absurd h (lt_irrefl _)⟩
    refine lt_of_le_of_lt ?_ h1
    exact div_le_div_of_nonneg_left (by positivity) (pz _) (zpow_le_zpow_right₀ (by norm_num) hlt.le)
  · rename_i hge
    exact ⟨by omega, h1, fun _ => h2'⟩

/-- Rounding a rational to an integer, ties to even. -/
theorem round_int (r : ℚ) (Q : Nat) (h1 : (Q : ℚ) ≤ r) (h2 : r < Q + 1) (q : Nat)
    (hq : q = if 1 / 2 < r - Q ∨ (r - Q = 1 / 2 ∧ Q % 2 = 1) then Q + 1 else Q) :
    (∀ n : ℤ, |(q : ℚ) - r| ≤ |(n : ℚ) - r|) ∧ (∀ n : ℤ, n ≠ q → |(q : ℚ) - r| = |(n : ℚ) - r| → q % 2 = 0 ∧ n % 2 = 1) := by
  have hn : ∀ n : ℤ, n ≤ Q ∨ (Q : ℤ) + 1 ≤ n := fun n => by omega
  have lo : ∀ n : ℤ, n ≤ Q → |(n : ℚ) - r| = r - n := by
    intro n h
    have : (n : ℚ) ≤ Q := by exact_mod_cast h
    rw [abs_of_nonpos (by linarith)]; ring
  have hi : ∀ n : ℤ, (Q : ℤ) + 1 ≤ n → |(n : ℚ) - r| = n - r := by
    intro n h
    have : (Q : ℚ) + 1 ≤ n := by exact_mod_cast h
    rw [abs_of_nonneg (by linarith)]
  split at hq
  · rename_i hc
    have hge : 1 / 2 ≤ r - Q := by rcases hc with h | ⟨h, _⟩ <;> linarith
    have hq' : |(q : ℚ) - r| = Q + 1 - r := by
      have := hi (Q + 1) (le_refl _)
      rw [hq]; push_cast at this ⊢; exact this
    rw [hq']
    constructor
    · intro n
      rcases hn n with h | h
      · rw [lo n h]; have : (n : ℚ) ≤ Q := by exact_mod_cast h
        linarith
      · rw [hi n h]; have : (Q : ℚ) + 1 ≤ n := by exact_mod_cast h
        linarith
    · intro n hne heq
      rcases hn n with h | h
      · rw [lo n h] at heq
        have h3 : (n : ℚ) ≤ Q := by exact_mod_cast h
        have h4 : (n : ℚ) = Q := by linarith
        have h5 : n = Q := by exact_mod_cast h4
        have h6 : r - Q = 1 / 2 := by linarith
        rcases hc with hc | hc
        · linarith
        · omega
      · rw [hi n h] at heq
        have h4 : (n : ℚ) = Q + 1 := by linarith
        have h5 : n = Q + 1 := by exact_mod_cast h4
        omega
  · rename_i hc
    have hle : r - Q ≤ 1 / 2 := not_lt.1 fun h => hc (Or.inl h)
    have hq' : |(q : ℚ) - r| = r - Q := by
      have := lo Q (le_refl _)
      rw [hq]; push_cast at this ⊢; exact this
    rw [hq']
    constructor
    · intro n
      rcases hn n with h | h
      · rw [lo n h]; have : (n : ℚ) ≤ Q := by exact_mod_cast h
        linarith
      · rw [hi n h]; have : (Q : ℚ) + 1 ≤ n := by exact_mod_cast h
        linarith
    · intro n hne heq
      rcases hn n with h | h
      · rw [lo n h] at heq
        have h4 : (n : ℚ) = Q := by linarith
        have h5 : n = Q := by exact_mod_cast h4
        omega
      · rw [hi n h] at heq
        have h3 : (Q : ℚ) + 1 ≤ n := by exact_mod_cast h
        have h4 : (n : ℚ) = Q + 1 := by linarith
        have h5 : n = Q + 1 := by exact_mod_cast h4
        have h6 : r - Q = 1 / 2 := by linarith
        have h7 : ¬ Q % 2 = 1 := fun h => hc (Or.inr ⟨h6, h⟩)
        omega

/-- The integer `roundRat` rounds to. -/
def roundInt (num den : Nat) (e : Int) : Nat :=
  let s := scale num den e
  if s.2 < 2 * (s.1 % s.2) ∨ (2 * (s.1 % s.2) = s.2 ∧ s.1 / s.2 % 2 = 1) then s.1 / s.2 + 1 else s.1 / s.2

theorem roundRat_unfold (neg : Bool) (num den : Nat) (hn : num ≠ 0) : roundRat neg num den =
    match mk neg (roundInt num den (roundExp num den)) (roundExp num den) with
    | .fin n m e => if 0 < e + (m.log2 : Int) - 1023 then .inf neg else .fin n m e
    | x => x := by
  rw [roundRat, if_neg hn]
  simp only [roundInt]
  split <;> rename_i h <;> simp only [h]

theorem roundInt_spec (num den : Nat) (e : Int) (hd : 0 < den) :
    (∀ n : ℤ, |(roundInt num den e : ℚ) - (num : ℚ) / den / 2 ^ e| ≤ |(n : ℚ) - (num : ℚ) / den / 2 ^ e|) ∧
    (∀ n : ℤ, n ≠ roundInt num den e → |(roundInt num den e : ℚ) - (num : ℚ) / den / 2 ^ e| = |(n : ℚ) - (num : ℚ) / den / 2 ^ e| →
      roundInt num den e % 2 = 0 ∧ n % 2 = 1) := by
  obtain ⟨h1, h2⟩ := scale_floor num den e hd
  obtain ⟨hp, hv⟩ := scale_val num den e hd
  refine round_int _ _ h1 h2 _ ?_
  rw [roundInt]
  generalize scale num den e = s at *
  have hp' : (0 : ℚ) < s.2 := by exact_mod_cast hp
  have hm : ((s.1 % s.2 : Nat) : ℚ) = ((num : ℚ) / den / 2 ^ e - ((s.1 / s.2 : Nat) : ℚ)) * s.2 := by
    have : ((s.2 * (s.1 / s.2) + s.1 % s.2 : Nat) : ℚ) = (s.1 : ℚ) := by rw [Nat.div_add_mod]
    rw [hv] at this
    push_cast at this ⊢
    linarith
  generalize (num : ℚ) / den / 2 ^ e = r at *
  have e1 : s.2 < 2 * (s.1 % s.2) ↔ 1 / 2 < r - ((s.1 / s.2 : Nat) : ℚ) := by
    have : s.2 < 2 * (s.1 % s.2) ↔ (s.2 : ℚ) < 2 * ((s.1 % s.2 : Nat) : ℚ) := by
      constructor
      · intro h; exact_mod_cast h
      · intro h; exact_mod_cast h
    rw [this, hm]
    constructor
    · intro h; by_contra hc; nlinarith
    · intro h; nlinarith
  have e2 : 2 * (s.1 % s.2) = s.2 ↔ r - ((s.1 / s.2 : Nat) : ℚ) = 1 / 2 := by
    have : 2 * (s.1 % s.2) = s.2 ↔ 2 * ((s.1 % s.2 : Nat) : ℚ) = (s.2 : ℚ) := by
      constructor
      · intro h; exact_mod_cast h
      · intro h; exact_mod_cast h
    rw [this, hm]
    constructor
    · intro h
      have : (2 * (r - ((s.1 / s.2 : Nat) : ℚ)) - 1) * s.2 = 0 := by linarith
      rcases mul_eq_zero.1 this with h | h
      · linarith
      · linarith
    · intro h; rw [h]; ring
  simp only [e1, e2]

theorem roundInt_le (num den : Nat) (e : Int) (hd : 0 < den) (k : Nat) (h : (num : ℚ) / den / 2 ^ e < k) : roundInt num den e ≤ k := by
  have := (floor_lt_iff num den e hd k).2 h
  simp only [roundInt]
  split <;> omega

theorem roundInt_ge (num den : Nat) (e : Int) (hd : 0 < den) (k : Nat) (h : (k : ℚ) ≤ (num : ℚ) / den / 2 ^ e) : k ≤ roundInt num den e := by
  have : k ≤ (scale num den e).1 / (scale num den e).2 := by
    by_contra hc
    have := (floor_lt_iff num den e hd k).1 (by omega)
    linarith
  simp only [roundInt]
  split <;> omega

/-- `mk` gives the canonical form. -/
theorem mk_spec (neg : Bool) (q : Nat) (e : Int) (hq : q ≤ 9007199254740992) (he : -1074 ≤ e) :
    ∃ m e', mk neg q e = .fin neg m e' ∧ value (.fin neg m e') = (if neg then -1 else 1) * (q : ℚ) * 2 ^ e ∧
      (m = 0 ∧ e' = 0 ∧ q = 0 ∨ m % 2 = 1 ∧ m < 9007199254740992 ∧ -1074 ≤ e' ∧ q ≠ 0) := by
  rcases Nat.eq_zero_or_pos q with rfl | hp
  · exact ⟨0, 0, by simp [mk], by simp [value], .inl ⟨rfl, rfl, rfl⟩⟩
  · obtain ⟨m, j, h1, h2⟩ := exists_odd q (by omega)
    refine ⟨m, e + j, by rw [h1, mk_pow neg m j e h2], ?_, .inr ⟨h2, ?_, by omega, by omega⟩⟩
    · simp only [value, h1]
      rw [zpow_add₀ (by norm_num : (2 : ℚ) ≠ 0), zpow_natCast]
      push_cast; ring
    · have h3 : 0 < 2 ^ j := Nat.two_pow_pos j
      have : m ≤ q := by rw [h1]; exact Nat.le_mul_of_pos_right _ h3
      have : m ≠ 9007199254740992 := by rintro rfl; revert h2; decide
      omega

theorem log2_zpow_iff (m : Nat) (e : Int) (hm : m ≠ 0) : 0 < e + (m.log2 : Int) - 1023 ↔ (2 : ℚ) ^ 1024 ≤ m * 2 ^ e := by
  obtain ⟨h1, h2⟩ := log2_bounds m hm
  have pz : (0 : ℚ) < 2 ^ e := by positivity
  have t : (2 : ℚ) ≠ 0 := by norm_num
  have e3 : (2 : ℚ) ^ 1024 = (2 : ℚ) ^ (1024 : ℤ) := rfl
  rw [e3]
  constructor
  · intro h
    calc (2 : ℚ) ^ (1024 : ℤ) ≤ 2 ^ ((m.log2 : ℤ) + e) := zpow_le_zpow_right₀ (by norm_num) (by omega)
      _ = 2 ^ (m.log2 : ℤ) * 2 ^ e := zpow_add₀ t _ _
      _ ≤ m * 2 ^ e := mul_le_mul_of_nonneg_right h1 pz.le
  · intro h
    by_contra hc
    have : (m : ℚ) * 2 ^ e < 2 ^ (1024 : ℤ) := by
      calc (m : ℚ) * 2 ^ e < 2 ^ ((m.log2 : ℤ) + 1) * 2 ^ e := mul_lt_mul_of_pos_right h2 pz
        _ = 2 ^ ((m.log2 : ℤ) + 1 + e) := (zpow_add₀ t _ _).symm
        _ ≤ 2 ^ (1024 : ℤ) := zpow_le_zpow_right₀ (by norm_num) (by omega)
    linarith

/-- The value `roundInt · 2^e` is nearer to the quotient than any float64 (as a non-negative number). -/
theorem round_nearest (num den : Nat) (hn : num ≠ 0) (hd : 0 < den) (n : ℤ) (m : Nat) (e : ℤ) (hm : m < 9007199254740992) (he : -1074 ≤ e)
    (hv : n = m ∨ n = -m) :
    |(roundInt num den (roundExp num den) : ℚ) * 2 ^ roundExp num den - (num : ℚ) / den| ≤ |(n : ℚ) * 2 ^ e - (num : ℚ) / den| ∧
    ((n : ℚ) * 2 ^ e ≠ (roundInt num den (roundExp num den) : ℚ) * 2 ^ roundExp num den → (m % 2 = 1 ∨ m = 0) →
      |(roundInt num den (roundExp num den) : ℚ) * 2 ^ roundExp num den - (num : ℚ) / den| = |(n : ℚ) * 2 ^ e - (num : ℚ) / den| →
      e = roundExp num den ∧ roundInt num den (roundExp num den) % 2 = 0) := by
  obtain ⟨h1, h2, h3⟩ := roundExp_spec num den hn hd
  obtain ⟨r1, r2⟩ := roundInt_spec num den (roundExp num den) hd
  generalize roundExp num den = E at *
  generalize roundInt num den E = k at *
  generalize hr : (num : ℚ) / den / 2 ^ E = r at *
  have pz : (0 : ℚ) < 2 ^ E := by positivity
  have t : (2 : ℚ) ≠ 0 := by norm_num
  have hq : (num : ℚ) / den = r * 2 ^ E := by rw [← hr]; field_simp
  have hx : ∀ a : ℚ, |a * 2 ^ E - (num : ℚ) / den| = |a - r| * 2 ^ E := by
    intro a; rw [hq, ← sub_mul, abs_mul, abs_of_pos pz]
  rw [hx]
  rcases le_or_gt E e with hle | hlt
  · -- the other number is an integer in the chosen unit
    obtain ⟨j, rfl⟩ : ∃ j : Nat, e = E + j := ⟨(e - E).toNat, by omega⟩
    have hy : (n : ℚ) * 2 ^ (E + (j : ℤ)) = ((n * 2 ^ j : ℤ) : ℚ) * 2 ^ E := by
      rw [zpow_add₀ t, zpow_natCast]; push_cast; ring
    rw [hy, hx]
    refine ⟨mul_le_mul_of_nonneg_right (r1 _) pz.le, fun hne hodd heq => ?_⟩
    have heq' := mul_right_cancel₀ pz.ne' heq
    have hne' : (n * 2 ^ j : ℤ) ≠ k := by
      intro h; apply hne; rw [h]; push_cast; rfl
    obtain ⟨a1, a2⟩ := r2 _ hne' heq'
    refine ⟨?_, a1⟩
    have : j = 0 := by
      by_contra hj
      obtain ⟨i, rfl⟩ : ∃ i, j = i + 1 := ⟨j - 1, by omega⟩
      rw [pow_succ, ← mul_assoc] at a2
      omega
    omega
  · -- the other number is too small
    have hE := h3 (by omega)
    have hy : (n : ℚ) * 2 ^ e < 2 ^ 52 * 2 ^ E := by
      have hnm : (n : ℚ) ≤ m := by
        rcases hv with rfl | rfl
        · simp
        · have : (0 : ℚ) ≤ m := by positivity
          push_cast; linarith
      have hmq : (m : ℚ) < 2 ^ 53 := by
        have : (m : ℚ) < (9007199254740992 : Nat) := by exact_mod_cast hm
        exact lt_of_lt_of_eq this (by norm_num)
      have pe : (0 : ℚ) < 2 ^ e := by positivity
      calc (n : ℚ) * 2 ^ e ≤ m * 2 ^ e := mul_le_mul_of_nonneg_right hnm pe.le
        _ < 2 ^ 53 * 2 ^ e := mul_lt_mul_of_pos_right hmq pe
        _ = 2 ^ 52 * 2 ^ (e + 1) := by rw [zpow_add₀ t]; norm_num; ring
        _ ≤ 2 ^ 52 * 2 ^ E := mul_le_mul_of_nonneg_left (zpow_le_zpow_right₀ (by norm_num) (by omega)) (by norm_num)
    have hlt : |(k : ℚ) - r| * 2 ^ E < |(n : ℚ) * 2 ^ e - (num : ℚ) / den| := by
      have a1 := r1 (2 ^ 52)
      have a2 : |(((2 ^ 52 : ℤ)) : ℚ) - r| = r - 2 ^ 52 := by
        push_cast
        rw [abs_of_nonpos (by linarith)]; ring
      rw [a2] at a1
      have a3 : |(n : ℚ) * 2 ^ e - (num : ℚ) / den| = r * 2 ^ E - n * 2 ^ e := by
        rw [hq, abs_of_nonpos]
        · ring
        · have := mul_le_mul_of_nonneg_right hE pz.le
          linarith
      rw [a3]
      have := mul_le_mul_of_nonneg_right a1 pz.le
      rw [sub_mul] at this
      linarith
    exact ⟨hlt.le, fun _ _ h => absurd h hlt.ne⟩

theorem roundRat_zero (neg : Bool) (den : Nat) : roundRat neg 0 den = .fin neg 0 0 := by rw [roundRat, if_pos rfl]

/-- Rounding to the nearest float64. -/
theorem roundRat_nearest (neg : Bool) (num den : Nat) (hd : 0 < den) :
    ((num : ℚ) / den < overflow → ∃ m e, roundRat neg num den = .fin neg m e ∧
      Nearest ((if neg then -1 else 1) * ((num : ℚ) / den)) (.fin neg m e)) ∧
    (overflow ≤ (num : ℚ) / den → roundRat neg num den = .inf neg) := by
  rcases Nat.eq_zero_or_pos num with rfl | hp
  · constructor
    · intro _
      refine ⟨0, 0, roundRat_zero neg den, trivial, .inl ⟨rfl, rfl⟩, ?_, ?_⟩
      · intro y _ _; simp [value]
      · intro n m e _ hne heq
        exfalso; apply hne
        simp only [value, Nat.cast_zero, mul_zero, zero_mul, zero_div, sub_zero, abs_zero] at heq ⊢
        exact abs_eq_zero.1 heq.symm
    · intro h; exfalso
      simp only [overflow, Nat.cast_zero, zero_div] at h
      have : (0 : ℚ) < (2 ^ 54 - 1) * 2 ^ 970 := mul_pos (by norm_num) (pow_pos (by norm_num) _)
      exact absurd h (not_le.2 this)
  have hn : num ≠ 0 := by omega
  obtain ⟨e1, e2, e3⟩ := roundExp_spec num den hn hd
  have t : (2 : ℚ) ≠ 0 := by norm_num
  have hk : roundInt num den (roundExp num den) ≤ 9007199254740992 := by
    refine roundInt_le num den _ hd _ (lt_of_lt_of_eq e2 (by norm_num))
  obtain ⟨m, e, m1, m2, m3⟩ := mk_spec neg (roundInt num den (roundExp num den)) (roundExp num den) hk e1
  rw [roundRat_unfold neg num den hn, m1]
  simp only
  have hinf : 0 < e + (m.log2 : Int) - 1023 ↔ overflow ≤ (num : ℚ) / den := by
    have pz : (0 : ℚ) < 2 ^ roundExp num den := by positivity
    have hval : (m : ℚ) * 2 ^ e = (roundInt num den (roundExp num den) : ℚ) * 2 ^ roundExp num den := by
      simp only [value] at m2
      cases neg <;> simp at m2 <;> linarith
    have hov : overflow = (2 ^ 53 - 1 / 2) * 2 ^ (971 : ℤ) := by
      rw [overflow, show (971 : ℤ) = 970 + 1 by norm_num, zpow_add₀ t, show ((2 : ℚ) ^ (970 : ℤ)) = 2 ^ 970 from rfl, zpow_one]
      generalize (2 : ℚ) ^ 970 = z
      ring
    have h1024 : (2 : ℚ) ^ 1024 = 2 ^ 53 * 2 ^ (971 : ℤ) := by
      rw [show (2 : ℚ) ^ 1024 = 2 ^ (1024 : ℤ) from rfl, show (2 : ℚ) ^ 53 = 2 ^ (53 : ℤ) from rfl, ← zpow_add₀ t]; norm_num
    have hq : (num : ℚ) / den = (num : ℚ) / den / 2 ^ roundExp num den * 2 ^ roundExp num den := by field_simp
    have rs := (roundInt_spec num den (roundExp num den) hd)
    rw [hov]
    rcases m3 with ⟨rfl, rfl, hz⟩ | ⟨m3, m4, m5, m6⟩
    · -- rounds to zero
      constructor
      · intro h; exfalso; revert h; decide
      · intro h; exfalso
        have hz' := rs.1 1
        rw [hz] at hz'
        have e3' : ¬ -1074 < roundExp num den := by
          intro h
          have := roundInt_ge num den (roundExp num den) hd (2 ^ 52) (by push_cast; exact e3 h)
          rw [hz] at this; norm_num at this
        have : roundExp num den = -1074 := by omega
        rw [hq, this] at h
        have hlt : (num : ℚ) / den / 2 ^ (-1074 : ℤ) < 2 ^ 53 := by rw [← this]; exact e2
        have : (2 : ℚ) ^ (-1074 : ℤ) * 2 ≤ 2 ^ (971 : ℤ) := by
          rw [← zpow_add_one₀ t]; exact zpow_le_zpow_right₀ (by norm_num) (by norm_num)
        have p1 : (0 : ℚ) < 2 ^ (-1074 : ℤ) := by positivity
        have := mul_lt_mul_of_pos_right hlt p1
        generalize (2 : ℚ) ^ (-1074 : ℤ) = w at *
        generalize (2 : ℚ) ^ (971 : ℤ) = z at *
        linarith
    · have hm0 : m ≠ 0 := by rintro rfl; omega
      rw [log2_zpow_iff m e hm0, hval, h1024]
      generalize (num : ℚ) / den / 2 ^ roundExp num den = r at *
      generalize hke : roundInt num den (roundExp num den) = k at *
      generalize roundExp num den = E at *
      rw [hq]
      have hkq : (k : ℚ) ≤ 2 ^ 53 := by
        have : (k : ℚ) ≤ (9007199254740992 : Nat) := by exact_mod_cast hk
        exact le_trans this (by norm_num)
      rcases lt_trichotomy E 971 with hlt | heq | hgt
      · -- both sides false
        have hz : (2 : ℚ) ^ E * 2 ≤ 2 ^ (971 : ℤ) := by
          rw [← zpow_add_one₀ t]; exact zpow_le_zpow_right₀ (by norm_num) (by omega)
        constructor
        · intro h; exfalso
          have := mul_le_mul_of_nonneg_right hkq pz.le
          generalize (2 : ℚ) ^ E = w at *
          generalize (2 : ℚ) ^ (971 : ℤ) = z at *
          linarith
        · intro h; exfalso
          have := mul_lt_mul_of_pos_right e2 pz
          generalize (2 : ℚ) ^ E = w at *
          generalize (2 : ℚ) ^ (971 : ℤ) = z at *
          linarith
      · subst heq
        have pz' := pz
        rw [mul_le_mul_iff_left₀ pz', mul_le_mul_iff_left₀ pz']
        constructor
        · intro h
          have a := rs.1 (2 ^ 53 - 1)
          have hk' : (k : ℚ) = 2 ^ 53 := le_antisymm hkq h
          rw [hk', abs_of_nonneg (by linarith)] at a
          push_cast at a
          by_contra hc
          have hc' := not_le.1 hc
          rcases le_total ((2 : ℚ) ^ 53 - 1) r with hr | hr
          · rw [abs_of_nonpos (by linarith)] at a
            linarith
          · rw [abs_of_nonneg (by linarith)] at a
            linarith
        · intro h
          by_contra hc
          have hk' : k ≤ 2 ^ 53 - 1 := by
            have : (k : ℚ) < ((2 ^ 53 : Nat) : ℚ) := by push_cast; exact not_le.1 hc
            have : k < 2 ^ 53 := by exact_mod_cast this
            omega
          have hkq' : (k : ℚ) ≤ 2 ^ 53 - 1 := by
            have : (k : ℚ) ≤ ((2 ^ 53 - 1 : Nat) : ℚ) := by exact_mod_cast hk'
            refine le_trans this (by norm_num)
          have a := rs.1 (2 ^ 53)
          push_cast at a
          rw [abs_of_nonpos (by linarith), abs_of_nonneg (by linarith)] at a
          have hk2 : (k : ℚ) = 2 ^ 53 - 1 := by linarith
          have hr2 : r = 2 ^ 53 - 1 / 2 := by linarith
          have b := rs.2 (2 ^ 53) (by
            intro h
            have : (2 : ℚ) ^ 53 = k := by exact_mod_cast h
            linarith) (by
            push_cast
            rw [abs_of_nonpos (by linarith), abs_of_nonneg (by linarith)]
            linarith)
          revert b; norm_num
      · -- both sides true
        have h52 := e3 (by omega)
        have hz : (2 : ℚ) ^ (971 : ℤ) * 2 ≤ 2 ^ E := by
          rw [← zpow_add_one₀ t]; exact zpow_le_zpow_right₀ (by norm_num) (by omega)
        have p1 : (0 : ℚ) < 2 ^ (971 : ℤ) := by positivity
        have hk52 : (2 : ℚ) ^ 52 ≤ k := by
          by_contra hc
          have hc' := not_le.1 hc
          have a := rs.1 (2 ^ 52)
          push_cast at a
          rw [abs_of_nonpos (by linarith), abs_of_nonpos (by linarith)] at a
          linarith
        have b1 := mul_le_mul_of_nonneg_right h52 pz.le
        have b2 := mul_le_mul_of_nonneg_right hk52 pz.le
        generalize (2 : ℚ) ^ E = w at *
        generalize (2 : ℚ) ^ (971 : ℤ) = z at *
        constructor
        · intro _
          linarith
        · intro _
          linarith
  constructor
  · intro hlt
    have hni : ¬ 0 < e + (m.log2 : Int) - 1023 := fun h => absurd (hinf.1 h) (not_le.2 hlt)
    rw [if_neg hni]
    refine ⟨m, e, rfl, trivial, ?_, ?_, ?_⟩
    · rcases m3 with ⟨h1, h2, _⟩ | ⟨h1, h2, h3, _⟩
      · exact .inl ⟨h1, h2⟩
      · exact .inr ⟨h1, h2, h3, by omega⟩
    · intro y hy hc
      cases y with
      | nan => exact absurd hy id
      | inf _ => exact absurd hy id
      | fin n' m' e' =>
        have hc' : m' < 9007199254740992 ∧ -1074 ≤ e' := by
          rcases hc with ⟨h1, h2⟩ | ⟨_, h1, h2, _⟩
          · omega
          · exact ⟨h1, h2⟩
        rw [m2]
        cases neg <;> cases n'
        · have := (round_nearest num den hn hd m' m' e' hc'.1 hc'.2 (.inl rfl)).1
          simpa [value] using this
        · have := (round_nearest num den hn hd (-m') m' e' hc'.1 hc'.2 (.inr rfl)).1
          simpa [value] using this
        · have := (round_nearest num den hn hd (-m') m' e' hc'.1 hc'.2 (.inr rfl)).1
          rw [← abs_neg, ← abs_neg (((-(m' : ℤ) : ℤ) : ℚ) * 2 ^ e' - (num : ℚ) / den)] at this
          refine le_trans (le_of_eq ?_) (le_trans this (le_of_eq ?_))
          · congr 1; simp; ring
          · congr 1; simp [value]; ring
        · have := (round_nearest num den hn hd m' m' e' hc'.1 hc'.2 (.inl rfl)).1
          rw [← abs_neg, ← abs_neg (((m' : ℤ) : ℚ) * 2 ^ e' - (num : ℚ) / den)] at this
          refine le_trans (le_of_eq ?_) (le_trans this (le_of_eq ?_))
          · congr 1; simp; ring
          · congr 1; simp [value]; ring
    · intro n' m' e' hc hne heq
      have hc' : m' < 9007199254740992 ∧ -1074 ≤ e' ∧ (m' % 2 = 1 ∨ m' = 0) := by
        rcases hc with ⟨h1, h2⟩ | ⟨h0, h1, h2, _⟩
        · exact ⟨by omega, by omega, .inr h1⟩
        · exact ⟨h1, h2, .inl h0⟩
      rw [m2] at hne heq ⊢
      have fin : e' = roundExp num den → roundInt num den (roundExp num den) % 2 = 0 →
          ∃ k : ℤ, (if neg then (-1 : ℚ) else 1) * (roundInt num den (roundExp num den) : ℚ) * 2 ^ roundExp num den = 2 * k * 2 ^ e' := by
        intro h1 h2
        rw [h1]
        obtain ⟨j, hj⟩ : ∃ j, roundInt num den (roundExp num den) = 2 * j := ⟨roundInt num den (roundExp num den) / 2, by omega⟩
        rw [hj]
        cases neg
        · exact ⟨j, by push_cast; simp⟩
        · exact ⟨-j, by push_cast; simp⟩
      cases neg <;> cases n'
      · have := (round_nearest num den hn hd m' m' e' hc'.1 hc'.2.1 (.inl rfl)).2 (by simpa [value] using hne) hc'.2.2
          (by simpa [value] using heq)
        exact fin this.1 this.2
      · have := (round_nearest num den hn hd (-m') m' e' hc'.1 hc'.2.1 (.inr rfl)).2 (by simpa [value] using hne) hc'.2.2
          (by simpa [value] using heq)
        exact fin this.1 this.2
      · have := (round_nearest num den hn hd (-m') m' e' hc'.1 hc'.2.1 (.inr rfl)).2
          (by intro h; apply hne; simp [value] at h ⊢; linarith) hc'.2.2
          (by
            rw [← abs_neg, ← abs_neg (((-(m' : ℤ) : ℤ) : ℚ) * 2 ^ e' - (num : ℚ) / den)]
            refine Eq.trans ?_ (heq.trans ?_)
            · congr 1; simp; ring
            · congr 1; simp [value]; ring)
        exact fin this.1 this.2
      · have := (round_nearest num den hn hd m' m' e' hc'.1 hc'.2.1 (.inl rfl)).2
          (by intro h; apply hne; simp [value] at h ⊢; linarith) hc'.2.2
          (by
            rw [← abs_neg, ← abs_neg (((m' : ℤ) : ℚ) * 2 ^ e' - (num : ℚ) / den)]
            refine Eq.trans ?_ (heq.trans ?_)
            · congr 1; simp; ring
            · congr 1; simp [value]; ring)
        exact fin this.1 this.2
  · intro h
    rw [if_pos (hinf.2 h)]

theorem value_neg (neg : Bool) (m : Nat) (e : Int) : value (.fin (!neg) m e) = - value (.fin neg m e) := by
  cases neg <;> simp [value]

theorem value_int (neg : Bool) (m : Nat) (e : Int) : ∃ z : ℤ, value (.fin neg m e) = z * 2 ^ e ∧ z.natAbs = m := by
  cases neg
  · exact ⟨m, by simp [value], by simp⟩
  · exact ⟨-m, by simp [value], by simp⟩

/-- Two nearest numbers have the same value: the case where the first has the smaller unit. -/
theorem nearest_value_aux {q : ℚ} {n n' : Bool} {m m' : Nat} {e e' : Int} (h : Nearest q (.fin n m e)) (h' : Nearest q (.fin n' m' e'))
    (hle : e ≤ e') : value (.fin n m e) = value (.fin n' m' e') := by
  by_contra hne
  have t : (2 : ℚ) ≠ 0 := by norm_num
  have d := le_antisymm (h.nearest _ h'.finite h'.canon) (h'.nearest _ h.finite h.canon)
  obtain ⟨k, hk⟩ := h.even n' m' e' h'.canon (Ne.symm hne) d
  obtain ⟨z, hz, hzm⟩ := value_int n m e
  obtain ⟨j, rfl⟩ : ∃ j : Nat, e' = e + j := ⟨(e' - e).toNat, by omega⟩
  have hz2 : z = 2 * (k * 2 ^ j) := by
    have pe : (2 : ℚ) ^ e ≠ 0 := zpow_ne_zero _ t
    have : (z : ℚ) * 2 ^ e = (2 * (k * 2 ^ j)) * 2 ^ e := by
      rw [← hz, hk, zpow_add₀ t, zpow_natCast]; ring
    exact_mod_cast mul_right_cancel₀ pe this
  have hm : m = 0 ∧ e = 0 := by
    rcases h.canon with h | ⟨h, _⟩
    · exact h
    · generalize k * 2 ^ j = w at hz2; omega
  obtain ⟨rfl, rfl⟩ := hm
  have hv0 : value (.fin n 0 0) = 0 := by simp [value]
  rw [hv0] at hne d
  have hc' : m' % 2 = 1 ∧ m' < 9007199254740992 ∧ (0 : ℤ) + j + (m'.log2 : Int) ≤ 1023 := by
    rcases h'.canon with ⟨h1, h2⟩ | ⟨h1, h2, _, h3⟩
    · exfalso; apply hne; subst h1; simp [value]
    · exact ⟨h1, h2, h3⟩
  -- half of the second number is a float64 between the two
  have hy := h.nearest (.fin n' m' (0 + j - 1)) trivial (.inr ⟨hc'.1, hc'.2.1, by omega, by omega⟩)
  have hy' := h'.nearest (.fin n' m' (0 + j - 1)) trivial (.inr ⟨hc'.1, hc'.2.1, by omega, by omega⟩)
  have hhalf : value (.fin n' m' (0 + j)) = 2 * value (.fin n' m' (0 + j - 1)) := by
    simp only [value]
    have h1 : (2 : ℚ) ^ ((0 : ℤ) + j) = 2 ^ ((0 : ℤ) + j - 1) * 2 := by rw [← zpow_add_one₀ t]; congr 1; omega
    rw [h1]; ring
  rw [hv0] at hy
  rw [hhalf] at d hy' hne
  generalize value (.fin n' m' (0 + j - 1)) = y at *
  have hyne : y ≠ 0 := fun h => hne (by rw [h]; ring)
  rcases abs_eq_abs.1 d with hd | hd
  · apply hyne; linarith
  · have hq : q = y := by linarith
    rw [hq] at hy
    simp at hy
    exact hyne hy

theorem nearest_value {q : ℚ} {x x' : F64} (h : Nearest q x) (h' : Nearest q x') : value x = value x' := by
  cases x with
  | nan => exact absurd h.finite id
  | inf _ => exact absurd h.finite id
  | fin n m e =>
    cases x' with
    | nan => exact absurd h'.finite id
    | inf _ => exact absurd h'.finite id
    | fin n' m' e' =>
      rcases le_total e e' with hle | hle
      · exact nearest_value_aux h h' hle
      · exact (nearest_value_aux h' h hle).symm

/-- A float64 is determined by its value and its sign bit. -/
theorem value_inj {n : Bool} {m m' : Nat} {e e' : Int} (h : Canon (.fin n m e)) (h' : Canon (.fin n m' e'))
    (hv : value (.fin n m e) = value (.fin n m' e')) : m = m' ∧ e = e' := by
  have t : (2 : ℚ) ≠ 0 := by norm_num
  have hv' : (m : ℚ) * 2 ^ e = m' * 2 ^ e' := by
    cases n <;> simp [value] at hv <;> exact hv
  have key : ∀ (m m' : Nat) (e e' : Int), Canon (.fin n m e) → Canon (.fin n m' e') → e ≤ e' → (m : ℚ) * 2 ^ e = m' * 2 ^ e' →
      m = m' ∧ e = e' := by
    intro m m' e e' h h' hle hv
    obtain ⟨j, rfl⟩ : ∃ j : Nat, e' = e + j := ⟨(e' - e).toNat, by omega⟩
    have pe : (2 : ℚ) ^ e ≠ 0 := zpow_ne_zero _ t
    have hm : m = m' * 2 ^ j := by
      have : (m : ℚ) * 2 ^ e = (m' * 2 ^ j : Nat) * 2 ^ e := by
        rw [hv, zpow_add₀ t, zpow_natCast]; push_cast; ring
      exact_mod_cast mul_right_cancel₀ pe this
    rcases h with ⟨h1, h2⟩ | ⟨h1, _⟩
    · subst h1
      have : m' = 0 := by
        have := Nat.two_pow_pos j
        rcases Nat.mul_eq_zero.1 hm.symm with h | h
        · exact h
        · omega
      subst this
      rcases h' with ⟨_, h3⟩ | ⟨h3, _⟩
      · omega
      · omega
    · have hj : j = 0 := by
        by_contra hj
        obtain ⟨i, rfl⟩ : ∃ i, j = i + 1 := ⟨j - 1, by omega⟩
        rw [pow_succ, ← mul_assoc] at hm
        omega
      subst hj
      simp at hm
      exact ⟨hm, by omega⟩
  rcases le_total e e' with hle | hle
  · exact key m m' e e' h h' hle hv'
  · obtain ⟨h1, h2⟩ := key m' m e' e h' h hle hv'.symm
    exact ⟨h1.symm, h2.symm⟩

end F64

/-- Rounding is to nearest, and there is only one nearest number of that sign. -/
theorem roundRat_iff (neg : Bool) (num den : Nat) (hd : 0 < den) (x : F64) :
    (F64.roundRat neg num den = x ∧ Finite x) ↔
      ((num : ℚ) / den < overflow ∧ signBit x = neg ∧ Nearest ((if neg then -1 else 1) * ((num : ℚ) / den)) x) := by
  obtain ⟨h1, h2⟩ := F64.roundRat_nearest neg num den hd
  constructor
  · rintro ⟨rfl, hf⟩
    have hlt : (num : ℚ) / den < overflow := by
      by_contra hc
      rw [h2 (not_lt.1 hc)] at hf
      exact hf
    obtain ⟨m, e, h3, h4⟩ := h1 hlt
    rw [h3]
    exact ⟨hlt, rfl, h4⟩
  · rintro ⟨hlt, hs, hx⟩
    obtain ⟨m, e, h3, h4⟩ := h1 hlt
    refine ⟨?_, hx.finite⟩
    rw [h3]
    cases x with
    | nan => exact absurd hx.finite id
    | inf _ => exact absurd hx.finite id
    | fin n m' e' =>
      cases hs
      obtain ⟨rfl, rfl⟩ := F64.value_inj h4.canon hx.canon (F64.nearest_value h4 hx)
      rfl

end Texted
