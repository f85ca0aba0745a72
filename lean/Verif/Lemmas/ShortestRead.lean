import Verif.Lemmas.Shortest
/- Which decimal numbers are read as a given float64: an interval, and 17 digits are always enough. -/
namespace Texted
open Spec F64

/-- The sign as a number. -/
def sgn (x : F64) : ℚ := if signBit x then -1 else 1

/-- The decimal number `q`, with the sign of `x`, is read as `x`. -/
def Reads (x : F64) (q : ℚ) : Prop := q < overflow ∧ Nearest (sgn x * q) x

theorem value_sgn (neg : Bool) (m : Nat) (e : Int) : value (.fin neg m e) = sgn (.fin neg m e) * ((m : ℚ) * 2 ^ e) := by
  cases neg <;> simp [value, sgn, signBit]

theorem magnitude_fin (neg : Bool) (m : Nat) (e : Int) : magnitude (.fin neg m e) = (m : ℚ) * 2 ^ e := by
  have h : (0 : ℚ) ≤ (m : ℚ) * 2 ^ e := by positivity
  rw [magnitude, value_sgn]
  cases neg <;> simp [sgn, signBit]

theorem value_magnitude {x : F64} (h : Finite x) : value x = sgn x * magnitude x := by
  cases x with
  | nan => exact h.elim
  | inf _ => exact h.elim
  | fin neg m e => rw [magnitude_fin, value_sgn]

theorem sgn_sq (x : F64) : sgn x * sgn x = 1 := by unfold sgn; split <;> norm_num
theorem sgn_abs (x : F64) : |sgn x| = 1 := by unfold sgn; split <;> norm_num

theorem abs_sgn (x : F64) (a b : ℚ) : |sgn x * a - sgn x * b| = |a - b| := by rw [← mul_sub, abs_mul, sgn_abs, one_mul]

/-- What is between a number that is read as `x` and `x` itself is read as `x`. -/
theorem nearest_between {q w : ℚ} {x : F64} (h : Nearest q x) (hb : |value x - q| = |value x - w| + |w - q|) : Nearest w x := by
  refine ⟨h.finite, h.canon, ?_, ?_⟩
  · intro y hy hc
    have h1 := h.nearest y hy hc
    have h2 := abs_sub_le (value y) w q
    linarith
  · intro neg m e hc hne he
    have h1 := h.nearest (.fin neg m e) trivial hc
    have h2 := abs_sub_le (value (.fin neg m e)) w q
    exact h.even neg m e hc hne (by linarith)

/-- Numbers as great as `x` do not overflow. -/
theorem magnitude_lt {x : F64} (hc : x.Canon) : magnitude x < overflow := by
  cases x with
  | nan => rw [magnitude]; simp [value, overflow]; norm_num
  | inf _ => rw [magnitude]; simp [value, overflow]; norm_num
  | fin neg m e =>
    rw [magnitude_fin]
    rcases hc with ⟨rfl, rfl⟩ | ⟨h1, h2, h3, h4⟩
    · simp [overflow]; norm_num
    · by_cases he : e ≤ 971
      · have hp : (2 : ℚ) ^ e ≤ 2 ^ (971 : ℤ) := zpow_le_zpow_right₀ (by norm_num) he
        have hm : (m : ℚ) ≤ 9007199254740991 := by exact_mod_cast (by omega : m ≤ 9007199254740991)
        have h0 : (0 : ℚ) < 2 ^ (971 : ℤ) := by positivity
        calc (m : ℚ) * 2 ^ e ≤ 9007199254740991 * 2 ^ (971 : ℤ) := mul_le_mul hm hp (by positivity) (by norm_num)
          _ < overflow := by
            rw [overflow, show (2 : ℚ) ^ (971 : ℤ) = 2 ^ 970 * 2 by rw [show (971 : ℤ) = ((970 + 1 : Nat) : ℤ) by norm_num, zpow_natCast, pow_succ]]
            have : (0 : ℚ) < 2 ^ 970 := by positivity
            generalize (2 : ℚ) ^ 970 = u at this ⊢
            norm_num
            linarith
      · have hl := log2_bounds m (by omega)
        have h5 : (m : ℚ) * 2 ^ e < 2 ^ (1024 : ℤ) := by
          calc (m : ℚ) * 2 ^ e < 2 ^ ((m.log2 : ℤ) + 1) * 2 ^ e := mul_lt_mul_of_pos_right hl.2 (by positivity)
            _ = 2 ^ ((m.log2 : ℤ) + 1 + e) := (zpow_add₀ (by norm_num) _ _).symm
            _ ≤ 2 ^ (1024 : ℤ) := zpow_le_zpow_right₀ (by norm_num) (by omega)
        -- a multiple of `2^972` below `2^1024`
        obtain ⟨j, rfl⟩ : ∃ j : Nat, e = 972 + j := ⟨(e - 972).toNat, by omega⟩
        have h6 : (m : ℚ) * 2 ^ ((972 : ℤ) + j) = ((m * 2 ^ j : Nat) : ℚ) * 2 ^ (972 : ℤ) := by
          rw [zpow_add₀ (by norm_num : (2 : ℚ) ≠ 0), zpow_natCast]; push_cast; ring
        rw [h6] at h5 ⊢
        have h7 : (2 : ℚ) ^ (1024 : ℤ) = ((2 ^ 52 : Nat) : ℚ) * 2 ^ (972 : ℤ) := by
          rw [show (1024 : ℤ) = 52 + 972 by norm_num, zpow_add₀ (by norm_num : (2 : ℚ) ≠ 0)]; norm_num
        rw [h7] at h5
        have h8 : m * 2 ^ j < 2 ^ 52 := by exact_mod_cast lt_of_mul_lt_mul_right h5 (by positivity)
        have h9 : ((m * 2 ^ j : Nat) : ℚ) ≤ 2 ^ 52 - 1 := by
          have : m * 2 ^ j ≤ 2 ^ 52 - 1 := by omega
          have := (Nat.cast_le (α := ℚ)).2 this
          norm_num at this ⊢
          exact this
        have h0 : (0 : ℚ) < 2 ^ 970 := by positivity
        have h10 : (2 : ℚ) ^ (972 : ℤ) = 4 * 2 ^ 970 := by
          rw [show (972 : ℤ) = ((970 + 2 : Nat) : ℤ) by norm_num, zpow_natCast, pow_add]; ring
        rw [h10, overflow]
        generalize (2 : ℚ) ^ 970 = u at h0 ⊢
        generalize ((m * 2 ^ j : Nat) : ℚ) = w at h9 ⊢
        nlinarith

theorem reads_between {x : F64} {q w : ℚ} (h : Reads x q) (hb : q ≤ w ∧ w ≤ magnitude x ∨ magnitude x ≤ w ∧ w ≤ q) : Reads x w := by
  have hm := magnitude_lt h.2.canon
  refine ⟨?_, nearest_between h.2 ?_⟩
  · have := h.1
    rcases hb with hb | hb <;> linarith
  · rw [value_magnitude h.2.finite, abs_sgn, abs_sgn, abs_sgn]
    rcases hb with ⟨h1, h2⟩ | ⟨h1, h2⟩
    · rw [abs_of_nonneg (by linarith), abs_of_nonneg (by linarith), abs_of_nonneg (by linarith)]; ring
    · rw [abs_of_nonpos (by linarith), abs_of_nonpos (by linarith), abs_of_nonpos (by linarith)]; ring

/-- With all 53 digits that the unit allows. -/
theorem normal_form {neg : Bool} {m : Nat} {e : Int} (hc : F64.Canon (.fin neg m e)) (hm : m ≠ 0) :
    ∃ (M : Nat) (E : Int), (m : ℚ) * 2 ^ e = M * 2 ^ E ∧ 0 < M ∧ M < 2 ^ 53 ∧ -1074 ≤ E ∧ (2 ^ 52 ≤ M ∨ E = -1074) := by
  rcases hc with ⟨h, _⟩ | ⟨h1, h2, h3, h4⟩
  · exact absurd h hm
  · have key : ∀ (f : Nat) (m : Nat) (e : Int), e + 1074 = f → 0 < m → m < 2 ^ 53 →
        ∃ (M : Nat) (E : Int), (m : ℚ) * 2 ^ e = M * 2 ^ E ∧ 0 < M ∧ M < 2 ^ 53 ∧ -1074 ≤ E ∧ (2 ^ 52 ≤ M ∨ E = -1074) := by
      intro f
      induction f with
      | zero => intro m e he h1 h2; exact ⟨m, e, rfl, h1, h2, by omega, .inr (by omega)⟩
      | succ f ih =>
        intro m e he h1 h2
        by_cases h : 2 ^ 52 ≤ m
        · exact ⟨m, e, rfl, h1, h2, by omega, .inl h⟩
        · obtain ⟨M, E, h5, h6⟩ := ih (m * 2) (e - 1) (by omega) (by omega) (by omega)
          refine ⟨M, E, ?_, h6⟩
          rw [← h5, zpow_sub_one₀ (by norm_num : (2 : ℚ) ≠ 0)]
          push_cast
          ring
    exact key (e + 1074).toNat m e (by omega) (by omega) (by omega)

/-- How far the other float64s are. -/
theorem gap {x : F64} {M : Nat} {E : Int} (hx : magnitude x = M * 2 ^ E) (hE : 2 ^ 52 ≤ M ∨ E = -1074) (hfin : Finite x)
    {y : F64} (hy : Finite y) (hyc : y.Canon) (hne : value y ≠ value x) :
    (2 : ℚ) ^ E ≤ |value y - value x| ∨ (M = 2 ^ 52 ∧ (2 : ℚ) ^ (E - 1) ≤ |value y - value x|) := by
  have t : (2 : ℚ) ≠ 0 := by norm_num
  cases y with
  | nan => exact hy.elim
  | inf _ => exact hy.elim
  | fin n m' e' =>
    have hu : (0 : ℚ) < 2 ^ E := by positivity
    by_cases he : E ≤ e'
    · left
      obtain ⟨z, hz, _⟩ := value_int n m' e'
      obtain ⟨j, rfl⟩ : ∃ j : Nat, e' = E + j := ⟨(e' - E).toNat, by omega⟩
      obtain ⟨w, hw⟩ : ∃ w : ℤ, value x = w * 2 ^ E := by
        rw [value_magnitude hfin, hx]
        unfold sgn
        split
        · exact ⟨-M, by push_cast; ring⟩
        · exact ⟨M, by push_cast; ring⟩
      have e1 : value (.fin n m' (E + j)) - value x = ((z * 2 ^ j - w : ℤ) : ℚ) * 2 ^ E := by
        rw [hz, hw, zpow_add₀ t, zpow_natCast]; push_cast; ring
      rw [e1, abs_mul, abs_of_pos hu]
      have hzz : z * 2 ^ j - w ≠ 0 := by
        intro h0
        rw [h0] at e1
        exact hne (by simpa [sub_eq_zero] using e1)
      have : (1 : ℚ) ≤ |((z * 2 ^ j - w : ℤ) : ℚ)| := by
        rw [← Int.cast_abs]; exact_mod_cast Int.one_le_abs hzz
      nlinarith
    · -- below `2^52` units
      have hc : m' % 2 = 1 ∧ m' < 9007199254740992 ∧ -1074 ≤ e' ∨ (m' = 0 ∧ e' = 0) := by
        rcases hyc with h | ⟨h1, h2, h3, _⟩
        · exact .inr h
        · exact .inl ⟨h1, h2, h3⟩
      have hbig : 2 ^ 52 ≤ M := by
        rcases hE with h | h
        · exact h
        · omega
      have hmag : |value (.fin n m' e')| ≤ (2 ^ 53 - 1) * 2 ^ (E - 1) := by
        have : magnitude (.fin n m' e') = |value (.fin n m' e')| := rfl
        rw [← this, magnitude_fin]
        have h1 : (m' : ℚ) ≤ 2 ^ 53 - 1 := by
          have : m' ≤ 9007199254740991 := by omega
          have := (Nat.cast_le (α := ℚ)).2 this
          norm_num at this ⊢
          exact this
        exact mul_le_mul h1 (zpow_le_zpow_right₀ (by norm_num) (by omega)) (by positivity) (by norm_num)
      have hhalf : (2 : ℚ) ^ E = 2 * 2 ^ (E - 1) := by rw [zpow_sub_one₀ t]; ring
      have hmx : |value x| = M * 2 ^ E := hx
      have hd : |value x| - |value (.fin n m' e')| ≤ |value (.fin n m' e') - value x| := by
        rw [abs_sub_comm]; exact abs_sub_abs_le_abs_sub _ _
      have hu1 : (0 : ℚ) < 2 ^ (E - 1) := by positivity
      rw [hhalf] at hmx ⊢
      generalize (2 : ℚ) ^ (E - 1) = u at *
      rcases Nat.eq_or_lt_of_le hbig with h | h
      · right
        refine ⟨h.symm, ?_⟩
        have : (M : ℚ) = 2 ^ 52 := by rw [← h]; norm_num
        rw [this] at hmx
        nlinarith
      · left
        have : (2 ^ 52 + 1 : ℚ) ≤ M := by exact_mod_cast h
        nlinarith

/-- 17 digits are enough. -/
theorem reads_seventeen {x : F64} (hc : x.Canon) (hfin : Finite x) (h0 : magnitude x ≠ 0) {dp : Int} {q : ℚ}
    (hdp : (10 : ℚ) ^ (dp - 1) ≤ magnitude x) (hq : |q - magnitude x| ≤ 10 ^ (dp - 17) / 2) : Reads x q := by
  have t : (2 : ℚ) ≠ 0 := by norm_num
  cases x with
  | nan => exact hfin.elim
  | inf _ => exact hfin.elim
  | fin neg m e =>
    have hm : m ≠ 0 := by
      rintro rfl
      apply h0
      rw [magnitude_fin]; simp
    obtain ⟨M, E, h1, h2, h3, h4, h5⟩ := normal_form hc hm
    have hx : magnitude (.fin neg m e) = M * 2 ^ E := by rw [magnitude_fin, h1]
    have hmlt := magnitude_lt hc
    have hgap := fun (y : F64) => gap (y := y) hx h5 hfin
    generalize hxx : F64.fin neg m e = x at *
    have hu : (0 : ℚ) < 2 ^ E := by positivity
    have hten : (10 : ℚ) ^ (dp - 17) * 10 ^ 16 = 10 ^ (dp - 1) := by
      rw [← zpow_natCast, ← zpow_add₀ ten_ne]; congr 1; omega
    have hp := ten_pos (dp - 17)
    have hMq : (M : ℚ) < 2 ^ 53 := by exact_mod_cast h3
    have hlt : (10 : ℚ) ^ (dp - 17) < 2 ^ E := by
      have a : (M : ℚ) * 2 ^ E < 2 ^ 53 * 2 ^ E := mul_lt_mul_of_pos_right hMq hu
      rw [← hten, hx] at hdp
      generalize (10 : ℚ) ^ (dp - 17) = p at *
      generalize (2 : ℚ) ^ E = u at *
      norm_num at hdp a
      nlinarith
    have hlt2 : M = 2 ^ 52 → (10 : ℚ) ^ (dp - 17) < 2 ^ (E - 1) := by
      intro hM
      rw [← hten, hx, hM] at hdp
      have hhalf : (2 : ℚ) ^ E = 2 * 2 ^ (E - 1) := by rw [zpow_sub_one₀ t]; ring
      have hu1 : (0 : ℚ) < 2 ^ (E - 1) := by positivity
      rw [hhalf] at hdp
      generalize (10 : ℚ) ^ (dp - 17) = p at *
      generalize (2 : ℚ) ^ (E - 1) = u at *
      norm_num at hdp
      nlinarith
    have hdist : |value x - sgn x * q| ≤ 10 ^ (dp - 17) / 2 := by
      rw [value_magnitude hfin, abs_sgn, abs_sub_comm]; exact hq
    have hfar : ∀ y : F64, Finite y → y.Canon → value y ≠ value x → |value x - sgn x * q| < |value y - sgn x * q| := by
      intro y hy hyc hne
      have h6 : (10 : ℚ) ^ (dp - 17) < |value y - value x| := by
        rcases hgap y hy hyc hne with h | ⟨hM, h⟩
        · exact lt_of_lt_of_le hlt h
        · exact lt_of_lt_of_le (hlt2 hM) h
      have h7 := abs_sub_le (value y) (sgn x * q) (value x)
      rw [abs_sub_comm (sgn x * q) (value x)] at h7
      linarith
    refine ⟨?_, hfin, hc, ?_, ?_⟩
    · -- no overflow
      have h8 : q ≤ magnitude x + 10 ^ (dp - 17) / 2 := by
        have := abs_le.1 hq
        linarith
      have h9 : q < (M + 1 / 2) * 2 ^ E := by rw [hx] at h8; nlinarith
      by_cases hE : E ≤ 971
      · have hM1 : (M : ℚ) + 1 / 2 ≤ 2 ^ 53 - 1 / 2 := by
          have : M + 1 ≤ 2 ^ 53 := h3
          have : (M : ℚ) + 1 ≤ 2 ^ 53 := by exact_mod_cast this
          linarith
        have hp2 : (2 : ℚ) ^ E ≤ 2 ^ (971 : ℤ) := zpow_le_zpow_right₀ (by norm_num) hE
        have h10 : ((M : ℚ) + 1 / 2) * 2 ^ E ≤ (2 ^ 53 - 1 / 2) * 2 ^ (971 : ℤ) := mul_le_mul hM1 hp2 hu.le (by norm_num)
        have h11 : ((2 : ℚ) ^ 53 - 1 / 2) * 2 ^ (971 : ℤ) = overflow := by
          rw [overflow, show (2 : ℚ) ^ (971 : ℤ) = 2 ^ 970 * 2 by rw [show (971 : ℤ) = ((970 + 1 : Nat) : ℤ) by norm_num, zpow_natCast, pow_succ]]
          ring
        linarith
      · -- impossible
        exfalso
        have hb : (2 ^ 52 : ℚ) ≤ M := by
          rcases h5 with h | h
          · exact_mod_cast h
          · omega
        have hp2 : (2 : ℚ) ^ (972 : ℤ) ≤ 2 ^ E := zpow_le_zpow_right₀ (by norm_num) (by omega)
        have h10 : (2 : ℚ) ^ 52 * 2 ^ (972 : ℤ) ≤ M * 2 ^ E := mul_le_mul hb hp2 (by positivity) (by positivity)
        have h11 : (2 : ℚ) ^ (972 : ℤ) = 4 * 2 ^ 970 := by
          rw [show (972 : ℤ) = ((970 + 2 : Nat) : ℤ) by norm_num, zpow_natCast, pow_add]; ring
        rw [hx, overflow] at hmlt
        rw [h11] at h10
        have h12 : (0 : ℚ) < 2 ^ 970 := by positivity
        generalize (2 : ℚ) ^ 970 = u at *
        generalize (M : ℚ) * 2 ^ E = w at *
        norm_num at hmlt h10
        linarith only [hmlt, h10, h12]
    · intro y hy hyc
      by_cases hne : value y = value x
      · rw [hne]
      · exact (hfar y hy hyc hne).le
    · intro n' m' e' hyc hne he
      exact absurd he (ne_of_lt (hfar _ trivial hyc hne))

end Texted
