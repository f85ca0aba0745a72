import Verif.Model.Value
/- float64: representable numbers are not changed by rounding; integers up to 2^53 convert exactly. -/
namespace Texted
namespace F64

theorem strip_pow (m j fuel : Nat) (e : Int) (hm : m % 2 = 1) (hf : j ≤ fuel) :
    strip fuel (m * 2 ^ j) e = (m, e + j) := by
  induction j generalizing fuel e with
  | zero =>
    cases fuel with
    | zero => simp [strip]
    | succ f => simp [strip, hm]
  | succ j ih =>
    cases fuel with
    | zero => omega
    | succ f =>
      have h1 : m * 2 ^ (j + 1) = 2 * (m * 2 ^ j) := by rw [Nat.pow_succ]; ac_rfl
      have h2 : m * 2 ^ (j + 1) % 2 = 0 := by omega
      have h3 : m * 2 ^ (j + 1) / 2 = m * 2 ^ j := by omega
      simp only [strip, h2, if_true, h3]
      rw [ih f (e + 1) (by omega)]
      simp; omega

theorem mk_pow (neg : Bool) (m j : Nat) (e : Int) (hm : m % 2 = 1) :
    mk neg (m * 2 ^ j) e = .fin neg m (e + j) := by
  have hpos : 0 < m := by omega
  have h2 : 0 < 2 ^ j := Nat.two_pow_pos j
  have hne : m * 2 ^ j ≠ 0 := Nat.mul_ne_zero (by omega) (by omega)
  have hl : j ≤ (m * 2 ^ j).log2 := by
    rw [Nat.le_log2 hne]; exact Nat.le_mul_of_pos_left _ hpos
  simp [mk, hne, strip_pow m j _ e hm hl]

/-- The scaled fraction of a number that is a multiple of `2^e`. -/
theorem scale_exact (num den m a b : Nat) (e : Int) (h : num * 2 ^ a = m * 2 ^ b * den)
    (he : e ≤ (b : Int) - a) :
    ∃ d, (scale num den e) = (m * 2 ^ ((b : Int) - a - e).toNat * d, d) ∧ (0 < den → 0 < d) := by
  have h2 : ∀ n, 0 < 2 ^ n := Nat.two_pow_pos
  unfold scale
  split
  · rename_i h0
    refine ⟨den * 2 ^ e.toNat, ?_, fun hd => Nat.mul_pos hd (h2 _)⟩
    congr 1
    apply Nat.eq_of_mul_eq_mul_right (h2 a)
    rw [h]
    have : b = ((b : Int) - a - e).toNat + e.toNat + a := by omega
    conv => lhs; rw [this]
    simp only [Nat.pow_add]; ac_rfl
  · rename_i h0
    refine ⟨den, ?_, fun hd => hd⟩
    congr 1
    apply Nat.eq_of_mul_eq_mul_right (h2 a)
    have e1 : num * 2 ^ (-e).toNat * 2 ^ a = m * 2 ^ b * den * 2 ^ (-e).toNat := by
      rw [← h]; ac_rfl
    rw [e1]
    have : b + (-e).toNat = ((b : Int) - a - e).toNat + a := by omega
    calc m * 2 ^ b * den * 2 ^ (-e).toNat = m * 2 ^ (b + (-e).toNat) * den := by rw [Nat.pow_add]; ac_rfl
      _ = _ := by rw [this, Nat.pow_add]; ac_rfl

theorem scale_small (num den m a b : Nat) (e : Int) (h : num * 2 ^ a = m * 2 ^ b * den)
    (he : (b : Int) - a ≤ e) : (scale num den e).1 / (scale num den e).2 ≤ m := by
  have h2 : ∀ n, 0 < 2 ^ n := Nat.two_pow_pos
  unfold scale
  split
  · rename_i h0
    apply Nat.div_le_of_le_mul
    apply Nat.le_of_mul_le_mul_right (c := 2 ^ a) _ (h2 a)
    simp only
    rw [h]
    have : b ≤ e.toNat + a := by omega
    calc m * 2 ^ b * den ≤ m * 2 ^ (e.toNat + a) * den :=
          Nat.mul_le_mul_right _ (Nat.mul_le_mul_left _ (Nat.pow_le_pow_right (by omega) this))
      _ = _ := by rw [Nat.pow_add]; ac_rfl
  · rename_i h0
    apply Nat.div_le_of_le_mul
    apply Nat.le_of_mul_le_mul_right (c := 2 ^ a) _ (h2 a)
    simp only
    have e1 : num * 2 ^ (-e).toNat * 2 ^ a = m * 2 ^ b * den * 2 ^ (-e).toNat := by
      rw [← h]; ac_rfl
    rw [e1]
    have : b + (-e).toNat ≤ a := by omega
    calc m * 2 ^ b * den * 2 ^ (-e).toNat = m * 2 ^ (b + (-e).toNat) * den := by rw [Nat.pow_add]; ac_rfl
      _ ≤ m * 2 ^ a * den := Nat.mul_le_mul_right _ (Nat.mul_le_mul_left _ (Nat.pow_le_pow_right (by omega) this))
      _ = _ := by ac_rfl

theorem roundExp_le (num den m a b : Nat) (h : num * 2 ^ a = m * 2 ^ b * den) (hn : num ≠ 0)
    (hm : m < 9007199254740992) (hk : -1074 ≤ (b : Int) - a) :
    roundExp num den ≤ (b : Int) - a := by
  have key : (num.log2 : Int) - den.log2 - 53 ≤ (b : Int) - a := by
    have h1 : 2 ^ num.log2 ≤ num := Nat.log2_self_le hn
    have h2 : den < 2 ^ (den.log2 + 1) := Nat.lt_log2_self
    have h3 : 2 ^ (num.log2 + a) < 2 ^ (53 + b + (den.log2 + 1)) := by
      calc 2 ^ (num.log2 + a) = 2 ^ num.log2 * 2 ^ a := Nat.pow_add ..
        _ ≤ num * 2 ^ a := Nat.mul_le_mul_right _ h1
        _ = m * 2 ^ b * den := h
        _ < 2 ^ 53 * 2 ^ b * 2 ^ (den.log2 + 1) := by
          apply Nat.mul_lt_mul_of_le_of_lt _ h2
          · exact Nat.mul_pos (Nat.two_pow_pos _) (Nat.two_pow_pos _)
          · exact Nat.mul_le_mul_right _ (Nat.le_of_lt hm)
        _ = _ := by simp only [Nat.pow_add]
    have := (Nat.pow_lt_pow_iff_right (a := 2) (by omega)).1 h3
    omega
  have key2 : ¬ (scale num den ((num.log2 : Int) - den.log2 - 53)).1 /
      (scale num den ((num.log2 : Int) - den.log2 - 53)).2 < 9007199254740992 →
      (num.log2 : Int) - den.log2 - 53 + 1 ≤ (b : Int) - a := by
    intro hnl
    have : ¬ ((b : Int) - a ≤ (num.log2 : Int) - den.log2 - 53) := by
      intro hle
      have := scale_small num den m a b _ h hle
      omega
    omega
  unfold roundExp
  simp only
  split <;> split at * <;> first | omega | (have := key2 ‹_›; omega)

/-- Rounding a representable number gives that number. -/
theorem roundRat_exact (neg : Bool) (num den m a b : Nat) (h : num * 2 ^ a = m * 2 ^ b * den) (hd : den ≠ 0)
    (hodd : m % 2 = 1) (hm : m < 9007199254740992) (hk : -1074 ≤ (b : Int) - a)
    (hk' : (b : Int) - a + m.log2 ≤ 1023) :
    roundRat neg num den = .fin neg m ((b : Int) - a) := by
  have hn : num ≠ 0 := by
    intro h0
    rw [h0, Nat.zero_mul] at h
    have : 0 < m * 2 ^ b * den := Nat.mul_pos (Nat.mul_pos (by omega) (Nat.two_pow_pos _)) (by omega)
    omega
  have hle := roundExp_le num den m a b h hn hm hk
  obtain ⟨d, hs, hd'⟩ := scale_exact num den m a b _ h hle
  have hdp : 0 < d := hd' (by omega)
  unfold roundRat
  simp only [hn, if_false, hs]
  rw [Nat.mul_div_cancel _ hdp, Nat.mul_mod_left]
  have hc : ¬ (d < 2 * 0 ∨ (2 * 0 = d ∧ m * 2 ^ ((b : Int) - a - roundExp num den).toNat % 2 = 1)) := by omega
  rw [if_neg hc, mk_pow neg m _ _ hodd]
  have he : roundExp num den + (((b : Int) - a - roundExp num den).toNat : Int) = (b : Int) - a := by omega
  rw [he]
  simp only
  rw [if_neg]
  omega

/-- Every natural number is an odd number times a power of two, or 0. -/
theorem exists_odd (n : Nat) (hn : n ≠ 0) : ∃ m j, n = m * 2 ^ j ∧ m % 2 = 1 := by
  induction n using Nat.strongRecOn with
  | ind n ih =>
    by_cases h : n % 2 = 1
    · exact ⟨n, 0, by simp, h⟩
    · obtain ⟨m, j, hm, ho⟩ := ih (n / 2) (by omega) (by omega)
      refine ⟨m, j + 1, ?_, ho⟩
      rw [Nat.pow_succ, ← Nat.mul_assoc, ← hm]; omega

theorem ofInt_pow (n : Int) (m j : Nat) (h : n.natAbs = m * 2 ^ j) (hodd : m % 2 = 1)
    (hm : m < 9007199254740992) (hj : j ≤ 900) : ofInt n = .fin (decide (n < 0)) m j := by
  have hl : m.log2 < 53 := by
    rw [Nat.log2_lt (by omega)]; exact hm
  have := roundRat_exact (decide (n < 0)) n.natAbs 1 m 0 j (by simp [h]) (by omega) hodd hm (by omega) (by omega)
  simpa [ofInt] using this

theorem ofInt_zero : ofInt 0 = .fin false 0 0 := rfl

/-- Integers of magnitude at most 2^53 survive `int → float64 → int`. -/
theorem toInt_ofInt [Ext] (n : Int) (h : n.natAbs ≤ 9007199254740992) : (ofInt n).toInt = n := by
  by_cases h0 : n = 0
  · subst h0; rfl
  · obtain ⟨m, j, hmj, hodd⟩ := exists_odd n.natAbs (by omega)
    have hj : j ≤ 53 := by
      apply Decidable.byContradiction
      intro hc
      have : 2 ^ 54 ≤ 2 ^ j := Nat.pow_le_pow_right (by omega) (by omega)
      have : 2 ^ j ≤ m * 2 ^ j := Nat.le_mul_of_pos_left _ (by omega)
      omega
    have hm : m < 9007199254740992 := by
      have h1 : m ≤ m * 2 ^ j := Nat.le_mul_of_pos_right _ (Nat.two_pow_pos _)
      omega
    rw [ofInt_pow n m j hmj hodd hm (by omega)]
    have ht : truncAbs m (j : Int) = n.natAbs := by simp [truncAbs, hmj]
    unfold toInt
    simp only [ht]
    by_cases hneg : n < 0
    · have e : -(n.natAbs : Int) = n := by omega
      simp only [hneg, decide_true, if_true, e]
      rw [if_pos]; omega
    · have e : (n.natAbs : Int) = n := by omega
      simp only [hneg, decide_false, e]
      simp; omega

end F64
end Texted
