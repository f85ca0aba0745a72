import Verif.Lemmas.NumberPrint
import Verif.Spec.Shortest
import Mathlib.Algebra.Order.Floor.Ring
/- The digits that are tried for a number, and which of them is taken. -/
namespace Texted
open Spec

theorem decValue_lt {ds : Bytes} (h : ∀ c ∈ ds, IsDig c) : decValue ds < 10 ^ ds.length := by
  induction ds with
  | nil => simp [decValue]
  | cons c ds ih =>
    have h1 := ih fun c hc => h c (by simp [hc])
    have h2 := h c (by simp)
    have e : decValue (c :: ds) = (c.toNat - 48) * 10 ^ ds.length + decValue ds := by
      rw [show c :: ds = [c] ++ ds from rfl, decValue_append]
      simp [decValue]
    rw [e, List.length_cons, pow_succ]
    have h3 : c.toNat - 48 ≤ 9 := by have := h2.2; omega
    nlinarith

theorem natDec_lt (n : Nat) : n < 10 ^ (natDec n).length := by
  have := decValue_lt (natDec_dig n)
  rwa [decValue_natDec] at this

theorem natDec_length {n k : Nat} (h1 : 10 ^ k ≤ n) (h2 : n < 10 ^ (k + 1)) : (natDec n).length = k + 1 := by
  have hp : 0 < 10 ^ k := Nat.pow_pos (by decide)
  have a := natDec_lt n
  have b := natDec_len n (by omega)
  have hk : k < (natDec n).length := (Nat.pow_lt_pow_iff_right (a := 10) (by decide)).1 (by omega)
  have hk2 : (natDec n).length - 1 < k + 1 := (Nat.pow_lt_pow_iff_right (a := 10) (by decide)).1 (by omega)
  omega

theorem ten_ne : (10 : ℚ) ≠ 0 := by norm_num
theorem ten_pos (j : ℤ) : (0 : ℚ) < 10 ^ j := zpow_pos (by norm_num) _

/-- The decimal point: `10^(dp-1) ≤ num/den < 10^dp`. -/
theorem decimalPoint_spec (num den : Nat) (hden : 0 < den) (hsmall : den ≤ num * 10 ^ 400) :
    (10 : ℚ) ^ (decimalPoint num den - 1) ≤ (num : ℚ) / den ∧ (num : ℚ) / den < 10 ^ decimalPoint num den := by
  have hq : (0 : ℚ) < den := by exact_mod_cast hden
  unfold decimalPoint
  by_cases hge : den ≤ num
  · rw [if_pos hge]
    have hdiv : 0 < num / den := Nat.div_pos hge hden
    have hl : 0 < (natDec (num / den)).length := List.length_pos_iff.2 (natDec_ne_nil _)
    have a := natDec_lt (num / den)
    have b := natDec_len (num / den) hdiv
    generalize (natDec (num / den)).length = L at *
    constructor
    · rw [show (L : ℤ) - 1 = ((L - 1 : Nat) : ℤ) by omega, zpow_natCast, le_div_iff₀ hq]
      have : 10 ^ (L - 1) * den ≤ num := le_trans (Nat.mul_le_mul_right _ b) (Nat.div_mul_le_self _ _)
      exact_mod_cast this
    · rw [zpow_natCast, div_lt_iff₀ hq]
      have : num < 10 ^ L * den := (Nat.div_lt_iff_lt_mul hden).1 a
      exact_mod_cast this
  · rw [if_neg hge]
    generalize hz : ((List.range 400).find? fun z => den ≤ num * 10 ^ (z + 1)).getD 400 = z
    have key : den ≤ num * 10 ^ (z + 1) ∧ num * 10 ^ z < den := by
      cases hf : (List.range 400).find? fun z => den ≤ num * 10 ^ (z + 1) with
      | none =>
        exfalso
        have := List.find?_eq_none.1 hf 399 (List.mem_range.2 (by decide))
        exact this (decide_eq_true hsmall)
      | some w =>
        rw [hf] at hz
        simp only [Option.getD_some] at hz
        subst hz
        refine ⟨by simpa using List.find?_some hf, ?_⟩
        rcases w with _ | w
        · simpa using hge
        · have := List.find?_range_eq_some.1 hf
          have := this.2.2 w (by omega)
          simpa using this
    constructor
    · rw [le_div_iff₀ hq, show -(z : ℤ) - 1 = -((z + 1 : Nat) : ℤ) by omega, zpow_neg, zpow_natCast, inv_mul_le_iff₀ (by positivity)]
      have := key.1
      rw [mul_comm] at this
      exact_mod_cast this
    · rw [div_lt_iff₀ hq, zpow_neg, zpow_natCast, lt_inv_mul_iff₀ (by positivity)]
      have := key.2
      rw [mul_comm] at this
      exact_mod_cast this

/-- The digits of the `k + 1`-digit numbers next to `v`. -/
structure Neighbour (v : ℚ) (dp : ℤ) (k q : Nat) (o : Bool) (c : Nat) (d : Bytes × Int) : Prop where
  which : c = q ∨ c = q + 1
  near : o = false → ∀ c', c' = q ∨ c' = q + 1 → |(c : ℚ) * 10 ^ (dp - (k + 1)) - v| ≤ |(c' : ℚ) * 10 ^ (dp - (k + 1)) - v|
  tie : o = false → ∀ c', c' = q ∨ c' = q + 1 → c' ≠ c → |(c : ℚ) * 10 ^ (dp - (k + 1)) - v| = |(c' : ℚ) * 10 ^ (dp - (k + 1)) - v| → c % 2 = 0
  dig : ∀ b ∈ d.1, IsDig b
  head : d.1.head? ≠ some 48
  ne : d.1 ≠ []
  len : d.1.length ≤ k + 1
  val : pointValue d.1 d.2 = c * 10 ^ (dp - (k + 1))
  exp : d.2 = dp ∨ d.2 = dp + 1

/-- The two candidates with `k + 1` digits enclose the number. -/
theorem kDigits_spec (num den k : Nat) (hden : 0 < den) (hsmall : den ≤ num * 10 ^ 400) :
    ∃ q : Nat, 10 ^ k ≤ q ∧ q < 10 ^ (k + 1) ∧
      (q : ℚ) * 10 ^ (decimalPoint num den - (k + 1)) ≤ (num : ℚ) / den ∧
      (num : ℚ) / den < (q + 1 : ℚ) * 10 ^ (decimalPoint num den - (k + 1)) ∧
      ∃ c0 c1 : Nat, c0 ≠ c1 ∧ Neighbour ((num : ℚ) / den) (decimalPoint num den) k q false c0 (kDigits num den (k + 1) false) ∧
        Neighbour ((num : ℚ) / den) (decimalPoint num den) k q true c1 (kDigits num den (k + 1) true) := by
  obtain ⟨hlo, hhi⟩ := decimalPoint_spec num den hden hsmall
  have hdq : (0 : ℚ) < den := by exact_mod_cast hden
  -- the number in units of the last digit
  obtain ⟨s, hs, hs0, hsv⟩ : ∃ s : Nat × Nat, s = (if 0 ≤ ((k + 1 : Nat) : Int) - decimalPoint num den then
      (num * 10 ^ (((k + 1 : Nat) : Int) - decimalPoint num den).toNat, den)
      else (num, den * 10 ^ (decimalPoint num den - (k + 1 : Nat)).toNat)) ∧ 0 < s.2 ∧
      (s.1 : ℚ) / s.2 = (num : ℚ) / den * 10 ^ ((k + 1 : ℤ) - decimalPoint num den) := by
    refine ⟨_, rfl, ?_, ?_⟩
    · split
      · exact hden
      · exact Nat.mul_pos hden (Nat.pow_pos (by decide))
    · generalize decimalPoint num den = dp
      by_cases h : 0 ≤ ((k + 1 : Nat) : Int) - dp
      · rw [if_pos h]
        have e : (k + 1 : ℤ) - dp = (((k + 1 : Nat) : Int) - dp).toNat := by push_cast; omega
        rw [e, zpow_natCast]
        push_cast
        field_simp
      · rw [if_neg h]
        have e : (k + 1 : ℤ) - dp = -((dp - (k + 1 : Nat)).toNat : ℤ) := by push_cast; omega
        rw [e, zpow_neg, zpow_natCast]
        push_cast
        field_simp
  obtain ⟨S, T⟩ := s
  simp only at hs0 hsv
  generalize hdp : decimalPoint num den = dp at *
  generalize hv : (num : ℚ) / den = v at *
  have hTq : (0 : ℚ) < T := by exact_mod_cast hs0
  have hu := ten_pos (dp - (k + 1))
  have hinv : (10 : ℚ) ^ ((k + 1 : ℤ) - dp) * 10 ^ (dp - (k + 1)) = 1 := by
    rw [← zpow_add₀ ten_ne, show (k + 1 : ℤ) - dp + (dp - (k + 1)) = 0 by omega, zpow_zero]
  have hvS : v = (S : ℚ) / T * 10 ^ (dp - (k + 1)) := by rw [hsv, mul_assoc, hinv, mul_one]
  -- division
  have hdm : (S : ℚ) = T * (S / T : Nat) + (S % T : Nat) := by exact_mod_cast (Nat.div_add_mod S T).symm
  have hST : (S : ℚ) / T = (S / T : Nat) + (S % T : Nat) / (T : ℚ) := by rw [hdm]; field_simp
  have hr0 : (0 : ℚ) ≤ (S % T : Nat) / (T : ℚ) := by positivity
  have hr1 : (S % T : Nat) / (T : ℚ) < 1 := by rw [div_lt_one hTq]; exact_mod_cast Nat.mod_lt _ hs0
  have hb1 : (10 : ℚ) ^ k ≤ (S : ℚ) / T := by
    rw [hsv]
    have := mul_le_mul_of_nonneg_right hlo (ten_pos ((k + 1 : ℤ) - dp)).le
    rw [← zpow_add₀ ten_ne, show dp - 1 + ((k + 1 : ℤ) - dp) = (k : ℤ) by omega, zpow_natCast] at this
    exact this
  have hb2 : (S : ℚ) / T < 10 ^ (k + 1) := by
    rw [hsv]
    have := mul_lt_mul_of_pos_right hhi (ten_pos ((k + 1 : ℤ) - dp))
    rw [← zpow_add₀ ten_ne, show dp + ((k + 1 : ℤ) - dp) = ((k + 1 : Nat) : ℤ) by push_cast; omega, zpow_natCast] at this
    exact this
  have hq1 : 10 ^ k ≤ S / T := by
    rw [Nat.le_div_iff_mul_le hs0]
    rw [le_div_iff₀ hTq] at hb1
    exact_mod_cast hb1
  have hq2 : S / T < 10 ^ (k + 1) := by
    rw [Nat.div_lt_iff_lt_mul hs0]
    rw [div_lt_iff₀ hTq] at hb2
    exact_mod_cast hb2
  refine ⟨S / T, hq1, hq2, ?_, ?_, ?_⟩
  · rw [hvS]; exact mul_le_mul_of_nonneg_right (by rw [hST]; linarith) hu.le
  · rw [hvS]; exact mul_lt_mul_of_pos_right (by rw [hST]; linarith) hu
  -- the candidates
  have hk : ∀ o, kDigits num den (k + 1) o =
      if (if decide (T < 2 * (S % T) ∨ (2 * (S % T) = T ∧ S / T % 2 = 1)) != o then S / T + 1 else S / T) = 10 ^ (k + 1) then (b! "1", dp + 1)
      else (natDec (if decide (T < 2 * (S % T) ∨ (2 * (S % T) = T ∧ S / T % 2 = 1)) != o then S / T + 1 else S / T), dp) := by
    intro o
    unfold kDigits
    simp only [hdp]
    rw [← hs]
  have hd : ∀ c, 10 ^ k ≤ c → c ≤ 10 ^ (k + 1) → ∀ d : Bytes × Int, d = (if c = 10 ^ (k + 1) then (b! "1", dp + 1) else (natDec c, dp)) →
      (∀ b ∈ d.1, IsDig b) ∧ d.1.head? ≠ some 48 ∧ d.1 ≠ [] ∧ d.1.length ≤ k + 1 ∧ pointValue d.1 d.2 = c * 10 ^ (dp - (k + 1)) ∧
        (d.2 = dp ∨ d.2 = dp + 1) := by
    rintro c h1 h2 d rfl
    by_cases hc : c = 10 ^ (k + 1)
    · rw [if_pos hc]
      refine ⟨?_, (by decide : (b! "1").head? ≠ some 48), (by decide : b! "1" ≠ []), by simp, ?_, .inr rfl⟩
      · intro b hb; rw [List.mem_singleton.1 hb]; exact ⟨by decide, by decide⟩
      · rw [hc]
        simp only [pointValue]
        push_cast
        rw [← zpow_natCast, ← zpow_add₀ ten_ne, show ((k + 1 : Nat) : ℤ) + (dp - (k + 1)) = dp by push_cast; omega]
        simp [decValue]
    · rw [if_neg hc]
      have hl := natDec_length h1 (by omega)
      have hp : 0 < 10 ^ k := Nat.pow_pos (by decide)
      obtain ⟨a, r, ha, ha2⟩ := natDec_head c (by omega)
      refine ⟨natDec_dig _, by rw [ha]; simpa using ha2, natDec_ne_nil _, hl.le, ?_, .inl rfl⟩
      simp only [pointValue, decValue_natDec, hl]
      push_cast; rfl
  -- distances
  have dist0 : |((S / T : Nat) : ℚ) * 10 ^ (dp - (k + 1)) - v| = (S % T : Nat) / (T : ℚ) * 10 ^ (dp - (k + 1)) := by
    rw [hvS, hST, abs_of_nonpos] <;> nlinarith
  have dist1 : |((S / T + 1 : Nat) : ℚ) * 10 ^ (dp - (k + 1)) - v| = (1 - (S % T : Nat) / (T : ℚ)) * 10 ^ (dp - (k + 1)) := by
    rw [hvS, hST, abs_of_nonneg] <;> push_cast <;> nlinarith
  have half : ((S % T : Nat) : ℚ) / (T : ℚ) ≤ 1 - (S % T : Nat) / (T : ℚ) ↔ 2 * (S % T) ≤ T := by
    rw [show ((S % T : Nat) : ℚ) / (T : ℚ) ≤ 1 - (S % T : Nat) / (T : ℚ) ↔ (2 * (S % T : Nat) : ℚ) / T ≤ 1 by
      constructor <;> intro h <;> (rw [mul_div_assoc] at *; linarith), div_le_one hTq]
    exact_mod_cast Iff.rfl
  have half' : 1 - (S % T : Nat) / (T : ℚ) ≤ ((S % T : Nat) : ℚ) / (T : ℚ) ↔ T ≤ 2 * (S % T) := by
    rw [show 1 - (S % T : Nat) / (T : ℚ) ≤ ((S % T : Nat) : ℚ) / (T : ℚ) ↔ 1 ≤ (2 * (S % T : Nat) : ℚ) / T by
      constructor <;> intro h <;> (rw [mul_div_assoc] at *; linarith), one_le_div hTq]
    exact_mod_cast Iff.rfl
  generalize hq : S / T = q at *
  generalize hr : S % T = r at *
  by_cases hup : T < 2 * r ∨ (2 * r = T ∧ q % 2 = 1)
  · refine ⟨q + 1, q, by omega, ?_, ?_⟩
    · obtain ⟨d1, d2, d3, d4, d5, d6⟩ := hd (q + 1) (by omega) (by omega) (kDigits num den (k + 1) false) (by
        rw [hk false, decide_eq_true hup]; rfl)
      refine ⟨.inr rfl, ?_, ?_, d1, d2, d3, d4, d5, d6⟩
      · rintro _ c' (rfl | rfl)
        · rw [dist0, dist1]
          exact mul_le_mul_of_nonneg_right (half'.2 (by omega)) hu.le
        · exact le_refl _
      · rintro _ c' (rfl | rfl) hne he
        · rw [dist0, dist1] at he
          have := half.1 (mul_right_cancel₀ hu.ne' he).ge
          omega
        · exact absurd rfl hne
    · obtain ⟨d1, d2, d3, d4, d5, d6⟩ := hd q (by omega) (by omega) (kDigits num den (k + 1) true) (by
        rw [hk true, decide_eq_true hup]; rfl)
      exact ⟨.inl rfl, (fun h => nomatch h), (fun h => nomatch h), d1, d2, d3, d4, d5, d6⟩
  · refine ⟨q, q + 1, by omega, ?_, ?_⟩
    · obtain ⟨d1, d2, d3, d4, d5, d6⟩ := hd q (by omega) (by omega) (kDigits num den (k + 1) false) (by
        rw [hk false, decide_eq_false hup]; rfl)
      refine ⟨.inl rfl, ?_, ?_, d1, d2, d3, d4, d5, d6⟩
      · rintro _ c' (rfl | rfl)
        · exact le_refl _
        · rw [dist0, dist1]
          exact mul_le_mul_of_nonneg_right (half.2 (by omega)) hu.le
      · rintro _ c' (rfl | rfl) hne he
        · exact absurd rfl hne
        · rw [dist0, dist1] at he
          have := half'.1 (mul_right_cancel₀ hu.ne' he).ge
          omega
    · obtain ⟨d1, d2, d3, d4, d5, d6⟩ := hd (q + 1) (by omega) (by omega) (kDigits num den (k + 1) true) (by
        rw [hk true, decide_eq_false hup]; rfl)
      exact ⟨.inr rfl, (fun h => nomatch h), (fun h => nomatch h), d1, d2, d3, d4, d5, d6⟩

end Texted
