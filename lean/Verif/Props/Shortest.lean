import Verif.Lemmas.ShortestText
import Verif.Lemmas.Number
import Verif.Lemmas.Call
/-
C75: how numbers are printed. A whole number that fits in an int is printed with all its digits; every other number is printed with the
fewest digits that are read back as this number.
-/
namespace Texted
open Spec F64

/-! ### Layout -/

theorem decValue_ge {ds : Bytes} (hd : ∀ c ∈ ds, IsDig c) (hne : ds ≠ []) (hh : ds.head? ≠ some 48) : 10 ^ (ds.length - 1) ≤ decValue ds := by
  rcases ds with _ | ⟨c, r⟩
  · exact absurd rfl hne
  · have h1 := hd c (by simp)
    have h2 : c ≠ 48 := by simpa using hh
    have h3 : 49 ≤ c.toNat := by
      have h4 : c.toNat ≠ 48 := fun h => h2 (UInt8.toNat_inj.1 h)
      have := h1.1
      omega
    have e : decValue (c :: r) = (c.toNat - 48) * 10 ^ r.length + decValue r := by
      rw [show c :: r = [c] ++ r from rfl, decValue_append]
      simp [decValue]
    rw [e, List.length_cons, Nat.add_sub_cancel]
    have : 1 * 10 ^ r.length ≤ (c.toNat - 48) * 10 ^ r.length := Nat.mul_le_mul_right _ (by omega)
    omega

theorem pointValue_bounds {ds : Bytes} (hd : ∀ c ∈ ds, IsDig c) (hne : ds ≠ []) (hh : ds.head? ≠ some 48) (dp : Int) :
    (10 : ℚ) ^ (dp - 1) ≤ pointValue ds dp ∧ pointValue ds dp < 10 ^ dp := by
  have h1 := decValue_ge hd hne hh
  have h2 := decValue_lt hd
  have hl : 0 < ds.length := List.length_pos_iff.2 hne
  have u := ten_pos (dp - ds.length)
  unfold pointValue
  constructor
  · have e : (10 : ℚ) ^ (dp - 1) = ((10 ^ (ds.length - 1) : Nat) : ℚ) * 10 ^ (dp - ds.length) := by
      push_cast
      rw [← zpow_natCast, ← zpow_add₀ ten_ne]
      congr 1
      omega
    rw [e]
    exact mul_le_mul_of_nonneg_right (by exact_mod_cast h1) u.le
  · have e : (10 : ℚ) ^ dp = ((10 ^ ds.length : Nat) : ℚ) * 10 ^ (dp - ds.length) := by
      push_cast
      rw [← zpow_natCast, ← zpow_add₀ ten_ne]
      congr 1
      omega
    rw [e]
    exact mul_lt_mul_of_pos_right (by exact_mod_cast h2) u

theorem numeralOf {ds : Bytes} (hd : ∀ c ∈ ds, IsDig c) (hne : ds ≠ []) (hh : ds.head? ≠ some 48) : NumeralOf (decValue ds) ds :=
  ⟨fun c hc => (isDigit_ten c).2 (hd c hc), runValue_dig hd, hne, hh⟩

theorem fmtF_plain {ds : Bytes} (hne : ds ≠ []) (dp : Int) : PlainForm ds (dp - ds.length) (fmtF ds dp) := by
  have hlen : 0 < ds.length := List.length_pos_iff.2 hne
  by_cases h0 : 0 < dp
  · by_cases h1 : dp < ds.length
    · have e : fmtF ds dp = ds.take dp.toNat ++ ch '.' :: ds.drop dp.toNat := by
        unfold fmtF
        rw [if_pos h0, if_pos h1, show dp.toNat - ds.length = 0 by omega, show (-dp).toNat = 0 by omega]
        simp [zeros, ch]
      have := PlainForm.point (ds.take dp.toNat) (ds.drop dp.toNat)
        (by intro h; have := congrArg List.length h; rw [List.length_take, List.length_nil] at this; omega)
        (by intro h; have := congrArg List.length h; rw [List.length_drop, List.length_nil] at this; omega)
      rw [List.take_append_drop, List.length_drop] at this
      rw [e, show dp - (ds.length : Int) = -((ds.length - dp.toNat : Nat) : Int) by omega]
      exact this
    · have e : fmtF ds dp = ds ++ zeros (dp.toNat - ds.length) := by
        unfold fmtF
        rw [if_pos h0, if_neg h1, List.take_of_length_le (by omega)]
        simp
      rw [e, show dp - (ds.length : Int) = ((dp.toNat - ds.length : Nat) : Int) by omega]
      exact PlainForm.whole ds _
  · have e : fmtF ds dp = b! "0" ++ 46 :: (zeros (-dp).toNat ++ ds) := by
      unfold fmtF
      rw [if_neg h0, if_pos (by omega), show dp.toNat = 0 by omega]
      simp
    rw [e, show dp - (ds.length : Int) = -(((-dp).toNat + ds.length : Nat) : Int) by omega]
    exact PlainForm.fraction ds _

/-- An exponent of at least `w` digits. -/
theorem exponent_form {w : Nat} {ds : Bytes} (hne : ds ≠ []) (dp : Int) (pad : Nat) (hpad : pad ≠ 0 → pad + (natDec (dp - 1).natAbs).length ≤ w)
    (hw : w ≤ pad + (natDec (dp - 1).natAbs).length) (h1 : (dp - 1).natAbs = 0 → pad + 1 ≤ w) :
    ExponentForm w ds (dp - ds.length) (ds.take 1 ++ (if ds.length ≤ 1 then [] else b! "." ++ ds.drop 1) ++ b! "e" ++
      (if dp - 1 < 0 then b! "-" else b! "+") ++ (zeros pad ++ natDec (dp - 1).natAbs)) := by
  rcases ds with _ | ⟨a, b⟩
  · exact absurd rfl hne
  have hd : ∀ c ∈ zeros pad ++ natDec (dp - 1).natAbs, IsDig c := fun c hc => (List.mem_append.1 hc).elim (zeros_dig _ c) (natDec_dig _ c)
  have := ExponentForm.mk (w := w) a b (dp - 1) (zeros pad ++ natDec (dp - 1).natAbs) (fun c hc => (isDigit_ten c).2 (hd c hc))
    (by rw [runValue_dig hd, decValue_append, decValue_zeros, decValue_natDec]; omega) (by simp [natDec_ne_nil])
    (by
      intro hh
      rw [List.length_append, zeros, List.length_replicate]
      by_cases hp : pad = 0
      · subst hp
        by_cases hz : (dp - 1).natAbs = 0
        · rw [hz]; have := h1 hz; simpa [natDec, natDigits] using this
        · obtain ⟨c, r, e1, e2⟩ := natDec_head (dp - 1).natAbs (by omega)
          simp only [zeros, List.replicate_zero, List.nil_append, e1, List.head?_cons, Option.some.injEq] at hh
          exact absurd hh e2
      · exact hpad hp)
    (by rw [List.length_append, zeros, List.length_replicate]; exact hw)
  have e : dp - ((a :: b).length : Int) = dp - 1 - (b.length : Int) := by simp; omega
  rw [e]
  have e2 : (a :: b).take 1 ++ (if (a :: b).length ≤ 1 then [] else b! "." ++ (a :: b).drop 1) ++ b! "e" ++
      (if dp - 1 < 0 then b! "-" else b! "+") ++ (zeros pad ++ natDec (dp - 1).natAbs) =
      a :: ((if b = [] then [] else ch '.' :: b) ++ ch 'e' :: (if dp - 1 < 0 then ch '-' else ch '+') :: (zeros pad ++ natDec (dp - 1).natAbs)) := by
    cases b with
    | nil => by_cases h : dp - 1 < 0 <;> simp [h, ch]
    | cons b bs => by_cases h : dp - 1 < 0 <;> simp [h, ch]
  rw [e2]
  exact this

theorem natDec_one_digit {n : Nat} (h : n < 10) : (natDec n).length = 1 := by
  rw [natDec, natDigits, if_pos h]; rfl

theorem natDec_two_digits {n : Nat} (h : 10 ≤ n) : 2 ≤ (natDec n).length := by
  have := natDec_lt n
  by_contra hc
  have h1 : (natDec n).length ≤ 1 := by omega
  have : 10 ^ (natDec n).length ≤ 10 ^ 1 := Nat.pow_le_pow_right (by decide) h1
  omega

theorem fmtE_exponent {ds : Bytes} (hne : ds ≠ []) (dp : Int) : ExponentForm 2 ds (dp - ds.length) (fmtE ds (dp - 1)) := by
  by_cases h : (dp - 1).natAbs < 10
  · have := exponent_form (w := 2) hne dp 1 (by rw [natDec_one_digit h]; simp) (by rw [natDec_one_digit h]) (by simp)
    have e : fmtE ds (dp - 1) = ds.take 1 ++ (if ds.length ≤ 1 then [] else b! "." ++ ds.drop 1) ++ b! "e" ++
      (if dp - 1 < 0 then b! "-" else b! "+") ++ (zeros 1 ++ natDec (dp - 1).natAbs) := by
      unfold fmtE; rw [if_pos h]; simp [zeros]
    rw [e]; exact this
  · have := exponent_form (w := 2) hne dp 0 (by simp) (by have := natDec_two_digits (not_lt.1 h); omega) (by omega)
    have e : fmtE ds (dp - 1) = ds.take 1 ++ (if ds.length ≤ 1 then [] else b! "." ++ ds.drop 1) ++ b! "e" ++
      (if dp - 1 < 0 then b! "-" else b! "+") ++ (zeros 0 ++ natDec (dp - 1).natAbs) := by
      unfold fmtE; rw [if_neg h]; simp [zeros]
    rw [e]; exact this

theorem jsonE_exponent {ds : Bytes} (hne : ds ≠ []) (dp : Int) : ExponentForm 1 ds (dp - ds.length) (jsonE ds (dp - 1)) := by
  have hl : 1 ≤ (natDec (dp - 1).natAbs).length := List.length_pos_iff.2 (natDec_ne_nil _)
  have := exponent_form (w := 1) hne dp 0 (by simp) (by omega) (by omega)
  have e : jsonE ds (dp - 1) = ds.take 1 ++ (if ds.length ≤ 1 then [] else b! "." ++ ds.drop 1) ++ b! "e" ++
      (if dp - 1 < 0 then b! "-" else b! "+") ++ (zeros 0 ++ natDec (dp - 1).natAbs) := by
    unfold jsonE; simp [zeros]
  rw [e]; exact this

/-! ### The property -/

theorem shortest_fmtG {x : F64} (hc : x.Canon) (hfin : Finite x) (h0 : value x ≠ 0) :
    ∃ n j ds t, Shortest x n j ∧ n < 10 ^ 17 ∧ NumeralOf n ds ∧ fmtG x = minusText x ++ t ∧
      if (10 : ℚ) ^ (-4 : ℤ) ≤ n * 10 ^ j ∧ (n : ℚ) * 10 ^ j < 10 ^ 6 then PlainForm ds j t else ExponentForm 2 ds j t := by
  cases x with
  | nan => exact hfin.elim
  | inf _ => exact hfin.elim
  | fin neg m e =>
    have hm : m ≠ 0 := by rintro rfl; apply h0; simp [value]
    obtain ⟨hden, hsmall, hv⟩ := fraction_of hc hm
    obtain ⟨ds, dp, h1, h2, h3, h4, h5, h6⟩ := shortest_found hc hfin (fun h => h0 (abs_eq_zero.1 h)) hden hsmall hv (fmtDigits neg)
      (fun ds dp hd hne hlo hhi => by
        obtain ⟨hu, n, k, hden, hval⟩ := denotes_fmtDigits neg hd hne dp (by omega)
        rw [parse_denotes hden hu, hval]
        constructor
        · rintro ⟨a, _, b⟩; exact ⟨a, b⟩
        · rintro ⟨a, b⟩; exact ⟨a, rfl, b⟩) (exactText neg m e)
    have hg : fmtG (.fin neg m e) = fmtDigits neg ds dp := by
      rw [← h1]
      unfold fmtG
      simp only [hm, if_false]
    obtain ⟨b1, b2⟩ := pointValue_bounds h2 h3 h4 dp
    have hlt : decValue ds < 10 ^ 17 := lt_of_lt_of_le (decValue_lt h2) (Nat.pow_le_pow_right (by decide) h5)
    have hform : (dp - 1 < -4 ∨ 6 ≤ dp - 1) ↔ ¬ ((10 : ℚ) ^ (-4 : ℤ) ≤ pointValue ds dp ∧ pointValue ds dp < 10 ^ 6) := by
      have t : (1 : ℚ) < 10 := by norm_num
      have h66 : (10 : ℚ) ^ 6 = 10 ^ (6 : ℤ) := by norm_num
      rw [h66]
      constructor
      · rintro (h | h) ⟨a, b⟩
        · have : (10 : ℚ) ^ dp ≤ 10 ^ (-4 : ℤ) := (zpow_le_zpow_iff_right₀ t).2 (by omega)
          linarith
        · have : (10 : ℚ) ^ (6 : ℤ) ≤ 10 ^ (dp - 1) := (zpow_le_zpow_iff_right₀ t).2 h
          linarith
      · intro h
        by_contra hcon
        apply h
        refine ⟨le_trans ((zpow_le_zpow_iff_right₀ t).2 (by omega)) b1, lt_of_lt_of_le b2 ((zpow_le_zpow_iff_right₀ t).2 (by omega))⟩
    refine ⟨decValue ds, dp - ds.length, ds, if dp - 1 < -4 ∨ 6 ≤ dp - 1 then fmtE ds (dp - 1) else fmtF ds dp, h6, hlt, numeralOf h2 h3 h4, ?_, ?_⟩
    · rw [hg]; rfl
    · unfold pointValue at hform
      by_cases h : dp - 1 < -4 ∨ 6 ≤ dp - 1
      · rw [if_pos h, if_neg (hform.1 h)]; exact fmtE_exponent h3 dp
      · rw [if_neg h, if_pos (by by_contra hcon; exact h (hform.2 hcon))]; exact fmtF_plain h3 dp

/-- A whole number in the range of an int is the nearest float64 to itself, so converting it to an int and back changes nothing. -/
theorem whole_goEq [Ext] {x : F64} (hc : x.Canon) (hfin : Finite x) {z : ℤ} (hz : value x = z) (hr : minInt ≤ z ∧ z ≤ maxInt) :
    goEq x (ofInt x.toInt) = true ∧ fmtF0 x = minusText x ++ natDec z.natAbs := by
  cases x with
  | nan => exact hfin.elim
  | inf _ => exact hfin.elim
  | fin neg m e =>
    have t : (2 : ℚ) ≠ 0 := by norm_num
    have hmag : (m : ℚ) * 2 ^ e = z.natAbs := by
      have h := magnitude_fin neg m e
      rw [magnitude, hz] at h
      rw [← h, Nat.cast_natAbs, Int.cast_abs]
    have he : 0 ≤ e := by
      rcases hc with ⟨_, h⟩ | ⟨h1, _⟩
      · omega
      · by_contra hneg
        obtain ⟨i, rfl⟩ : ∃ i : Nat, e = -((i + 1 : Nat) : Int) := ⟨(-e - 1).toNat, by omega⟩
        rw [zpow_neg, zpow_natCast] at hmag
        have h2 : (m : ℚ) = (z.natAbs * 2 ^ (i + 1) : Nat) := by
          push_cast
          rw [← hmag]; field_simp
        have h3 : m = z.natAbs * 2 ^ (i + 1) := by exact_mod_cast h2
        rw [pow_succ, ← mul_assoc] at h3
        omega
    have hmN : m * 2 ^ e.toNat = z.natAbs := by
      obtain ⟨k, rfl⟩ := Int.eq_ofNat_of_zero_le he
      rw [Int.toNat_natCast]
      have : ((m * 2 ^ k : Nat) : ℚ) = z.natAbs := by rw [← hmag]; push_cast; simp
      exact_mod_cast this
    have hF : fmtF0 (.fin neg m e) = minusText (.fin neg m e) ++ natDec z.natAbs := by
      unfold fmtF0
      simp only [he, if_true, hmN]
      cases neg <;> rfl
    refine ⟨?_, hF⟩
    have hsign : (if neg then -(z.natAbs : Int) else z.natAbs) = z := by
      have h : value (.fin neg m e) = (if neg then -1 else 1) * ((m : ℚ) * 2 ^ e) := by rw [value_sgn]; rfl
      rw [hz, hmag] at h
      generalize z.natAbs = N at h
      cases neg
      · simp only [Bool.false_eq_true, if_false, one_mul] at h ⊢; exact_mod_cast h.symm
      · simp only [if_true] at h ⊢
        have h' : (z : ℚ) = ((-(N : Int) : Int) : ℚ) := by rw [h]; push_cast; ring
        exact_mod_cast h'.symm
    have hti : F64.toInt (.fin neg m e) = z := by
      unfold F64.toInt
      simp only [truncAbs, he, if_true, hmN, hsign]
      rw [if_pos hr]
    rw [hti]
    by_cases hm : m = 0
    · subst hm
      have : z = 0 := by simp at hmN; omega
      subst this
      simp [goEq, ofInt_zero]
    · have hz0 : z ≠ 0 := by
        rintro rfl
        have := Nat.two_pow_pos e.toNat
        simp at hmN
        omega
      have hneg : decide (z < 0) = neg := by
        cases neg
        · rw [if_neg (by decide)] at hsign; simp only [decide_eq_false_iff_not]; omega
        · rw [if_pos rfl] at hsign; simp only [decide_eq_true_eq]; omega
      have hN : Nearest (value (.fin neg m e)) (.fin neg m e) := by
        refine ⟨hfin, hc, ?_, ?_⟩
        · intro y _ _; rw [sub_self, abs_zero]; exact abs_nonneg _
        · intro n m' e' _ hne he
          rw [sub_self, abs_zero] at he
          exact absurd (sub_eq_zero.1 (abs_eq_zero.1 he.symm)) hne
      have := ((roundRat_iff neg z.natAbs 1 (by decide) (.fin neg m e)).2 ⟨by
          have := magnitude_lt hc
          rw [magnitude_fin, hmag] at this
          simpa using this, rfl, by
          have h : value (.fin neg m e) = (if neg then -1 else 1) * ((z.natAbs : ℚ) / (1 : Nat)) := by
            rw [value_sgn, hmag]; rw [Nat.cast_one, div_one]; rfl
          rw [← h]; exact hN⟩).1
      rw [ofInt, hneg, this]
      simp [goEq]

/-- Numbers that are not whole, or outside the range of an int, do not survive the conversion. -/
theorem not_goEq [Ext] {x : F64} (hc : x.Canon) (h : (∀ z : ℤ, value x ≠ z) ∨ (2 : ℚ) ^ 63 < magnitude x) : goEq x (ofInt x.toInt) = false := by
  rw [← Bool.not_eq_true]
  intro hg
  cases x with
  | nan => simp [goEq] at hg
  | inf b =>
    rcases h with h | h
    · exact h 0 (by simp [value])
    · simp [magnitude, value] at h
      norm_num at h
  | fin neg m e =>
    rcases h with h | h
    · have he := numString_fin neg m e hg hc
      obtain ⟨k, rfl⟩ := Int.eq_ofNat_of_zero_le he
      obtain ⟨w, hw, _⟩ := value_int neg m k
      exact h (w * 2 ^ k) (by rw [hw]; push_cast; simp)
    · have hti : minInt ≤ F64.toInt (.fin neg m e) ∧ F64.toInt (.fin neg m e) ≤ maxInt := by
        unfold F64.toInt
        dsimp only
        generalize (if neg = true then -(truncAbs m e : Int) else truncAbs m e) = v
        by_cases hv : minInt ≤ v ∧ v ≤ maxInt
        · rw [if_pos hv]; exact hv
        · rw [if_neg hv]; exact wrap64_range _
      generalize F64.toInt (.fin neg m e) = z at *
      have hm : m ≠ 0 := by
        rintro rfl
        rw [magnitude_fin] at h
        simp at h
        norm_num at h
      cases hr : ofInt z with
      | nan => rw [hr] at hg; simp [goEq] at hg
      | inf b => rw [hr] at hg; simp [goEq] at hg
      | fin a b c =>
        have hx : F64.fin neg m e = .fin a b c := by
          rw [hr] at hg
          simp [goEq, hm] at hg
          rw [hg.1.1, hg.1.2, hg.2]
        obtain ⟨h1, h2, h3⟩ := (roundRat_iff (decide (z < 0)) z.natAbs 1 (by decide) (.fin a b c)).1 ⟨hr, trivial⟩
        rw [← hx] at h3
        have h4 := h3.nearest (.fin (decide (z < 0)) 1 63) trivial (.inr ⟨by decide, by decide, by decide, by decide⟩)
        have h5 : signBit (.fin neg m e) = decide (z < 0) := by rw [hx]; exact h2
        have h6 : neg = decide (z < 0) := h5
        rw [← h6] at h4
        have e1 : value (.fin neg m e) = sgn (.fin neg m e) * ((m : ℚ) * 2 ^ e) := value_sgn neg m e
        have e2 : value (.fin neg 1 63) = sgn (.fin neg m e) * 2 ^ 63 := by rw [value_sgn, Nat.cast_one, one_mul]; rfl
        have e3 : (if neg = true then (-1 : ℚ) else 1) * ((z.natAbs : ℚ) / (1 : Nat)) = sgn (.fin neg m e) * z.natAbs := by rw [Nat.cast_one, div_one]; rfl
        rw [e1, e2, e3, abs_sgn, abs_sgn, ← magnitude_fin neg m e] at h4
        have hz : (z.natAbs : ℚ) ≤ 2 ^ 63 := by
          have : z.natAbs ≤ 9223372036854775808 := by have := hti.1; have := hti.2; omega
          have := (Nat.cast_le (α := ℚ)).2 this
          norm_num at this ⊢
          exact this
        rw [abs_of_nonneg (by linarith), abs_of_nonneg (by linarith)] at h4
        linarith

/-- A whole number that fits in an int is printed with all its digits. -/
theorem C75_whole [Ext] {x : F64} (hc : x.Canon) (hfin : Finite x) {z : ℤ} (hz : value x = z) (hlo : -2 ^ 63 ≤ z) (hhi : z < 2 ^ 63) (h0 : z ≠ 0) :
    ∃ ds, NumeralOf z.natAbs ds ∧ (Value.num x).toStr = minusText x ++ ds := by
  obtain ⟨h1, h2⟩ := whole_goEq hc hfin hz ⟨by omega, by omega⟩
  refine ⟨natDec z.natAbs, ?_, ?_⟩
  · have := numeralOf (natDec_dig z.natAbs) (natDec_ne_nil _) (by
      obtain ⟨c, r, e1, e2⟩ := natDec_head z.natAbs (by omega)
      rw [e1]; simpa using e2)
    rwa [decValue_natDec] at this
  · show numString x = _
    rw [numString, h1, if_pos rfl, h2]

/-- Zeros, infinities and NaN. -/
theorem C75_special [Ext] : (Value.num (.fin false 0 0)).toStr = b! "0" ∧ (Value.num (.fin true 0 0)).toStr = b! "-0" ∧
    (Value.num (.inf false)).toStr = b! "+Inf" ∧ (Value.num (.inf true)).toStr = b! "-Inf" ∧ (Value.num .nan).toStr = b! "NaN" := by
  have special : ∀ x t, fmtG x = t → fmtF0 x = t → (Value.num x).toStr = t := by
    intro x t h1 h2
    show numString x = t
    rw [numString]
    split
    · exact h2
    · exact h1
  exact ⟨special _ _ rfl rfl, special _ _ rfl rfl, special _ _ rfl rfl, special _ _ rfl rfl, special _ _ rfl rfl⟩

/-- Every other number is printed as the shortest decimal number that is read as this number: without exponent if the decimal number is at
least 0.0001 and less than 1000000, and with an exponent of at least two digits otherwise. -/
theorem C75_shortest [Ext] {x : F64} (hc : x.Canon) (hfin : Finite x) (h : (∀ z : ℤ, value x ≠ z) ∨ (2 : ℚ) ^ 63 < magnitude x) :
    ∃ n j ds t, Shortest x n j ∧ n < 10 ^ 17 ∧ NumeralOf n ds ∧ (Value.num x).toStr = minusText x ++ t ∧
      if (10 : ℚ) ^ (-4 : ℤ) ≤ n * 10 ^ j ∧ (n : ℚ) * 10 ^ j < 10 ^ 6 then PlainForm ds j t else ExponentForm 2 ds j t := by
  have h0 : value x ≠ 0 := by
    rcases h with h | h
    · exact_mod_cast h 0
    · intro hz
      rw [magnitude, hz, abs_zero] at h
      norm_num at h
  obtain ⟨n, j, ds, t, h1, h2, h3, h4, h5⟩ := shortest_fmtG hc hfin h0
  refine ⟨n, j, ds, t, h1, h2, h3, ?_, h5⟩
  show numString x = _
  rw [numString, not_goEq hc h, if_neg (by decide), h4]

/-- In JSON every number but zero is printed as the shortest decimal number that is read as this number: with an exponent if it is below the
float64 for one millionth or at least `10^21`, and without exponent otherwise. -/
theorem C75_json {x : F64} (hc : x.Canon) (hfin : Finite x) (h0 : value x ≠ 0) {millionth : F64} (hm : Nearest (1 / 10 ^ 6) millionth) :
    ∃ n j ds t, Shortest x n j ∧ n < 10 ^ 17 ∧ NumeralOf n ds ∧ jsonPrint (.num x) = some (minusText x ++ t) ∧
      if magnitude x < value millionth ∨ 10 ^ 21 ≤ magnitude x then ExponentForm 1 ds j t else PlainForm ds j t := by
  cases x with
  | nan => exact hfin.elim
  | inf _ => exact hfin.elim
  | fin neg m e =>
    have hm0 : m ≠ 0 := by rintro rfl; apply h0; simp [value]
    obtain ⟨hden, hsmall, hv⟩ := fraction_of hc hm0
    generalize hN : (if 0 ≤ e then m * 2 ^ e.toNat else m) = num at hsmall hv
    generalize hD : (if 0 ≤ e then 1 else 2 ^ (-e).toNat) = den at hden hsmall hv
    have hmil : value millionth = 4722366482869645 * 2 ^ (-72 : ℤ) := by
      have h1 := (roundRat_iff false 1 1000000 (by decide) (.fin false 4722366482869645 (-72))).1 ⟨by decide +kernel, trivial⟩
      have h2 : Nearest (1 / 10 ^ 6) (.fin false 4722366482869645 (-72)) := by
        have := h1.2.2
        norm_num at this ⊢
        exact this
      rw [nearest_value hm h2, value]
      norm_num
    have hsci : jsonSci num den = true ↔ magnitude (.fin neg m e) < value millionth ∨ 10 ^ 21 ≤ magnitude (.fin neg m e) := by
      have hq : (0 : ℚ) < den := by exact_mod_cast hden
      rw [jsonSci, Bool.or_eq_true, decide_eq_true_iff, decide_eq_true_iff, ← hv, hmil, div_lt_iff₀ hq, le_div_iff₀ hq, zpow_neg,
        show (72 : ℤ) = ((72 : Nat) : ℤ) from rfl, zpow_natCast]
      have a : (num : ℚ) < 4722366482869645 * (2 ^ 72)⁻¹ * den ↔ (num : ℚ) * 2 ^ 72 < 4722366482869645 * den := by
        rw [mul_right_comm, ← div_eq_mul_inv, lt_div_iff₀ (by positivity)]
      rw [a]
      constructor
      · rintro (h | h)
        · exact .inl (by exact_mod_cast h)
        · exact .inr (by exact_mod_cast h)
      · rintro (h | h)
        · exact .inl (by exact_mod_cast h)
        · exact .inr (by exact_mod_cast h)
    obtain ⟨ds, dp, h1, h2, h3, h4, h5, h6⟩ := shortest_found hc hfin (fun h => h0 (abs_eq_zero.1 h)) hden hsmall hv (jsonDigits (jsonSci num den) neg)
      (fun ds dp hd hne hlo hhi => by
        obtain ⟨hu, n, k, hden, hval⟩ := denotes_jsonDigits (jsonSci num den) neg hd hne dp (by omega)
        rw [parse_denotes hden hu, hval]
        constructor
        · rintro ⟨a, _, b⟩; exact ⟨a, b⟩
        · rintro ⟨a, b⟩; exact ⟨a, rfl, b⟩) (exactText neg m e)
    have hg : jsonPrint (.num (.fin neg m e)) = some (jsonDigits (jsonSci num den) neg ds dp) := by
      rw [jsonPrint, ← h1, ← hN, ← hD]
      unfold jsonFloat
      simp only [hm0, if_false]
    have hlt : decValue ds < 10 ^ 17 := lt_of_lt_of_le (decValue_lt h2) (Nat.pow_le_pow_right (by decide) h5)
    refine ⟨decValue ds, dp - ds.length, ds, if jsonSci num den then jsonE ds (dp - 1) else fmtF ds dp, h6, hlt, numeralOf h2 h3 h4, ?_, ?_⟩
    · rw [hg]; rfl
    · by_cases h : jsonSci num den = true
      · rw [if_pos h, if_pos (hsci.1 h)]; exact jsonE_exponent h3 dp
      · rw [if_neg h, if_neg (by rwa [← hsci])]; exact fmtF_plain h3 dp

/-- There is only one shortest decimal number for each float64. -/
theorem C75_unique {x : F64} {n n' : Nat} {j j' : Int} (h : Shortest x n j) (h' : Shortest x n' j') : (n : ℚ) * 10 ^ j = n' * 10 ^ j' := by
  have key : ∀ (n n' : Nat) (j j' : Int), Shortest x n j → Shortest x n' j' → j ≤ j' → (n : ℚ) * 10 ^ j = n' * 10 ^ j' := by
    intro n n' j j' h h' hj
    by_contra hne
    have l1 := h.fewest n' j' h'.reads
    have l2 := h'.fewest n j h.reads
    have d : |(n : ℚ) * 10 ^ j - magnitude x| = |(n' : ℚ) * 10 ^ j' - magnitude x| :=
      le_antisymm (h.closest n' j' h'.reads l2) (h'.closest n j h.reads l1)
    obtain ⟨a, ha⟩ := h.even n' j' h'.reads l2 (Ne.symm hne) d
    obtain ⟨b, hb⟩ := h'.even n j h.reads l1 hne d.symm
    obtain ⟨i, rfl⟩ : ∃ i : Nat, j' = j + i := ⟨(j' - j).toNat, by omega⟩
    have u := ten_pos j
    have e1 : (n' : ℚ) * 10 ^ (j + i : ℤ) = ((n' * 10 ^ i : Nat) : ℚ) * 10 ^ j := by
      rw [zpow_add₀ ten_ne, zpow_natCast]; push_cast; ring
    have e2 : (2 * a * 10 ^ (j + i : ℤ) : ℚ) = ((2 * (a * 10 ^ i) : ℤ) : ℚ) * 10 ^ j := by
      rw [zpow_add₀ ten_ne, zpow_natCast]; push_cast; ring
    rw [e2] at ha
    rw [e1] at hb hne d
    have hn2 : (n : ℤ) = 2 * (a * 10 ^ i) := by exact_mod_cast mul_right_cancel₀ u.ne' ha
    have hn2' : ((n' * 10 ^ i : Nat) : ℤ) = 2 * b := by
      have : ((n' * 10 ^ i : Nat) : ℚ) = ((2 * b : ℤ) : ℚ) := by push_cast; push_cast at hb; exact mul_right_cancel₀ u.ne' hb
      exact_mod_cast this
    generalize hM : n' * 10 ^ i = N' at *
    -- the number is in the middle
    obtain ⟨w, hw⟩ : ∃ w : Nat, 2 * w = n + N' := ⟨(n + N') / 2, by generalize a * 10 ^ i = aa at hn2; omega⟩
    have hnN : n ≠ N' := by rintro rfl; exact hne rfl
    have hmid : magnitude x = (w : ℚ) * 10 ^ j := by
      have hwq : (2 : ℚ) * w = n + N' := by exact_mod_cast hw
      rcases abs_eq_abs.1 d with hd | hd
      · exact absurd (mul_right_cancel₀ u.ne' (by linarith : (n : ℚ) * 10 ^ j = N' * 10 ^ j)) (by exact_mod_cast hnN)
      · have : (2 : ℚ) * magnitude x = 2 * (w * 10 ^ j) := by rw [← mul_assoc, hwq, add_mul]; linarith
        linarith
    have hwr : ReadsAs w j x := (readsAs_iff x w j).2 (by
      rw [← hmid]
      have hr : Reads x ((n : ℚ) * 10 ^ j) := h.reads
      rcases le_total ((n : ℚ) * 10 ^ j) (magnitude x) with hl | hl
      · exact reads_between hr (.inl ⟨hl, le_refl _⟩)
      · exact reads_between hr (.inr ⟨le_refl _, hl⟩))
    have hpos : 0 < |(n : ℚ) * 10 ^ j - magnitude x| := by
      rw [abs_pos, hmid, ← sub_mul]
      refine mul_ne_zero (sub_ne_zero.2 ?_) u.ne'
      have : n ≠ w := by omega
      exact_mod_cast this
    by_cases hwl : NoLonger w n
    · have := h.closest w j hwr hwl
      rw [← hmid, sub_self, abs_zero] at this
      linarith
    · -- then a power of ten is nearer
      rw [NoLonger] at hwl
      push Not at hwl
      obtain ⟨d', hd1, hd2⟩ := hwl
      have hr : Reads x ((n : ℚ) * 10 ^ j) := h.reads
      have e3 : ((1 : Nat) : ℚ) * 10 ^ (j + d' : ℤ) = ((10 ^ d' : Nat) : ℚ) * 10 ^ j := by
        rw [zpow_add₀ ten_ne, zpow_natCast]; push_cast; ring
      have hlo : (n : ℚ) * 10 ^ j < ((10 ^ d' : Nat) : ℚ) * 10 ^ j := mul_lt_mul_of_pos_right (by exact_mod_cast hd1) u
      have hhi : ((10 ^ d' : Nat) : ℚ) * 10 ^ j ≤ magnitude x := by
        rw [hmid]; exact mul_le_mul_of_nonneg_right (by exact_mod_cast hd2) u.le
      have hr1 : ReadsAs 1 (j + d') x := (readsAs_iff x 1 _).2 (by rw [e3]; exact reads_between hr (.inl ⟨hlo.le, hhi⟩))
      have hn0 : n ≠ 0 := by
        rintro rfl
        have := h'.fewest 0 j h.reads 0 (by simp)
        have : n' = 0 := by simpa using this
        subst this
        simp at hM
        exact hnN hM
      have hl1 : NoLonger 1 n := fun d hd => by
        rcases d with _ | d
        · simp at hd; omega
        · exact Nat.one_lt_pow (by omega) (by decide)
      have := h.closest 1 (j + d') hr1 hl1
      rw [e3, abs_of_nonpos (by linarith), abs_of_nonpos (by linarith)] at this
      linarith
  rcases le_total j j' with hj | hj
  · exact key n n' j j' h h' hj
  · exact (key n' n j' j h' h hj).symm

/-- The last digit of the shortest decimal number is not zero. -/
theorem C75_last_digit {x : F64} {n : Nat} {j : Int} (h : Shortest x n j) (h0 : n ≠ 0) : n % 10 ≠ 0 := by
  intro hz
  obtain ⟨b, rfl⟩ : ∃ b, n = b * 10 := ⟨n / 10, by omega⟩
  have hr : ReadsAs b (j + 1) x := by
    have e : ((b * 10 : Nat) : ℚ) * 10 ^ j = (b : ℚ) * 10 ^ (j + 1) := by rw [zpow_add_one₀ ten_ne]; push_cast; ring
    have := h.reads
    rw [ReadsAs, e] at this
    exact this
  have hb : 0 < b := by omega
  -- as many digits as the shorter number
  have h1 := natDec_lt b
  have h2 := natDec_len b hb
  have hl : 0 < (natDec b).length := List.length_pos_iff.2 (natDec_ne_nil _)
  have h3 := h.fewest b (j + 1) hr _ h1
  have h4 : 10 ^ (natDec b).length = 10 ^ ((natDec b).length - 1) * 10 := by rw [← pow_succ, Nat.sub_add_cancel hl]
  omega

/-- One half is not whole, so that `C75_shortest` and `C75_json` speak about it. -/
example : (F64.fin false 1 (-1)).Canon ∧ Finite (.fin false 1 (-1)) ∧ ∀ z : ℤ, value (.fin false 1 (-1)) ≠ z := by
  refine ⟨.inr ⟨by decide, by decide, by decide, by decide⟩, trivial, fun z hz => ?_⟩
  have h : (2 : ℚ) * z = 1 := by rw [← hz]; simp [value]
  have : (2 * z : ℤ) = 1 := by exact_mod_cast h
  omega

/-- What that means for a few numbers: 0.1, -2^-44 (where the 16-digit number nearest to the number is read as its neighbour), 2^70 and the
least positive number; and as JSON. -/
theorem C75_examples [Ext] :
    fmtG (.fin false 3602879701896397 (-55)) = b! "0.1" ∧ fmtG (.fin true 1 (-44)) = b! "-5.684341886080802e-14" ∧
    fmtG (.fin false 1 70) = b! "1.1805916207174113e+21" ∧ fmtG (.fin false 1 (-1074)) = b! "5e-324" ∧
    jsonPrint (.num (.fin false 1 (-1074))) = some (b! "5e-324") ∧ jsonPrint (.num (.fin true 3 0)) = some (b! "-3") ∧
    jsonPrint (.num (.fin false 1 60)) = some (b! "1152921504606847000") := by
  refine ⟨?_, ?_, ?_, ?_, ?_, ?_, ?_⟩ <;> decide +kernel

end Texted
