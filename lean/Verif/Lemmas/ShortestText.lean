import Verif.Lemmas.ShortestRead
/- The text that is found first is the shortest one. -/
namespace Texted
open Spec F64

/-- Searching through the candidates. -/
theorem find_candidates (T : Nat → Bool → Bytes) (P : Bytes → Bool) (n : Nat) (hn : P (T n false) = true) (z : Bytes) :
    ∃ k o, ((((List.range (n + 1)).flatMap fun k => [false, true].map fun o => T k o).find? P).getD z) = T k o ∧ k ≤ n ∧ P (T k o) = true ∧
      (o = true → P (T k false) = false) ∧ ∀ k' < k, ∀ o', P (T k' o') = false := by
  have key : ∀ n', (∃ k o, (((List.range n').flatMap fun k => [false, true].map fun o => T k o).find? P) = some (T k o) ∧ k < n' ∧ P (T k o) = true ∧
      (o = true → P (T k false) = false) ∧ ∀ k' < k, ∀ o', P (T k' o') = false) ∨
      ((((List.range n').flatMap fun k => [false, true].map fun o => T k o).find? P) = none ∧ ∀ k' < n', ∀ o', P (T k' o') = false) := by
    intro n'
    induction n' with
    | zero => exact .inr ⟨rfl, fun k' h => absurd h (Nat.not_lt_zero _)⟩
    | succ n' ih =>
      rw [List.range_succ, List.flatMap_append, List.find?_append]
      rcases ih with ⟨k, o, h1, h2, h3, h4, h5⟩ | ⟨h1, h2⟩
      · left; exact ⟨k, o, by rw [h1]; rfl, by omega, h3, h4, h5⟩
      · rw [h1, Option.none_or]
        simp only [List.flatMap_cons, List.flatMap_nil, List.append_nil, List.map_cons, List.map_nil]
        by_cases ha : P (T n' false) = true
        · left; exact ⟨n', false, by rw [List.find?_cons_of_pos ha], by omega, ha, (fun h => nomatch h), h2⟩
        · rw [List.find?_cons_of_neg ha]
          by_cases hb : P (T n' true) = true
          · left; exact ⟨n', true, by rw [List.find?_cons_of_pos hb], by omega, hb, fun _ => by simpa using ha, h2⟩
          · right
            rw [List.find?_cons_of_neg hb]
            refine ⟨rfl, fun k' hk o' => ?_⟩
            by_cases h : k' = n'
            · subst h; cases o' <;> simp_all
            · exact h2 k' (by omega) o'
  rcases key (n + 1) with ⟨k, o, h1, h2, h3⟩ | ⟨_, h2⟩
  · exact ⟨k, o, by rw [h1]; rfl, by omega, h3⟩
  · rw [h2 n (by omega) false] at hn; exact absurd hn (by decide)

/-- A decimal number of at most `d + 1` digits is not between the two candidates. -/
theorem outside {v : ℚ} {dp : Int} {d q n : Nat} {j : Int} (hq : 10 ^ d ≤ q)
    (h1 : (q : ℚ) * 10 ^ (dp - (d + 1)) ≤ v) (hn : n < 10 ^ (d + 1)) :
    (n : ℚ) * 10 ^ j ≤ q * 10 ^ (dp - (d + 1)) ∨ ((q + 1 : Nat) : ℚ) * 10 ^ (dp - (d + 1)) ≤ n * 10 ^ j := by
  clear h1
  have hu := ten_pos (dp - (d + 1))
  by_cases hj : dp - (d + 1) ≤ j
  · obtain ⟨i, rfl⟩ : ∃ i : Nat, j = dp - (d + 1) + i := ⟨(j - (dp - (d + 1))).toNat, by omega⟩
    have e : (n : ℚ) * 10 ^ (dp - (d + 1) + i) = ((n * 10 ^ i : Nat) : ℚ) * 10 ^ (dp - (d + 1)) := by
      rw [zpow_add₀ ten_ne, zpow_natCast]; push_cast; ring
    rw [e]
    rcases Nat.lt_or_ge q (n * 10 ^ i) with h | h
    · right; exact mul_le_mul_of_nonneg_right (by exact_mod_cast h) hu.le
    · left; exact mul_le_mul_of_nonneg_right (by exact_mod_cast h) hu.le
  · left
    have a : (n : ℚ) * 10 ^ j ≤ 10 ^ (d + 1) * 10 ^ (dp - (d + 1) - 1) :=
      mul_le_mul (by exact_mod_cast hn.le) (zpow_le_zpow_right₀ (by norm_num) (by omega)) (ten_pos _).le (by positivity)
    have b : (10 : ℚ) ^ (d + 1) * 10 ^ (dp - (d + 1) - 1) = 10 ^ d * 10 ^ (dp - (d + 1)) := by
      rw [zpow_sub_one₀ ten_ne, pow_succ]; field_simp
    have c : (10 : ℚ) ^ d * 10 ^ (dp - (d + 1)) ≤ q * 10 ^ (dp - (d + 1)) := mul_le_mul_of_nonneg_right (by exact_mod_cast hq) hu.le
    linarith

theorem readsAs_iff (x : F64) (n : Nat) (j : Int) : ReadsAs n j x ↔ Reads x ((n : ℚ) * 10 ^ j) := Iff.rfl

/-- The numerator and denominator of a float64. -/
theorem fraction_of {neg : Bool} {m : Nat} {e : Int} (hc : F64.Canon (.fin neg m e)) (hm : m ≠ 0) :
    0 < (if 0 ≤ e then 1 else 2 ^ (-e).toNat) ∧ (if 0 ≤ e then 1 else 2 ^ (-e).toNat) ≤ (if 0 ≤ e then m * 2 ^ e.toNat else m) * 10 ^ 400 ∧
    (((if 0 ≤ e then m * 2 ^ e.toNat else m : Nat) : ℚ) / ((if 0 ≤ e then 1 else 2 ^ (-e).toNat : Nat) : ℚ)) = magnitude (.fin neg m e) := by
  rw [magnitude_fin]
  refine ⟨?_, ?_, ?_⟩
  · split; decide; exact Nat.two_pow_pos _
  · have h400 : 0 < 10 ^ 400 := Nat.pow_pos (by decide)
    split
    · have := Nat.two_pow_pos e.toNat
      exact Nat.mul_pos (Nat.mul_pos (by omega) this) h400
    · rcases hc with ⟨h, _⟩ | ⟨_, _, h3, _⟩
      · exact absurd h hm
      · exact Nat.le_trans (pow_small _ (by omega)) (Nat.le_mul_of_pos_left _ (by omega))
  · by_cases he : 0 ≤ e
    · rw [if_pos he, if_pos he]
      obtain ⟨k, rfl⟩ := Int.eq_ofNat_of_zero_le he
      simp
    · rw [if_neg he, if_neg he]
      obtain ⟨k, rfl⟩ : ∃ k : Nat, e = -(k : Int) := ⟨(-e).toNat, by omega⟩
      rw [zpow_neg, zpow_natCast]
      simp
      rfl

/-- What is found among the candidates is the shortest number. -/
theorem shortest_found {x : F64} (hc : x.Canon) (hfin : Finite x) (h0 : magnitude x ≠ 0) {num den : Nat} (hden : 0 < den)
    (hsmall : den ≤ num * 10 ^ 400) (hv : (num : ℚ) / den = magnitude x) (T : Bytes → Int → Bytes)
    (hT : ∀ ds dp, (∀ c ∈ ds, IsDig c) → ds ≠ [] → -400 ≤ dp → dp ≤ 402 → (parseFloat (T ds dp) = some x ↔ Reads x (pointValue ds dp))) (z : Bytes) :
    ∃ ds dp, ((((List.range 17).flatMap fun k => [false, true].map fun o =>
        T (kDigits num den (k + 1) o).1 (kDigits num den (k + 1) o).2).find? fun t => parseFloat t = some x).getD z) = T ds dp ∧
      (∀ c ∈ ds, IsDig c) ∧ ds ≠ [] ∧ ds.head? ≠ some 48 ∧ ds.length ≤ 17 ∧ Shortest x (decValue ds) (dp - ds.length) := by
  obtain ⟨hd1, hd2⟩ := decimalPoint_spec num den hden hsmall
  have hspec := fun k => kDigits_spec num den k hden hsmall
  rw [hv] at hd1 hd2
  simp only [hv] at hspec
  generalize decimalPoint num den = dp at *
  have hv0 : 0 < magnitude x := lt_of_le_of_ne (abs_nonneg _) (Ne.symm h0)
  -- the range of the decimal point
  have hdpr : -400 ≤ dp ∧ dp ≤ 401 := by
    have t : (1 : ℚ) < 10 := by norm_num
    constructor
    · have h1 : (10 : ℚ) ^ (-(400 : ℤ)) ≤ magnitude x := by
        rw [← hv, le_div_iff₀ (by exact_mod_cast hden), zpow_neg, inv_mul_le_iff₀ (ten_pos _), show (400 : ℤ) = ((400 : Nat) : ℤ) from rfl, zpow_natCast,
          mul_comm]
        exact_mod_cast hsmall
      have := (zpow_lt_zpow_iff_right₀ t).1 (lt_of_le_of_lt h1 hd2)
      omega
    · have h1 : overflow ≤ (10 : ℚ) ^ (400 : ℤ) := by
        rw [overflow, show (400 : ℤ) = ((400 : Nat) : ℤ) from rfl, zpow_natCast]
        have a : (2 : ℚ) ^ 54 * 2 ^ 970 ≤ 10 ^ 400 := by rw [← pow_add]; exact_mod_cast pow_small 1024 (by decide)
        have b : (0 : ℚ) < 2 ^ 970 := by positivity
        refine le_trans ?_ a
        exact mul_le_mul_of_nonneg_right (by norm_num) b.le
      have := (zpow_lt_zpow_iff_right₀ t).1 (lt_of_le_of_lt hd1 (lt_of_lt_of_le (magnitude_lt hc) h1))
      omega
  have hP : ∀ k o, (∀ q c, Neighbour (magnitude x) dp k q o c (kDigits num den (k + 1) o) →
      (decide (parseFloat (T (kDigits num den (k + 1) o).1 (kDigits num den (k + 1) o).2) = some x) = true ↔
        Reads x (c * 10 ^ (dp - (k + 1))))) := by
    intro k o q c h
    rw [decide_eq_true_iff, hT _ _ h.dig h.ne (by have := h.exp; omega) (by have := h.exp; omega), h.val]
  -- 17 digits are read as the number
  have h17 : decide (parseFloat (T (kDigits num den 17 false).1 (kDigits num den 17 false).2) = some x) = true := by
    obtain ⟨q, q1, q2, q3, q4, c0, c1, hne, n0, n1⟩ := hspec 16
    refine (hP 16 false q c0 n0).2 (reads_seventeen hc hfin h0 hd1 ?_)
    have a := n0.near rfl q (.inl rfl)
    have b := n0.near rfl (q + 1) (.inr rfl)
    have e : dp - (((16 : Nat) : ℤ) + 1) = dp - 17 := by norm_num
    rw [e] at a b q3 q4 ⊢
    rw [abs_of_nonpos (by linarith : (q : ℚ) * 10 ^ (dp - 17) - magnitude x ≤ 0)] at a
    rw [abs_of_nonneg (by push_cast; linarith : 0 ≤ ((q + 1 : Nat) : ℚ) * 10 ^ (dp - 17) - magnitude x)] at b
    push_cast at b
    linarith
  obtain ⟨k, o, e1, e2, e3, e4, e5⟩ := find_candidates (fun k o => T (kDigits num den (k + 1) o).1 (kDigits num den (k + 1) o).2)
    (fun t => decide (parseFloat t = some x)) 16 h17 z
  -- a shorter number would have been found before
  have hmin : ∀ n j, ReadsAs n j x → ∀ d, n < 10 ^ (d + 1) → k ≤ d := by
    intro n j hr d hn
    by_contra hlt
    obtain ⟨q, q1, q2, q3, q4, c0, c1, hne, n0, n1⟩ := hspec d
    have f0 := e5 d (by omega) false
    have f1 := e5 d (by omega) true
    have r0 : ¬ Reads x (c0 * 10 ^ (dp - (d + 1))) := fun h => by rw [(hP d false q c0 n0).2 h] at f0; cases f0
    have r1 : ¬ Reads x (c1 * 10 ^ (dp - (d + 1))) := fun h => by rw [(hP d true q c1 n1).2 h] at f1; cases f1
    have both : ¬ Reads x (q * 10 ^ (dp - (d + 1))) ∧ ¬ Reads x ((q + 1 : Nat) * 10 ^ (dp - (d + 1))) := by
      rcases n0.which with rfl | rfl <;> rcases n1.which with rfl | rfl
      · exact absurd rfl hne
      · exact ⟨r0, r1⟩
      · exact ⟨r1, r0⟩
      · exact absurd rfl hne
    rcases outside (dp := dp) (j := j) q1 q3 hn with h | h
    · exact both.1 (reads_between hr (.inl ⟨h, q3⟩))
    · exact both.2 (reads_between hr (.inr ⟨by push_cast; exact q4.le, h⟩))
  obtain ⟨q, q1, q2, q3, q4, c0, c1, hne, n0, n1⟩ := hspec k
  -- the candidate that was taken, and the other one
  obtain ⟨c, c', hcc, hco, nn, hother⟩ : ∃ c c', c' ≠ c ∧ (c' = q ∨ c' = q + 1) ∧ Neighbour (magnitude x) dp k q o c (kDigits num den (k + 1) o) ∧
      (o = true → ¬ Reads x (c' * 10 ^ (dp - (k + 1)))) := by
    cases o with
    | false => exact ⟨c0, c1, hne.symm, n1.which, n0, fun h => nomatch h⟩
    | true =>
      refine ⟨c1, c0, hne, n0.which, n1, fun _ h => ?_⟩
      have := e4 rfl
      rw [(hP k false q c0 n0).2 h] at this; cases this
  have hR : Reads x (c * 10 ^ (dp - (k + 1))) := (hP k o q c nn).1 e3
  refine ⟨_, _, e1, nn.dig, nn.ne, nn.head, by have := nn.len; omega, ?_⟩
  have hval : (decValue (kDigits num den (k + 1) o).1 : ℚ) * 10 ^ ((kDigits num den (k + 1) o).2 - ((kDigits num den (k + 1) o).1.length : ℤ)) =
    c * 10 ^ (dp - (k + 1)) := nn.val
  have hlt := decValue_lt nn.dig
  have hlen : (kDigits num den (k + 1) o).1.length = k + 1 := by
    have hp : 0 < (kDigits num den (k + 1) o).1.length := List.length_pos_iff.2 nn.ne
    have := hmin (decValue (kDigits num den (k + 1) o).1) _ ((readsAs_iff x _ _).2 (by rw [hval]; exact hR)) ((kDigits num den (k + 1) o).1.length - 1)
      (by rw [Nat.sub_add_cancel hp]; exact hlt)
    have := nn.len
    omega
  have hle : ∀ n', NoLonger n' (decValue (kDigits num den (k + 1) o).1) → n' < 10 ^ (k + 1) := fun n' h => h _ (by rw [hlen] at hlt; exact hlt)
  -- distances
  have u := ten_pos (dp - (k + 1))
  have qq : (q : ℚ) * 10 ^ (dp - (k + 1)) - magnitude x ≤ 0 := by linarith
  have qq1 : 0 ≤ ((q + 1 : Nat) : ℚ) * 10 ^ (dp - (k + 1)) - magnitude x := by push_cast; linarith
  -- another number of that length is at least as far as one of the candidates on its side
  have side : ∀ n' j', ReadsAs n' j' x → n' < 10 ^ (k + 1) → ∃ w, (w = c ∨ (w = c' ∧ o = false)) ∧
      |(w : ℚ) * 10 ^ (dp - (k + 1)) - magnitude x| ≤ |(n' : ℚ) * 10 ^ j' - magnitude x| ∧
      (|(w : ℚ) * 10 ^ (dp - (k + 1)) - magnitude x| = |(n' : ℚ) * 10 ^ j' - magnitude x| → (n' : ℚ) * 10 ^ j' = w * 10 ^ (dp - (k + 1))) := by
    intro n' j' hr hn
    have pick : ∀ w, (w = q ∨ w = q + 1) → Reads x (w * 10 ^ (dp - (k + 1))) → (w = c ∨ (w = c' ∧ o = false)) := by
      intro w hw hrw
      by_cases hwc : w = c
      · exact .inl hwc
      · have : w = c' := by have := nn.which; omega
        refine .inr ⟨this, ?_⟩
        cases o with
        | false => rfl
        | true => exact absurd hrw (by rw [this]; exact hother rfl)
    rcases outside (dp := dp) (j := j') q1 q3 hn with h | h
    · refine ⟨q, pick q (.inl rfl) (reads_between hr (.inl ⟨h, q3⟩)), ?_, ?_⟩
      · rw [abs_of_nonpos qq, abs_of_nonpos (by linarith)]; linarith
      · rw [abs_of_nonpos qq, abs_of_nonpos (by linarith)]; intro h; linarith
    · refine ⟨q + 1, pick (q + 1) (.inr rfl) (reads_between hr (.inr ⟨by linarith, h⟩)), ?_, ?_⟩
      · rw [abs_of_nonneg qq1, abs_of_nonneg (by linarith)]; linarith
      · rw [abs_of_nonneg qq1, abs_of_nonneg (by linarith)]; intro h; linarith
  refine ⟨(readsAs_iff x _ _).2 (by rw [hval]; exact hR), ?_, ?_, ?_⟩
  · intro n' j' hr d hn
    have hd0 : d ≠ 0 := by
      rintro rfl
      have : n' = 0 := by simpa using hn
      subst this
      have hz : Nearest (sgn x * 0) (.fin (signBit x) 0 0) := by
        refine ⟨trivial, .inl ⟨rfl, rfl⟩, ?_, ?_⟩
        · intro y _ _; simp [value]
        · intro n m e _ hne he
          have hz : value (.fin (signBit x) 0 0) = 0 := by simp [value]
          rw [hz, mul_zero, sub_zero, abs_zero, sub_zero] at he
          rw [hz] at hne
          exact absurd (abs_eq_zero.1 he.symm) hne
      have hr2 : Nearest (sgn x * 0) x := by
        have := hr.2
        simpa [sgn] using this
      have := nearest_value hr2 hz
      apply h0
      rw [magnitude, this]
      simp [value]
    have := hmin n' j' hr (d - 1) (by rw [Nat.sub_add_cancel (by omega)]; exact hn)
    exact lt_of_lt_of_le (by rw [hlen] at hlt; exact hlt) (Nat.pow_le_pow_right (by decide) (by omega))
  · intro n' j' hr hl
    rw [hval]
    obtain ⟨w, hw, h1, h2⟩ := side n' j' hr (hle n' hl)
    rcases hw with rfl | ⟨rfl, ho⟩
    · exact h1
    · exact le_trans (nn.near ho w hco) h1
  · intro n' j' hr hl hnev he
    rw [hval] at hnev he ⊢
    obtain ⟨w, hw, h1, h2⟩ := side n' j' hr (hle n' hl)
    rcases hw with rfl | ⟨rfl, ho⟩
    · exact absurd (h2 he) hnev
    · have h3 := nn.near ho w hco
      have h4 : (n' : ℚ) * 10 ^ j' = w * 10 ^ (dp - (k + 1)) := h2 (le_antisymm h1 (by rw [← he]; exact h3))
      have h5 : c % 2 = 0 := nn.tie ho w hco hcc (by rw [he, h4])
      have h6 : w % 2 = 1 := by have := nn.which; omega
      -- the unit of the other number
      have hj : j' ≤ dp - (k + 1) := by
        by_contra hj
        obtain ⟨i, rfl⟩ : ∃ i : Nat, j' = dp - (k + 1) + (i + 1) := ⟨(j' - (dp - (k + 1)) - 1).toNat, by omega⟩
        have h7 : (n' : ℚ) * 10 ^ (dp - (k + 1) + (i + 1 : ℤ)) = ((n' * 10 ^ (i + 1) : Nat) : ℚ) * 10 ^ (dp - (k + 1)) := by
          rw [zpow_add₀ ten_ne, show (i : ℤ) + 1 = ((i + 1 : Nat) : ℤ) by push_cast; rfl, zpow_natCast]; push_cast; ring
        rw [h7] at h4
        have h8 : n' * 10 ^ (i + 1) = w := by exact_mod_cast mul_right_cancel₀ u.ne' h4
        rw [pow_succ, ← mul_assoc] at h8
        omega
      obtain ⟨i, hi⟩ : ∃ i : Nat, dp - (k + 1) = j' + i := ⟨(dp - (k + 1) - j').toNat, by omega⟩
      obtain ⟨b, hb⟩ : ∃ b, c = 2 * b := ⟨c / 2, by omega⟩
      refine ⟨(b : ℤ) * 10 ^ i, ?_⟩
      have h9 : (c : ℚ) = 2 * (b : ℚ) := by exact_mod_cast hb
      rw [hi, zpow_add₀ ten_ne, zpow_natCast, h9]
      push_cast
      ring

end Texted
