import Verif.Lemmas.NumberText
import Verif.Lemmas.JsonText
import Verif.Props.Literals
import Mathlib.Tactic.FieldSimp
import Mathlib.Tactic.Ring
import Mathlib.Tactic.Linarith
/- Which number a printed text denotes. -/
namespace Texted
open Spec

/-- The number written with these digits. -/
def decValue (ds : Bytes) : Nat := ds.foldl (fun v c => v * 10 + (c.toNat - 48)) 0

theorem decValue_acc (ds : Bytes) : ∀ v, ds.foldl (fun v c => v * 10 + (c.toNat - 48)) v = v * 10 ^ ds.length + decValue ds := by
  induction ds with
  | nil => intro v; simp [decValue]
  | cons c ds ih =>
    intro v
    have h1 : decValue (c :: ds) = (0 * 10 + (c.toNat - 48)) * 10 ^ ds.length + decValue ds := by
      conv_lhs => rw [decValue, List.foldl_cons]
      exact ih _
    rw [List.foldl_cons, ih, h1, List.length_cons, pow_succ]
    ring

theorem decValue_append (a b : Bytes) : decValue (a ++ b) = decValue a * 10 ^ b.length + decValue b := by
  rw [decValue, List.foldl_append, decValue_acc]; rfl

theorem decValue_zeros (n : Nat) : decValue (zeros n) = 0 := by
  induction n with
  | zero => rfl
  | succ n ih => rw [zeros, List.replicate_succ', decValue_append, ← zeros, ih]; rfl

theorem decValue_natDigits (f n : Nat) (h : n < 2 ^ (f + 1)) : decValue (natDigits (f + 1) n) = n := by
  induction f generalizing n with
  | zero =>
    have : n < 2 := by simpa using h
    rw [natDigits, if_pos (by omega)]
    simp only [decValue, List.foldl_cons, List.foldl_nil, digit_ofNat n (by omega)]; omega
  | succ f ih =>
    rw [natDigits]
    split
    · simp only [decValue, List.foldl_cons, List.foldl_nil, digit_ofNat n (by omega)]; omega
    · have h2 : (2 : Nat) ^ (f + 1 + 1) = 2 * 2 ^ (f + 1) := by rw [Nat.pow_succ]; omega
      rw [decValue_append, ih (n / 10) (by omega)]
      simp only [decValue, List.foldl_cons, List.foldl_nil, digit_ofNat (n % 10) (by omega), List.length_singleton, pow_one]; omega

theorem decValue_natDec (n : Nat) : decValue (natDec n) = n := decValue_natDigits _ _ Nat.lt_log2_self

theorem digitsOnly_dig {ds : Bytes} (h : ∀ c ∈ ds, IsDig c) : digitsOnly ds = ds := by
  rw [digitsOnly, List.filter_eq_self]
  intro c hc
  have := dig_ne (h c hc) 95 (by decide)
  exact decide_eq_true this

theorem run_dig {ds : Bytes} (h : ∀ c ∈ ds, IsDig c) : DigitRun 10 ds := fun c hc => .inl ((isDigit_ten c).2 (h c hc))

theorem digit_value {c : UInt8} (h : IsDig c) : (digit? (Char.ofNat c.toNat)).getD 0 = c.toNat - 48 :=
  digitVal_getD (digitVal_dig h)

theorem runValue_dig {ds : Bytes} (h : ∀ c ∈ ds, IsDig c) : runValue 10 ds = decValue ds := by
  rw [numeral_bytes, digitsOnly_dig h, decValue]
  have key : ∀ (ds : Bytes), (∀ c ∈ ds, IsDig c) → ∀ v, ds.foldl (fun v c => v * 10 + (digit? (Char.ofNat c.toNat)).getD 0) v =
      ds.foldl (fun v c => v * 10 + (c.toNat - 48)) v := by
    intro ds
    induction ds with
    | nil => intro _ v; rfl
    | cons c ds ih =>
      intro h v
      rw [List.foldl_cons, List.foldl_cons, digit_value (h c (by simp))]
      exact ih (fun c hc => h c (by simp [hc])) _
  exact key ds h 0

/-- Digits with a point. -/
theorem mantissa_point {i f : Bytes} (hi : ∀ c ∈ i, IsDig c) (hf : ∀ c ∈ f, IsDig c) (hne : i ++ f ≠ []) :
    MantissaText 10 (i ++ 46 :: f) (decValue (i ++ f)) f.length := by
  have ha : ∀ c ∈ i ++ f, IsDig c := fun c hc => (List.mem_append.1 hc).elim (hi c) (hf c)
  exact ⟨i, f, .inr rfl, run_dig ha, by rwa [digitsOnly_dig ha], (runValue_dig ha).symm, by rw [digitsOnly_dig hf]⟩

/-- Digits without a point. -/
theorem mantissa_whole {i : Bytes} (hi : ∀ c ∈ i, IsDig c) (hne : i ≠ []) : MantissaText 10 i (decValue i) 0 := by
  refine ⟨i, [], .inl ⟨rfl, rfl⟩, ?_, ?_, ?_, rfl⟩
  · rw [List.append_nil]; exact run_dig hi
  · rw [List.append_nil, digitsOnly_dig hi]; exact hne
  · rw [List.append_nil, runValue_dig hi]

theorem sign_text (neg : Bool) : SignText (signText neg) neg := by
  cases neg
  · exact .none
  · exact .minus

/-- An exponent. -/
theorem exponent_text (exp : Int) (pad : Nat) (h : exp.natAbs < 100000) :
    ExponentText 'e' 'E' (101 :: ((if exp < 0 then b! "-" else b! "+") ++ (zeros pad ++ natDec exp.natAbs))) exp := by
  have hd : ∀ c ∈ zeros pad ++ natDec exp.natAbs, IsDig c := fun c hc => (List.mem_append.1 hc).elim (zeros_dig _ c) (natDec_dig _ c)
  have hv : decValue (zeros pad ++ natDec exp.natAbs) = exp.natAbs := by
    rw [decValue_append, decValue_zeros, decValue_natDec]; omega
  have he : exponentValue (zeros pad ++ natDec exp.natAbs) = exp.natAbs := by
    rw [C69_exponent_exact _ (by rw [runValue_dig hd, hv]; exact h) (run_dig hd), runValue_dig hd, hv]
  have hh : ∃ c ∈ (zeros pad ++ natDec exp.natAbs).head?, IsDigit 10 c := by
    rcases hs : zeros pad ++ natDec exp.natAbs with _ | ⟨c, r⟩
    · exact absurd (List.append_eq_nil_iff.1 hs).2 (natDec_ne_nil _)
    · exact ⟨c, rfl, (isDigit_ten c).2 (hd c (by rw [hs]; simp))⟩
  refine ⟨101, if exp < 0 then b! "-" else b! "+", decide (exp < 0), zeros pad ++ natDec exp.natAbs, rfl, .inl rfl, ?_, run_dig hd, hh, ?_⟩
  · by_cases hn : exp < 0
    · rw [if_pos hn, decide_eq_true hn]; exact .minus
    · rw [if_neg hn, decide_eq_false hn]; exact .plus
  · rw [he]
    by_cases hn : exp < 0
    · simp only [hn, decide_true, if_true]; omega
    · simp only [hn, decide_false, Bool.false_eq_true, if_false]; omega

/-- The mantissa of the exponent form. -/
theorem mantissa_e {ds : Bytes} (hd : ∀ c ∈ ds, IsDig c) (hne : ds ≠ []) :
    MantissaText 10 (ds.take 1 ++ (if ds.length ≤ 1 then [] else b! "." ++ ds.drop 1)) (decValue ds) (ds.length - 1) := by
  by_cases h : ds.length ≤ 1
  · rw [if_pos h, List.append_nil, List.take_of_length_le h, show ds.length - 1 = 0 by omega]
    exact mantissa_whole hd hne
  · rw [if_neg h]
    have := mantissa_point (i := ds.take 1) (f := ds.drop 1) (fun c hc => hd c (List.take_subset _ _ hc)) (fun c hc => hd c (List.drop_subset _ _ hc))
      (by rw [List.take_append_drop]; exact hne)
    rw [List.take_append_drop, List.length_drop] at this
    exact this

/-- `%e`. -/
theorem denotes_fmtE (neg : Bool) {ds : Bytes} (hd : ∀ c ∈ ds, IsDig c) (hne : ds ≠ []) (exp : Int) (h : exp.natAbs < 100000) :
    Denotes (signText neg ++ fmtE ds exp) neg (decValue ds) 10 (exp - (ds.length - 1 : Nat)) := by
  have := Denotes.decimal _ neg _ _ _ _ exp (sign_text neg) (mantissa_e hd hne) (.inr (exponent_text exp (if exp.natAbs < 10 then 1 else 0) h))
  have e : fmtE ds exp = (ds.take 1 ++ (if ds.length ≤ 1 then [] else b! "." ++ ds.drop 1)) ++
      (101 :: ((if exp < 0 then b! "-" else b! "+") ++ (zeros (if exp.natAbs < 10 then 1 else 0) ++ natDec exp.natAbs))) := by
    unfold fmtE
    by_cases h1 : exp.natAbs < 10 <;> simp [h1, zeros]
  rw [e, ← List.append_assoc]
  exact this

/-- encoding/json's `%e`. -/
theorem denotes_jsonE (neg : Bool) {ds : Bytes} (hd : ∀ c ∈ ds, IsDig c) (hne : ds ≠ []) (exp : Int) (h : exp.natAbs < 100000) :
    Denotes (signText neg ++ jsonE ds exp) neg (decValue ds) 10 (exp - (ds.length - 1 : Nat)) := by
  have := Denotes.decimal _ neg _ _ _ _ exp (sign_text neg) (mantissa_e hd hne) (.inr (exponent_text exp 0 h))
  have e : jsonE ds exp = (ds.take 1 ++ (if ds.length ≤ 1 then [] else b! "." ++ ds.drop 1)) ++
      (101 :: ((if exp < 0 then b! "-" else b! "+") ++ (zeros 0 ++ natDec exp.natAbs))) := by
    unfold jsonE
    simp [zeros]
  rw [e, ← List.append_assoc]
  exact this

/-- `%f`. -/
theorem denotes_fmtF (neg : Bool) {ds : Bytes} (hd : ∀ c ∈ ds, IsDig c) (hne : ds ≠ []) (dp : Int) :
    ∃ n k, Denotes (signText neg ++ fmtF ds dp) neg n 10 k ∧ (n : ℚ) * (10 : ℚ) ^ k = decValue ds * (10 : ℚ) ^ (dp - ds.length) := by
  have htake : ∀ n, ∀ c ∈ ds.take n, IsDig c := fun n c hc => hd c (List.take_subset _ _ hc)
  have hdrop : ∀ n, ∀ c ∈ ds.drop n, IsDig c := fun n c hc => hd c (List.drop_subset _ _ hc)
  have hlen : 0 < ds.length := List.length_pos_iff.2 hne
  by_cases h0 : 0 < dp
  · by_cases h1 : dp < ds.length
    · -- the point stands inside
      have e : fmtF ds dp = ds.take dp.toNat ++ 46 :: ds.drop dp.toNat := by
        unfold fmtF
        rw [if_pos h0, if_pos h1, show dp.toNat - ds.length = 0 by omega, show (-dp).toNat = 0 by omega]
        simp [zeros]
      have hm := mantissa_point (htake dp.toNat) (hdrop dp.toNat) (by rw [List.take_append_drop]; exact hne)
      rw [List.take_append_drop] at hm
      have := Denotes.decimal _ neg _ _ _ [] 0 (sign_text neg) hm (.inl ⟨rfl, rfl⟩)
      rw [List.append_nil, ← e] at this
      refine ⟨_, _, this, ?_⟩
      rw [List.length_drop]
      congr 2
      omega
    · -- zeros follow
      have e : fmtF ds dp = ds ++ zeros (dp.toNat - ds.length) := by
        unfold fmtF
        rw [if_pos h0, if_neg h1, List.take_of_length_le (by omega)]
        simp
      have hm := mantissa_whole (i := ds ++ zeros (dp.toNat - ds.length)) (fun c hc => (List.mem_append.1 hc).elim (hd c) (zeros_dig _ c)) (by simp [hne])
      have := Denotes.decimal _ neg _ _ _ [] 0 (sign_text neg) hm (.inl ⟨rfl, rfl⟩)
      rw [List.append_nil] at this
      rw [e]
      refine ⟨_, _, this, ?_⟩
      rw [decValue_append, decValue_zeros, zeros, List.length_replicate]
      have e2 : dp - (ds.length : Int) = ((dp.toNat - ds.length : Nat) : Int) := by omega
      rw [e2, zpow_natCast]
      push_cast
      simp
  · -- a fraction
    have e : fmtF ds dp = b! "0" ++ 46 :: (zeros (-dp).toNat ++ ds) := by
      unfold fmtF
      rw [if_neg h0, if_pos (by omega), show dp.toNat = 0 by omega]
      simp
    have hz : ∀ c ∈ zeros (-dp).toNat ++ ds, IsDig c := fun c hc => (List.mem_append.1 hc).elim (zeros_dig _ c) (hd c)
    have hm := mantissa_point (i := b! "0") (f := zeros (-dp).toNat ++ ds) (zeros_dig 1) hz (by simp)
    have := Denotes.decimal _ neg _ _ _ [] 0 (sign_text neg) hm (.inl ⟨rfl, rfl⟩)
    rw [List.append_nil, ← e] at this
    refine ⟨_, _, this, ?_⟩
    rw [decValue_append, decValue_append, decValue_zeros, show decValue (b! "0") = 0 from rfl, List.length_append, zeros, List.length_replicate]
    have e2 : (0 : Int) - ((-dp).toNat + ds.length : Nat) = dp - ds.length := by omega
    rw [e2]
    push_cast
    ring

theorem not_us_e (neg : Bool) {t : Bytes} (h : ∀ c ∈ t, c ≠ 95) : (signText neg ++ t).contains 95 = false := by
  rw [← Bool.not_eq_true, List.contains_iff_mem, List.mem_append]
  rintro (hm | hm)
  · cases neg
    · exact nomatch hm
    · exact absurd (List.mem_singleton.1 hm) (by decide)
  · exact h 95 hm rfl

/-- Reading a text that denotes a decimal number. -/
theorem parse_denotes {t : Bytes} {neg : Bool} {n : Nat} {k : Int} (h : Denotes t neg n 10 k) (hu : t.contains 95 = false) (x : F64) :
    parseFloat t = some x ↔ (n : ℚ) * (10 : ℚ) ^ k < overflow ∧ signBit x = neg ∧ Nearest ((if neg then -1 else 1) * ((n : ℚ) * (10 : ℚ) ^ k)) x := by
  have hr := readFloat_complete h (fun hc => by rw [hu] at hc; cases hc)
  have hs := denotes_not_special h
  have hi := scaled_iff neg n 10 (by decide) k x
  rw [parseFloat, hs]
  simp only
  rw [hr]
  push_cast at hi
  rw [← hi]
  constructor
  · intro he
    generalize hy : scaled neg n 10 k = y at he
    have hinf : ∀ g, y ≠ .inf g := by
      rintro g rfl
      cases he
    have hf := scaled_not_nan neg n 10 k (by decide) (by rw [hy]; exact hinf)
    rw [hy] at hf
    cases y with
    | nan => exact hf.elim
    | inf g => exact absurd rfl (hinf g)
    | fin a m e => cases he; exact ⟨rfl, trivial⟩
  · rintro ⟨he, hf⟩
    rw [he]
    cases x with
    | nan => exact hf.elim
    | inf g => exact hf.elim
    | fin a m e => rfl

theorem fmtE_no_us {ds : Bytes} (hd : ∀ c ∈ ds, IsDig c) (exp : Int) : ∀ c ∈ fmtE ds exp, c ≠ 95 := by
  intro c hc
  unfold fmtE at hc
  simp only [List.mem_append] at hc
  have dig : IsDig c → c ≠ 95 := fun h => dig_ne h 95 (by decide)
  rcases hc with ((((hc | hc) | hc) | hc) | hc) | hc
  · exact dig (hd c (List.take_subset _ _ hc))
  · split at hc
    · exact nomatch hc
    · rcases List.mem_append.1 hc with hc | hc
      · rw [List.mem_singleton.1 hc]; decide
      · exact dig (hd c (List.drop_subset _ _ hc))
  · rw [List.mem_singleton.1 hc]; decide
  · split at hc <;> (rw [List.mem_singleton.1 hc]; decide)
  · split at hc
    · rw [List.mem_singleton.1 hc]; decide
    · exact nomatch hc
  · exact dig (natDec_dig _ c hc)

theorem jsonE_no_us {ds : Bytes} (hd : ∀ c ∈ ds, IsDig c) (exp : Int) : ∀ c ∈ jsonE ds exp, c ≠ 95 := by
  intro c hc
  unfold jsonE at hc
  simp only [List.mem_append] at hc
  have dig : IsDig c → c ≠ 95 := fun h => dig_ne h 95 (by decide)
  rcases hc with (((hc | hc) | hc) | hc) | hc
  · exact dig (hd c (List.take_subset _ _ hc))
  · split at hc
    · exact nomatch hc
    · rcases List.mem_append.1 hc with hc | hc
      · rw [List.mem_singleton.1 hc]; decide
      · exact dig (hd c (List.drop_subset _ _ hc))
  · rw [List.mem_singleton.1 hc]; decide
  · split at hc <;> (rw [List.mem_singleton.1 hc]; decide)
  · exact dig (natDec_dig _ c hc)

/-- The bytes of `%f`. -/
theorem fmtF_bytes {ds : Bytes} (hd : ∀ c ∈ ds, IsDig c) (dp : Int) : ∀ c ∈ fmtF ds dp, c = 46 ∨ IsDig c := by
  intro c hc
  unfold fmtF at hc
  rcases List.mem_append.1 hc with hc | hc
  · split at hc
    · rcases List.mem_append.1 hc with hc | hc
      · exact .inr (hd c (List.take_subset _ _ hc))
      · exact .inr (zeros_dig _ c hc)
    · exact .inr (zeros_dig 1 c hc)
  · split at hc
    · rcases List.mem_append.1 hc with hc | hc
      · rcases List.mem_append.1 hc with hc | hc
        · exact .inl (List.mem_singleton.1 hc)
        · exact .inr (zeros_dig _ c hc)
      · exact .inr (hd c (List.drop_subset _ _ hc))
    · exact nomatch hc

theorem fmtF_no_us {ds : Bytes} (hd : ∀ c ∈ ds, IsDig c) (dp : Int) : ∀ c ∈ fmtF ds dp, c ≠ 95 := by
  intro c hc
  rcases fmtF_bytes hd dp c hc with rfl | h
  · decide
  · exact dig_ne h 95 (by decide)

/-- What the digits and the position of the point stand for. -/
def pointValue (ds : Bytes) (dp : Int) : ℚ := decValue ds * (10 : ℚ) ^ (dp - ds.length)

theorem e_value (ds : Bytes) (hne : ds ≠ []) (dp : Int) :
    (decValue ds : ℚ) * (10 : ℚ) ^ (dp - 1 - (ds.length - 1 : Nat)) = pointValue ds dp := by
  have := List.length_pos_iff.2 hne
  rw [pointValue]
  congr 2
  omega

/-- What a text printed with `%g` denotes. -/
theorem denotes_fmtDigits (neg : Bool) {ds : Bytes} (hd : ∀ c ∈ ds, IsDig c) (hne : ds ≠ []) (dp : Int) (h : (dp - 1).natAbs < 100000) :
    (fmtDigits neg ds dp).contains 95 = false ∧ ∃ n k, Denotes (fmtDigits neg ds dp) neg n 10 k ∧ (n : ℚ) * (10 : ℚ) ^ k = pointValue ds dp := by
  unfold fmtDigits
  rw [show (if neg = true then b! "-" else []) = signText neg from rfl]
  split
  · exact ⟨not_us_e neg (fmtE_no_us hd _), _, _, denotes_fmtE neg hd hne (dp - 1) h, e_value ds hne dp⟩
  · obtain ⟨n, k, h1, h2⟩ := denotes_fmtF neg hd hne dp
    exact ⟨not_us_e neg (fmtF_no_us hd _), n, k, h1, h2⟩

/-- What a number printed as JSON denotes. -/
theorem denotes_jsonDigits (sci neg : Bool) {ds : Bytes} (hd : ∀ c ∈ ds, IsDig c) (hne : ds ≠ []) (dp : Int) (h : (dp - 1).natAbs < 100000) :
    (jsonDigits sci neg ds dp).contains 95 = false ∧
      ∃ n k, Denotes (jsonDigits sci neg ds dp) neg n 10 k ∧ (n : ℚ) * (10 : ℚ) ^ k = pointValue ds dp := by
  unfold jsonDigits
  rw [show (if neg = true then b! "-" else []) = signText neg from rfl]
  split
  · exact ⟨not_us_e neg (jsonE_no_us hd _), _, _, denotes_jsonE neg hd hne (dp - 1) h, e_value ds hne dp⟩
  · obtain ⟨n, k, h1, h2⟩ := denotes_fmtF neg hd hne dp
    exact ⟨not_us_e neg (fmtF_no_us hd _), n, k, h1, h2⟩

end Texted
