import Verif.Model.JsonText
import Verif.Lemmas.Number
import Verif.Lemmas.Parse
/-
Reading back printed JSON: strings and numbers.
-/
namespace Texted
open Spec

/-! ### strings -/

theorem jsonEscape_head (c : Char) : ∃ x r, jsonEscape c = x :: r ∧ x ≠ 34 := by
  obtain ⟨x, r, he, ha, hb⟩ := encodeRune_head c
  unfold jsonEscape
  simp only
  split
  · exact ⟨92, _, rfl, by decide⟩
  · rename_i hq
    repeat' split
    all_goals first
      | exact ⟨92, _, rfl, by decide⟩
      | (refine ⟨x, r, he, ?_⟩
         rintro rfl
         by_cases h128 : c.toNat < 128
         · exact hq (Or.inl (ha h128).1.symm)
         · exact absurd (hb (by omega)) (by decide))

theorem readHex4 (n : Nat) (h : n < 65536) (rest : Bytes) :
    readHex 4 (hexDigit (n / 4096 % 16) :: hexDigit (n / 256 % 16) :: hexDigit (n / 16 % 16) :: hexDigit (n % 16) :: rest) 0 = some (n, rest) := by
  have hval : ((n / 4096 % 16 * 16 + n / 256 % 16) * 16 + n / 16 % 16) * 16 + n % 16 = n := by omega
  simp [readHex, hexDigit_unhex _ (show n / 4096 % 16 < 16 by omega), hexDigit_unhex _ (show n / 256 % 16 < 16 by omega),
    hexDigit_unhex _ (show n / 16 % 16 < 16 by omega), hexDigit_unhex _ (show n % 16 < 16 by omega), hval]

theorem jsonU_hex (n : Nat) (h : n < 65536) (hs : isSurrogate n = false) (rest : Bytes) :
    jsonU (hexDigit (n / 4096 % 16) :: hexDigit (n / 256 % 16) :: hexDigit (n / 16 % 16) :: hexDigit (n % 16) :: rest) = some (Char.ofNat n, rest) := by
  unfold jsonU
  rw [readHex4 n h]
  simp [hs]

theorem jsonChar_u (n : Nat) (h : n < 65536) (hs : isSurrogate n = false) (rest : Bytes) :
    jsonChar (92 :: 117 :: hexDigit (n / 4096 % 16) :: hexDigit (n / 256 % 16) :: hexDigit (n / 16 % 16) :: hexDigit (n % 16) :: rest) =
      some (encodeRune (Char.ofNat n), rest) := by
  have := jsonU_hex n h hs rest
  simp [jsonChar, this]

theorem jsonChar_escape (c : Char) (rest : Bytes) : jsonChar (jsonEscape c ++ rest) = some (encodeRune c, rest) := by
  have hc := Char.ofNat_toNat c
  have hlow : ∀ n, n < 128 → c.toNat = n → encodeRune c = [UInt8.ofNat n] := by
    intro n hn h; rw [← hc, h]; exact encodeRune_ascii n hn
  unfold jsonEscape
  simp only
  split
  · rename_i h
    rcases h with h | h
    · rw [hlow 34 (by omega) h, h]; rfl
    · rw [hlow 92 (by omega) h, h]; rfl
  · rename_i hq
    split
    · rename_i h; rw [hlow 8 (by omega) h]; rfl
    · split
      · rename_i h; rw [hlow 12 (by omega) h]; rfl
      · split
        · rename_i h; rw [hlow 10 (by omega) h]; rfl
        · split
          · rename_i h; rw [hlow 13 (by omega) h]; rfl
          · split
            · rename_i h; rw [hlow 9 (by omega) h]; rfl
            · split
              · rename_i h
                have hn : c.toNat < 128 := by omega
                have := jsonChar_u c.toNat (by omega) (by simp only [isSurrogate, Bool.and_eq_false_iff, decide_eq_false_iff_not]; omega) rest
                rw [hc, show c.toNat / 4096 % 16 = 0 by omega, show c.toNat / 256 % 16 = 0 by omega] at this
                exact this
              · split
                · rename_i h
                  have hn : c.toNat < 65536 := by omega
                  have := jsonChar_u c.toNat hn (by simp only [isSurrogate, Bool.and_eq_false_iff, decide_eq_false_iff_not]; omega) rest
                  rw [hc, show c.toNat / 4096 % 16 = 2 by omega, show c.toNat / 256 % 16 = 0 by omega, show c.toNat / 16 % 16 = 2 by omega] at this
                  exact this
                · rename_i hlo _
                  obtain ⟨x, r, he, ha, hb⟩ := encodeRune_head c
                  by_cases h128 : c.toNat < 128
                  · obtain ⟨hx, hnil⟩ := ha h128
                    subst hnil
                    rw [he]
                    have x92 : x ≠ 92 := by intro h; subst h; apply hq; right; exact hx.symm
                    simp only [List.cons_append, List.nil_append, jsonChar]
                    rw [if_neg x92, if_neg (by omega), if_pos (by omega)]
                  · have hx := hb (by omega)
                    have x92 : x ≠ 92 := by rintro rfl; exact absurd hx (by decide)
                    have hd := decode_encode c rest
                    rw [he, List.cons_append] at hd ⊢
                    simp only [jsonChar]
                    rw [if_neg x92, if_neg (by omega), if_neg (by omega), hd]
                    simp [he]

theorem jsonStr_escapes (cs : List Char) (rest : Bytes) : ∀ f, (cs.flatMap jsonEscape).length < f →
    jsonStr f (cs.flatMap jsonEscape ++ 34 :: rest) = some (encodeAll cs, rest) := by
  induction cs with
  | nil => intro f hf; cases f with
    | zero => simp at hf
    | succ f => simp [jsonStr, encodeAll]
  | cons c cs ih =>
    intro f hf
    rw [List.flatMap_cons, List.length_append] at hf
    cases f with
    | zero => omega
    | succ f =>
      obtain ⟨x, r, he, hx⟩ := jsonEscape_head c
      have hch := jsonChar_escape c (cs.flatMap jsonEscape ++ 34 :: rest)
      rw [List.flatMap_cons, List.append_assoc, he, List.cons_append, jsonStr, if_neg hx]
      rw [he, List.cons_append] at hch
      rw [hch]
      simp only
      rw [ih f (by rw [he, List.length_cons] at hf; omega), encodeAll_cons]

theorem jsonStrBody_encodeAll (cs : List Char) : ∀ f, (encodeAll cs).length ≤ f → jsonStrBody f (encodeAll cs) = cs.flatMap jsonEscape := by
  induction cs with
  | nil => intro f _; cases f <;> simp [encodeAll, jsonStrBody]
  | cons c cs ih =>
    intro f hf
    obtain ⟨x, r, he, ha, hb⟩ := encodeRune_head c
    rw [encodeAll_cons, List.length_append] at hf
    cases f with
    | zero => rw [he, List.length_cons] at hf; omega
    | succ f =>
      have hd := decode_encode c (encodeAll cs)
      rw [encodeAll_cons]
      rw [he, List.cons_append] at hd ⊢
      rw [jsonStrBody, hd]
      simp only
      have hgood : ¬ ((x :: r).length = 1 ∧ c = runeError) := by
        rintro ⟨h1, h2⟩
        rw [← he, h2] at h1
        exact absurd h1 (by decide)
      rw [if_neg hgood, ← List.cons_append, List.drop_left, ih f (by rw [he, List.length_cons] at hf; omega), List.flatMap_cons]

/-! ### numbers -/

theorem isDigit_iff (c : UInt8) : isDigit c = true ↔ IsDig c := by
  unfold isDigit IsDig
  simp only [Bool.and_eq_true, decide_eq_true_eq, UInt8.le_iff_toNat_le]
  rfl

/-- The text after a number does not continue it. -/
def NumStop (rest : Bytes) : Prop := ∀ c ∈ rest.head?, isDigit c = false ∧ c ≠ 46 ∧ c ≠ 101 ∧ c ≠ 69

theorem takeWhile_digits (d rest : Bytes) (hd : ∀ c ∈ d, IsDig c) (hr : ∀ c ∈ rest.head?, isDigit c = false) :
    (d ++ rest).takeWhile isDigit = d ∧ (d ++ rest).dropWhile isDigit = rest := by
  induction d with
  | nil =>
    cases rest with
    | nil => simp
    | cons c r => have := hr c (by simp); simp [this]
  | cons x d ih =>
    have hx := (isDigit_iff x).2 (hd x (by simp))
    obtain ⟨h1, h2⟩ := ih fun c hc => hd c (by simp [hc])
    simp [hx, h1, h2]

theorem digits1_append (d rest : Bytes) (hne : d ≠ []) (hd : ∀ c ∈ d, IsDig c) (hr : ∀ c ∈ rest.head?, isDigit c = false) :
    digits1 (d ++ rest) = some (d, rest) := by
  obtain ⟨h1, h2⟩ := takeWhile_digits d rest hd hr
  rw [digits1, h1, h2, if_neg hne]

/-- Digits not starting with zero, or just zero. -/
def JInt (i : Bytes) : Prop := i = [48] ∨ ∃ c r, i = c :: r ∧ c ≠ 48 ∧ ∀ x ∈ i, IsDig x

/-- A fraction part. -/
def JFrac (i : Bytes) : Prop := i = [] ∨ ∃ d, i = 46 :: d ∧ d ≠ [] ∧ ∀ x ∈ d, IsDig x

/-- An exponent part. -/
def JExp (i : Bytes) : Prop := i = [] ∨ ∃ sg d, i = 101 :: (sg ++ d) ∧ (sg = [43] ∨ sg = [45]) ∧ d ≠ [] ∧ ∀ x ∈ d, IsDig x

theorem jsonInt_append (i rest : Bytes) (hi : JInt i) (hr : ∀ c ∈ rest.head?, isDigit c = false) : jsonInt (i ++ rest) = some (i, rest) := by
  rcases hi with rfl | ⟨c, r, rfl, h1, h2⟩
  · rfl
  · rw [List.cons_append, jsonInt, if_neg h1, ← List.cons_append]
    exact digits1_append _ _ (by simp) h2 hr

theorem jsonFrac_append (i rest : Bytes) (hi : JFrac i) (hr : ∀ c ∈ rest.head?, isDigit c = false ∧ c ≠ 46) : jsonFrac (i ++ rest) = some (i, rest) := by
  rcases hi with rfl | ⟨d, rfl, h1, h2⟩
  · cases rest with
    | nil => rfl
    | cons c r =>
      have := (hr c (by simp)).2
      rw [List.nil_append]
      unfold jsonFrac
      split
      · rename_i heq; simp only [List.cons.injEq] at heq; exact absurd heq.1 this
      · rfl
  · rw [List.cons_append, jsonFrac, digits1_append d rest h1 h2 fun c hc => (hr c hc).1]

theorem jsonExp_append (i rest : Bytes) (hi : JExp i) (hr : NumStop rest) : jsonExp (i ++ rest) = some (i, rest) := by
  rcases hi with rfl | ⟨sg, d, rfl, hsg, h1, h2⟩
  · cases rest with
    | nil => rfl
    | cons c r =>
      have := hr c (by simp)
      rw [List.nil_append, jsonExp, if_neg]
      rintro (h | h)
      · exact this.2.2.1 h
      · exact this.2.2.2 h
  · have hs : jsonSign (sg ++ d ++ rest) = (sg, d ++ rest) := by
      rcases hsg with rfl | rfl <;> rfl
    rw [List.cons_append, jsonExp, if_pos (Or.inl rfl), hs]
    simp only
    rw [digits1_append d rest h1 h2 fun c hc => (hr c hc).1]

theorem jsonNumText_append (neg : Bool) (i fr ex rest : Bytes) (hi : JInt i) (hfr : JFrac fr) (hex : JExp ex) (hr : NumStop rest) :
    jsonNumText (signText neg ++ i ++ fr ++ ex ++ rest) = some (signText neg ++ i ++ fr ++ ex, rest) := by
  have hexh : ∀ c ∈ (ex ++ rest).head?, isDigit c = false ∧ c ≠ 46 := by
    rcases hex with rfl | ⟨sg, d, rfl, _⟩
    · intro c hc; exact ⟨(hr c hc).1, (hr c hc).2.1⟩
    · intro c hc; simp at hc; subst hc; decide
  have hfrh : ∀ c ∈ (fr ++ (ex ++ rest)).head?, isDigit c = false := by
    rcases hfr with rfl | ⟨d, rfl, _⟩
    · intro c hc; exact (hexh c hc).1
    · intro c hc; simp at hc; subst hc; decide
  have hsign : jsonMinus (signText neg ++ (i ++ (fr ++ (ex ++ rest)))) = (signText neg, i ++ (fr ++ (ex ++ rest))) := by
    cases neg
    · have : ∃ c r, i = c :: r ∧ c ≠ 45 := by
        rcases hi with rfl | ⟨c, r, rfl, _, h2⟩
        · exact ⟨48, [], rfl, by decide⟩
        · exact ⟨c, r, rfl, dig_ne (h2 c (by simp)) _ (by decide)⟩
      obtain ⟨c, r, rfl, hc⟩ := this
      simp only [signText, Bool.false_eq_true, if_false, List.nil_append, List.cons_append]
      unfold jsonMinus
      split
      · rename_i heq; simp only [List.cons.injEq] at heq; exact absurd heq.1 hc
      · rfl
    · rfl
  unfold jsonNumText
  simp only [List.append_assoc]
  rw [hsign]
  simp only
  rw [jsonInt_append i _ hi hfrh]
  simp only
  rw [jsonFrac_append fr _ hfr hexh]
  simp only
  rw [jsonExp_append ex _ hex hr]

theorem natDigits_head (f n : Nat) (hn : 0 < n) (h : n < 2 ^ (f + 1)) : ∃ c r, natDigits (f + 1) n = c :: r ∧ c ≠ 48 := by
  induction f generalizing n with
  | zero =>
    have : n = 1 := by omega
    subst this
    exact ⟨49, [], rfl, by decide⟩
  | succ f ih =>
    rw [natDigits]
    split
    · rename_i h10
      refine ⟨_, [], rfl, ?_⟩
      intro heq
      have := congrArg UInt8.toNat heq
      rw [digit_ofNat n h10] at this
      simp at this; omega
    · obtain ⟨c, r, h1, h2⟩ := ih (n / 10) (by omega) (by
        have : (2 : Nat) ^ (f + 1 + 1) = 2 * 2 ^ (f + 1) := by rw [Nat.pow_succ]; omega
        omega)
      exact ⟨c, r ++ _, by rw [h1]; rfl, h2⟩

theorem natDec_head (n : Nat) (hn : 0 < n) : ∃ c r, natDec n = c :: r ∧ c ≠ 48 :=
  natDigits_head _ _ hn Nat.lt_log2_self

theorem natDigits_len (f n : Nat) (hn : 0 < n) (h : n < 2 ^ (f + 1)) : 10 ^ ((natDigits (f + 1) n).length - 1) ≤ n := by
  induction f generalizing n with
  | zero =>
    have : n = 1 := by omega
    subst this
    decide
  | succ f ih =>
    rw [natDigits]
    split
    · simp; omega
    · have h2 : (2 : Nat) ^ (f + 1 + 1) = 2 * 2 ^ (f + 1) := by rw [Nat.pow_succ]; omega
      have := ih (n / 10) (by omega) (by omega)
      have hne := natDigits_ne_nil f (n / 10)
      have hl : 1 ≤ (natDigits (f + 1) (n / 10)).length := by
        cases h : natDigits (f + 1) (n / 10) with
        | nil => exact absurd h hne
        | cons _ _ => simp
      rw [List.length_append, List.length_singleton, Nat.add_sub_cancel]
      generalize (natDigits (f + 1) (n / 10)).length = k at *
      have e : (10 : Nat) ^ k = 10 ^ (k - 1) * 10 := by rw [← Nat.pow_succ]; congr 1; omega
      omega

theorem natDec_len (n : Nat) (hn : 0 < n) : 10 ^ ((natDec n).length - 1) ≤ n := natDigits_len _ _ hn Nat.lt_log2_self

/-- Digits not starting with zero. -/
def JPos (i : Bytes) : Prop := ∃ c r, i = c :: r ∧ c ≠ 48 ∧ ∀ x ∈ i, IsDig x

/-- The digits of a positive number do not start with zero. -/
theorem kDigits_pos (num den k : Nat) (o : Bool) (hden : 0 < den) (hk : 1 ≤ k) (hsmall : den ≤ num * 10 ^ 400) :
    JPos (kDigits num den k o).1 := by
  have one : JPos (b! "1") := ⟨49, [], rfl, by decide, by intro x hx; simp at hx; subst hx; exact ⟨by decide, by decide⟩⟩
  have dec : ∀ q, 0 < q → JPos (natDec q) := by
    intro q hq
    obtain ⟨c, r, h1, h2⟩ := natDec_head q hq
    exact ⟨c, r, h1, h2, natDec_dig q⟩
  unfold kDigits
  simp only
  generalize hs : (if 0 ≤ (k : Int) - decimalPoint num den then (num * 10 ^ ((k : Int) - decimalPoint num den).toNat, den)
    else (num, den * 10 ^ (decimalPoint num den - k).toNat)) = s
  have hq : 0 < s.1 / s.2 := by
    have hle : s.2 ≤ s.1 ∧ 0 < s.2 := by
      subst hs
      unfold decimalPoint
      by_cases hge : den ≤ num
      · have hdiv : 0 < num / den := Nat.div_pos hge hden
        have hlen := natDec_len (num / den) hdiv
        have hdp : 1 ≤ (natDec (num / den)).length := by
          cases h : natDec (num / den) with
          | nil => exact absurd h (natDec_ne_nil _)
          | cons _ _ => simp
        simp only [hge, if_true]
        generalize (natDec (num / den)).length = L at *
        split
        · refine ⟨?_, hden⟩
          have : 0 < 10 ^ ((k : Int) - L).toNat := Nat.pow_pos (by decide)
          have := Nat.mul_le_mul hge this
          simpa using this
        · have h1 : 10 ^ (L - k : Nat) ≤ 10 ^ (L - 1) := Nat.pow_le_pow_right (by decide) (by omega)
          have h2 : ((L : Int) - k).toNat = L - k := by omega
          refine ⟨?_, Nat.mul_pos hden (Nat.pow_pos (by decide))⟩
          show den * 10 ^ ((L : Int) - k).toNat ≤ num
          rw [h2]
          calc den * 10 ^ (L - k) ≤ den * (num / den) := Nat.mul_le_mul_left _ (Nat.le_trans h1 hlen)
            _ ≤ num := Nat.mul_div_le _ _
      · simp only [hge, if_false]
        generalize hz : ((List.range 400).find? fun z => den ≤ num * 10 ^ (z + 1)).getD 400 = z
        have hz2 : den ≤ num * 10 ^ (z + 1) := by
          cases hf : (List.range 400).find? fun z => den ≤ num * 10 ^ (z + 1) with
          | none =>
            rw [hf] at hz
            simp only [Option.getD_none] at hz
            subst hz
            have : 10 ^ 400 ≤ 10 ^ (400 + 1) := Nat.pow_le_pow_right (by decide) (by decide)
            exact Nat.le_trans hsmall (Nat.mul_le_mul_left _ this)
          | some w =>
            rw [hf] at hz
            simp only [Option.getD_some] at hz
            subst hz
            simpa using List.find?_some hf
        have hpos : 0 ≤ (k : Int) - -(z : Int) := by omega
        simp only [hpos, if_true]
        refine ⟨?_, hden⟩
        have h1 : ((k : Int) - -(z : Int)).toNat = k + z := by omega
        rw [h1]
        have : 10 ^ (z + 1) ≤ 10 ^ (k + z) := Nat.pow_le_pow_right (by decide) (by omega)
        exact Nat.le_trans hz2 (Nat.mul_le_mul_left _ this)
    exact Nat.div_pos hle.1 hle.2
  split
  · split
    · exact one
    · exact dec _ (by omega)
  · split
    · exact one
    · exact dec _ hq

/-- Number texts that JSON can read. -/
def JNum (t : Bytes) : Prop := ∃ neg i fr ex, t = signText neg ++ i ++ fr ++ ex ∧ JInt i ∧ JFrac fr ∧ JExp ex

theorem JInt.digits {i : Bytes} (h : JInt i) : ∀ x ∈ i, IsDig x := by
  rcases h with rfl | ⟨c, r, rfl, _, h⟩
  · intro x hx; simp at hx; subst hx; exact ⟨by decide, by decide⟩
  · exact h

theorem JInt.ne_nil {i : Bytes} (h : JInt i) : i ≠ [] := by
  rcases h with rfl | ⟨c, r, rfl, _, _⟩ <;> simp

theorem zeros_dig (n : Nat) : ∀ x ∈ zeros n, IsDig x := by
  intro x hx
  have := (List.mem_replicate.1 hx).2
  subst this; exact ⟨by decide, by decide⟩

theorem fmtF_json (ds : Bytes) (dp : Int) (h : JInt ds) (hz : ds = [48] → dp ≤ 1) : ∃ i fr, fmtF ds dp = i ++ fr ∧ JInt i ∧ JFrac fr := by
  have hdig := h.digits
  have hne := h.ne_nil
  refine ⟨_, _, rfl, ?_, ?_⟩
  · split
    · rename_i hdp
      rcases h with rfl | ⟨c, r, rfl, h1, h2⟩
      · have : dp = 1 := by have := hz rfl; omega
        subst this; exact Or.inl rfl
      · obtain ⟨k, hk⟩ : ∃ k, dp.toNat = k + 1 := ⟨dp.toNat - 1, by omega⟩
        rw [hk]
        refine Or.inr ⟨c, r.take k ++ zeros (k + 1 - (c :: r).length), by simp, h1, ?_⟩
        intro x hx
        rcases List.mem_append.1 hx with hx | hx
        · exact h2 x (List.mem_of_mem_take hx)
        · exact zeros_dig _ x hx
    · exact Or.inl rfl
  · split
    · rename_i hdp
      refine Or.inr ⟨zeros (-dp).toNat ++ ds.drop dp.toNat, rfl, ?_, ?_⟩
      · have : ds.drop dp.toNat ≠ [] := by
          intro h0
          have := List.drop_eq_nil_iff.1 h0
          have h1 : ds.length ≠ 0 := by simpa using hne
          omega
        simp [this]
      · intro x hx
        rcases List.mem_append.1 hx with hx | hx
        · exact zeros_dig _ x hx
        · exact hdig x (List.mem_of_mem_drop hx)
    · exact Or.inl rfl

theorem jsonE_json (ds : Bytes) (exp : Int) (h : JInt ds) : ∃ i fr ex, jsonE ds exp = i ++ fr ++ ex ∧ JInt i ∧ JFrac fr ∧ JExp ex := by
  have hdig := h.digits
  refine ⟨ds.take 1, (if ds.length ≤ 1 then [] else b! "." ++ ds.drop 1), 101 :: ((if exp < 0 then b! "-" else b! "+") ++ natDec exp.natAbs), ?_, ?_, ?_, ?_⟩
  · simp [jsonE]
  · rcases h with rfl | ⟨c, r, rfl, h1, h2⟩
    · exact Or.inl rfl
    · exact Or.inr ⟨c, [], rfl, h1, fun x hx => h2 x (List.mem_of_mem_take hx)⟩
  · split
    · exact Or.inl rfl
    · rename_i hl
      refine Or.inr ⟨ds.drop 1, rfl, ?_, fun x hx => hdig x (List.mem_of_mem_drop hx)⟩
      intro h0
      have := List.drop_eq_nil_iff.1 h0
      omega
  · refine Or.inr ⟨_, _, rfl, ?_, natDec_ne_nil _, natDec_dig _⟩
    split
    · exact Or.inr rfl
    · exact Or.inl rfl

theorem natDec_json (n : Nat) : JInt (natDec n) := by
  by_cases h : n = 0
  · subst h; exact Or.inl rfl
  · obtain ⟨c, r, h1, h2⟩ := natDec_head n (by omega)
    exact Or.inr ⟨c, r, h1, h2, natDec_dig n⟩

theorem exactText_json (neg : Bool) (m : Nat) (e : Int) : JNum (exactText neg m e) := by
  unfold exactText
  rw [show (if neg = true then b! "-" else []) = signText neg from rfl]
  by_cases he : 0 ≤ e
  · rw [if_pos he]
    exact ⟨neg, natDec (m * 2 ^ e.toNat), [], [], by simp, natDec_json _, Or.inl rfl, Or.inl rfl⟩
  · rw [if_neg he]
    refine ⟨neg, natDec (m * 5 ^ (-e).toNat), [], 101 :: ([45] ++ natDec (-e).toNat), by simp, natDec_json _, Or.inl rfl, ?_⟩
    exact Or.inr ⟨[45], _, rfl, Or.inr rfl, natDec_ne_nil _, natDec_dig _⟩

theorem jsonDigits_json (sci neg : Bool) (ds : Bytes) (dp : Int) (h : JPos ds) : JNum (jsonDigits sci neg ds dp) := by
  have hz : ds ≠ [48] := by
    obtain ⟨c, r, rfl, h1, _⟩ := h
    rintro ⟨⟩
    exact h1 rfl
  have h : JInt ds := Or.inr h
  unfold jsonDigits
  rw [show (if neg = true then b! "-" else []) = signText neg from rfl]
  split
  · obtain ⟨i, fr, ex, h1, h2, h3, h4⟩ := jsonE_json ds (dp - 1) h
    exact ⟨neg, i, fr, ex, by rw [h1]; simp, h2, h3, h4⟩
  · obtain ⟨i, fr, h1, h2, h3⟩ := fmtF_json ds dp h (fun h => absurd h hz)
    exact ⟨neg, i, fr, [], by rw [h1]; simp, h2, h3, Or.inl rfl⟩

theorem pow_small (n : Nat) (h : n ≤ 1074) : 2 ^ n ≤ 10 ^ 400 :=
  Nat.le_trans (Nat.pow_le_pow_right (by decide) h) (by decide +kernel)

theorem jsonFloat_read (x : F64) (t : Bytes) (hc : x.Canon) (h : jsonFloat x = some t) : JNum t ∧ parseFloat t = some x := by
  cases x with
  | nan => cases h
  | inf b => cases h
  | fin neg m e =>
    rcases hc with ⟨rfl, rfl⟩ | ⟨hodd, hm, hlo, hhi⟩
    · cases neg <;> cases h
      · exact ⟨⟨false, [48], [], [], rfl, Or.inl rfl, Or.inl rfl, Or.inl rfl⟩, by decide +kernel⟩
      · exact ⟨⟨true, [48], [], [], rfl, Or.inl rfl, Or.inl rfl, Or.inl rfl⟩, by decide +kernel⟩
    · have hm0 : m ≠ 0 := by omega
      have hex := exactText_parse neg m e (Or.inr ⟨hodd, hm, hlo, hhi⟩)
      unfold jsonFloat at h
      simp only [hm0, if_false, Option.some.injEq] at h
      subst h
      have hden : 0 < (if 0 ≤ e then 1 else 2 ^ (-e).toNat) := by split; decide; exact Nat.two_pow_pos _
      have hsmall : (if 0 ≤ e then 1 else 2 ^ (-e).toNat) ≤ (if 0 ≤ e then m * 2 ^ e.toNat else m) * 10 ^ 400 := by
        have h400 : 0 < 10 ^ 400 := Nat.pow_pos (by decide)
        split
        · have := Nat.two_pow_pos e.toNat
          exact Nat.mul_pos (Nat.mul_pos (by omega) this) h400
        · exact Nat.le_trans (pow_small _ (by omega)) (Nat.le_mul_of_pos_left _ (by omega))
      generalize (if 0 ≤ e then 1 else 2 ^ (-e).toNat) = den at *
      generalize (if 0 ≤ e then m * 2 ^ e.toNat else m) = num at *
      cases hf : List.find? (fun t => decide (parseFloat t = some (F64.fin neg m e)))
          ((List.range 17).flatMap fun k => [false, true].map fun o =>
            jsonDigits (jsonSci num den) neg (kDigits num den (k + 1) o).1 (kDigits num den (k + 1) o).2) with
      | none => exact ⟨exactText_json neg m e, hex⟩
      | some t =>
        have h1 := List.find?_some hf
        have h2 := List.mem_of_find?_eq_some hf
        obtain ⟨k, _, h2⟩ := List.mem_flatMap.1 h2
        obtain ⟨o, _, rfl⟩ := List.mem_map.1 h2
        exact ⟨jsonDigits_json _ _ _ _ (kDigits_pos num den (k + 1) o hden (by omega) hsmall), by simpa using h1⟩

theorem jsonNum_append (x : F64) (t rest : Bytes) (hc : x.Canon) (h : jsonFloat x = some t) (hr : NumStop rest) :
    jsonNum (t ++ rest) = some (x, rest) := by
  obtain ⟨⟨neg, i, fr, ex, rfl, h1, h2, h3⟩, hp⟩ := jsonFloat_read x t hc h
  rw [jsonNum, jsonNumText_append neg i fr ex rest h1 h2 h3 hr]
  simp only
  rw [hp]

theorem jsonFloat_isSome (x : F64) : (jsonFloat x).isSome = match x with | .fin .. => true | _ => false := by
  cases x with
  | nan => rfl
  | inf => rfl
  | fin neg m e => simp only [jsonFloat]; split <;> rfl

/-- A number text starts with a digit or a minus sign. -/
theorem JNum.head {t : Bytes} (h : JNum t) : ∃ c r, t = c :: r ∧ (c = 45 ∨ IsDig c) := by
  obtain ⟨neg, i, fr, ex, rfl, h1, _, _⟩ := h
  cases neg
  · obtain ⟨c, r, rfl⟩ := List.exists_cons_of_ne_nil h1.ne_nil
    exact ⟨c, r ++ fr ++ ex, by simp [signText], Or.inr (h1.digits c (by simp))⟩
  · exact ⟨45, i ++ fr ++ ex, by simp [signText], Or.inl rfl⟩

end Texted
