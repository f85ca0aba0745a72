import Verif.Model.Utf8
/- UTF-8: decoding undoes encoding; a well-formed prefix is the encoding of its rune. -/
namespace Texted

theorem char_range (c : Char) : c.toNat < 0xD800 ∨ (0xDFFF < c.toNat ∧ c.toNat < 0x110000) := by
  have := c.valid
  simp only [UInt32.isValidChar, Nat.isValidChar] at this
  exact this

theorem char_ofNat_toNat' (c : Char) : Char.ofNat c.toNat = c := Char.ofNat_toNat c

theorem bn_ofNat (n : Nat) (h : n < 256) : bn (UInt8.ofNat n) = n := by
  simp [bn, UInt8.toNat_ofNat', Nat.mod_eq_of_lt h]

theorem ofNat_bn (x : UInt8) : UInt8.ofNat (bn x) = x := by simp [bn]

theorem bn_lt (x : UInt8) : bn x < 256 := x.toNat_lt

theorem toNat_ofNat_valid (n : Nat) (h : n < 0xD800 ∨ (0xDFFF < n ∧ n < 0x110000)) : (Char.ofNat n).toNat = n := by
  have hv : n.isValidChar := h
  simp [Char.ofNat, hv, Char.ofNatAux, Char.toNat]

theorem isCont_ofNat (n : Nat) (h : 0x80 ≤ n) (h' : n ≤ 0xBF) : isCont (UInt8.ofNat n) = true := by
  simp [isCont, bn_ofNat n (by omega), h, h']

theorem isCont_iff (x : UInt8) : isCont x = true ↔ 0x80 ≤ bn x ∧ bn x ≤ 0xBF := by simp [isCont]

/-- Decoding an encoded rune gives the rune and the length of its encoding. -/
theorem decode_encode (c : Char) (rest : Bytes) :
    decodeRune (encodeRune c ++ rest) = (c, (encodeRune c).length) := by
  have hr := char_range c
  have hc := char_ofNat_toNat' c
  generalize hn : c.toNat = n at *
  unfold encodeRune
  simp only [hn]
  split
  · rename_i h
    simp [decodeRune, bn_ofNat n (by omega), h, hc]
  · split
    · rename_i h1 h2
      simp only [List.cons_append, List.nil_append, decodeRune]
      rw [bn_ofNat _ (by omega), bn_ofNat _ (by omega)]
      rw [if_neg (by omega), if_pos (by omega)]
      have : (0xC0 + n / 64 - 0xC0) * 64 + (0x80 + n % 64 - 0x80) = n := by omega
      rw [if_pos (isCont_ofNat _ (by omega) (by omega)), this, hc]; rfl
    · split
      · rename_i h1 h2 h3
        simp only [List.cons_append, List.nil_append, decodeRune]
        rw [bn_ofNat _ (by omega), bn_ofNat _ (by omega), bn_ofNat _ (by omega)]
        rw [if_neg (by omega), if_neg (by omega), if_pos (by omega)]
        have : (0xE0 + n / 4096 - 0xE0) * 4096 + (0x80 + n / 64 % 64 - 0x80) * 64 + (0x80 + n % 64 - 0x80) = n := by omega
        rw [if_pos, this, hc]
        · rfl
        · refine ⟨?_, ?_, isCont_ofNat _ (by omega) (by omega)⟩
          · split <;> omega
          · split <;> omega
      · rename_i h1 h2 h3
        simp only [List.cons_append, List.nil_append, decodeRune]
        rw [bn_ofNat _ (by omega), bn_ofNat _ (by omega), bn_ofNat _ (by omega), bn_ofNat _ (by omega)]
        rw [if_neg (by omega), if_neg (by omega), if_neg (by omega), if_pos (by omega)]
        have : (0xF0 + n / 262144 - 0xF0) * 262144 + (0x80 + n / 4096 % 64 - 0x80) * 4096 +
          (0x80 + n / 64 % 64 - 0x80) * 64 + (0x80 + n % 64 - 0x80) = n := by omega
        rw [if_pos, this, hc]
        · rfl
        · refine ⟨?_, ?_, isCont_ofNat _ (by omega) (by omega), isCont_ofNat _ (by omega) (by omega)⟩
          · split <;> omega
          · split <;> omega

theorem encodeRune_length (c : Char) : 1 ≤ (encodeRune c).length ∧ (encodeRune c).length ≤ 4 := by
  unfold encodeRune
  simp only
  split
  · simp
  · split
    · simp
    · split <;> simp

/-- If the decoder accepts (does not report an ill-formed byte), the bytes it consumed are the encoding of the rune
it returned. -/
theorem encode_decode (s : Bytes) (hs : s ≠ []) (h : ¬ ((decodeRune s).2 = 1 ∧ (decodeRune s).1 = runeError)) :
    encodeRune (decodeRune s).1 = s.take (decodeRune s).2 ∧ 1 ≤ (decodeRune s).2 ∧ (decodeRune s).2 ≤ s.length := by
  have hre : runeError.toNat = 0xFFFD := rfl
  cases s with
  | nil => exact absurd rfl hs
  | cons b0 rest =>
    have l0 := bn_lt b0
    revert h
    simp only [decodeRune]
    split
    · rename_i h1
      intro _
      simp only [encodeRune, toNat_ofNat_valid (bn b0) (by omega), if_pos h1, ofNat_bn]
      simp
    · split
      · rename_i h1 h2
        cases rest with
        | nil => simp
        | cons b1 r1 =>
          have l1 := bn_lt b1
          simp only
          split
          · rename_i hc
            intro _
            simp only [isCont_iff] at hc
            simp only [encodeRune, toNat_ofNat_valid ((bn b0 - 0xC0) * 64 + (bn b1 - 0x80)) (by omega)]
            rw [if_neg (by omega), if_pos (by omega)]
            rw [show 0xC0 + ((bn b0 - 0xC0) * 64 + (bn b1 - 0x80)) / 64 = bn b0 by omega,
              show 0x80 + ((bn b0 - 0xC0) * 64 + (bn b1 - 0x80)) % 64 = bn b1 by omega, ofNat_bn, ofNat_bn]
            simp
          · simp
      · split
        · rename_i h1 h2 h3
          rcases rest with _ | ⟨b1, _ | ⟨b2, r2⟩⟩
          · simp
          · simp
          · have l1 := bn_lt b1
            have l2 := bn_lt b2
            simp only
            generalize hlo : (if bn b0 = 0xE0 then (0xA0 : Nat) else 0x80) = lo
            generalize hhi : (if bn b0 = 0xED then (0x9F : Nat) else 0xBF) = hi
            have hlo' : (bn b0 = 0xE0 → lo = 0xA0) ∧ 0x80 ≤ lo := by
              split at hlo <;> omega
            have hhi' : (bn b0 = 0xED → hi = 0x9F) ∧ hi ≤ 0xBF := by
              split at hhi <;> omega
            split
            · rename_i hc
              intro _
              simp only [isCont_iff] at hc
              obtain ⟨c1, c2, c3, c4⟩ := hc
              have hx : (bn b0 - 0xE0) * 4096 + (bn b1 - 0x80) * 64 + (bn b2 - 0x80) < 0xD800 ∨
                  (0xDFFF < (bn b0 - 0xE0) * 4096 + (bn b1 - 0x80) * 64 + (bn b2 - 0x80) ∧
                   (bn b0 - 0xE0) * 4096 + (bn b1 - 0x80) * 64 + (bn b2 - 0x80) < 0x110000) := by
                omega
              simp only [encodeRune, toNat_ofNat_valid _ hx]
              rw [if_neg (by omega), if_neg (by omega), if_pos (by omega)]
              rw [show 0xE0 + ((bn b0 - 0xE0) * 4096 + (bn b1 - 0x80) * 64 + (bn b2 - 0x80)) / 4096 = bn b0 by omega,
                show 0x80 + ((bn b0 - 0xE0) * 4096 + (bn b1 - 0x80) * 64 + (bn b2 - 0x80)) / 64 % 64 = bn b1 by omega,
                show 0x80 + ((bn b0 - 0xE0) * 4096 + (bn b1 - 0x80) * 64 + (bn b2 - 0x80)) % 64 = bn b2 by omega,
                ofNat_bn, ofNat_bn, ofNat_bn]
              simp
            · simp
        · split
          · rename_i h1 h2 h3 h4
            rcases rest with _ | ⟨b1, _ | ⟨b2, _ | ⟨b3, r3⟩⟩⟩
            · simp
            · simp
            · simp
            · have l1 := bn_lt b1
              have l2 := bn_lt b2
              have l3 := bn_lt b3
              simp only
              generalize hlo : (if bn b0 = 0xF0 then (0x90 : Nat) else 0x80) = lo
              generalize hhi : (if bn b0 = 0xF4 then (0x8F : Nat) else 0xBF) = hi
              have hlo' : (bn b0 = 0xF0 → lo = 0x90) ∧ 0x80 ≤ lo := by
                split at hlo <;> omega
              have hhi' : (bn b0 = 0xF4 → hi = 0x8F) ∧ hi ≤ 0xBF := by
                split at hhi <;> omega
              split
              · rename_i hc
                intro _
                simp only [isCont_iff] at hc
                obtain ⟨c1, c2, ⟨c3, c4⟩, c5, c6⟩ := hc
                have hx : 0xDFFF < (bn b0 - 0xF0) * 262144 + (bn b1 - 0x80) * 4096 + (bn b2 - 0x80) * 64 + (bn b3 - 0x80) ∧
                     (bn b0 - 0xF0) * 262144 + (bn b1 - 0x80) * 4096 + (bn b2 - 0x80) * 64 + (bn b3 - 0x80) < 0x110000 := by
                  omega
                simp only [encodeRune, toNat_ofNat_valid _ (.inr hx)]
                rw [if_neg (by omega), if_neg (by omega), if_neg (by omega)]
                rw [show 0xF0 + ((bn b0 - 0xF0) * 262144 + (bn b1 - 0x80) * 4096 + (bn b2 - 0x80) * 64 + (bn b3 - 0x80)) / 262144 = bn b0 by omega,
                  show 0x80 + ((bn b0 - 0xF0) * 262144 + (bn b1 - 0x80) * 4096 + (bn b2 - 0x80) * 64 + (bn b3 - 0x80)) / 4096 % 64 = bn b1 by omega,
                  show 0x80 + ((bn b0 - 0xF0) * 262144 + (bn b1 - 0x80) * 4096 + (bn b2 - 0x80) * 64 + (bn b3 - 0x80)) / 64 % 64 = bn b2 by omega,
                  show 0x80 + ((bn b0 - 0xF0) * 262144 + (bn b1 - 0x80) * 4096 + (bn b2 - 0x80) * 64 + (bn b3 - 0x80)) % 64 = bn b3 by omega,
                  ofNat_bn, ofNat_bn, ofNat_bn, ofNat_bn]
                simp
              · simp
          · simp

theorem decodeAux_encodeAll (cs : List Char) : ∀ f, (encodeAll cs).length ≤ f → decodeAux f (encodeAll cs) = cs := by
  induction cs with
  | nil => intro f _; cases f <;> simp [encodeAll, decodeAux]
  | cons c cs ih =>
    intro f hf
    have he : encodeAll (c :: cs) = encodeRune c ++ encodeAll cs := by simp [encodeAll]
    have hl := encodeRune_length c
    rw [he] at hf ⊢
    simp only [List.length_append] at hf
    cases f with
    | zero => omega
    | succ f =>
      have hne : encodeRune c ++ encodeAll cs ≠ [] := by
        intro h
        have := congrArg List.length h
        simp only [List.length_append, List.length_nil] at this
        omega
      cases hs : encodeRune c ++ encodeAll cs with
      | nil => exact absurd hs hne
      | cons x xs =>
        rw [← hs]
        have : decodeAux (f + 1) (encodeRune c ++ encodeAll cs) =
            (decodeRune (encodeRune c ++ encodeAll cs)).1 ::
              decodeAux f ((encodeRune c ++ encodeAll cs).drop (decodeRune (encodeRune c ++ encodeAll cs)).2) := by
          rw [hs]; rfl
        rw [this, decode_encode]
        simp only [List.drop_left]
        rw [ih f (by omega)]

/-- Decoding what was encoded from runes gives the runes back. -/
theorem decodeAll_encodeAll (cs : List Char) : decodeAll (encodeAll cs) = cs :=
  decodeAux_encodeAll cs _ (Nat.le_refl _)

/-- All bytes below 128. -/
def Ascii (s : Bytes) : Prop := ∀ x ∈ s, x.toNat < 128

theorem encodeRune_ascii (n : Nat) (h : n < 128) : encodeRune (Char.ofNat n) = [UInt8.ofNat n] := by
  simp [encodeRune, toNat_ofNat_valid n (by omega), h]

theorem ascii_encodeAll (s : Bytes) (h : Ascii s) : encodeAll (s.map fun x => Char.ofNat x.toNat) = s := by
  induction s with
  | nil => rfl
  | cons x xs ih =>
    have hx := h x List.mem_cons_self
    have := ih (fun y hy => h y (List.mem_cons_of_mem _ hy))
    simp only [encodeAll, List.map_cons, List.flatMap_cons] at *
    rw [this, encodeRune_ascii _ hx]
    simp

/-- An ASCII text decodes byte by byte. -/
theorem decodeAll_ascii (s : Bytes) (h : Ascii s) : decodeAll s = s.map fun x => Char.ofNat x.toNat := by
  conv => lhs; rw [← ascii_encodeAll s h]
  exact decodeAll_encodeAll _

end Texted
