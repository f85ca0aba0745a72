import Verif.Lemmas.Lex
/- strconv.Quote and strconv.Unquote. -/
namespace Texted
open Spec

theorem hexDigit_unhex (n : Nat) (h : n < 16) : unhex (hexDigit n) = some n := by
  have : ∀ k : Fin 16, unhex (hexDigit k.val) = some k.val := by decide
  exact this ⟨n, h⟩

theorem hexDigit_ascii (n : Nat) (h : n < 16) :
    (hexDigit n).toNat < 128 ∧ (hexDigit n).toNat ≠ 34 ∧ (hexDigit n).toNat ≠ 92 ∧ (hexDigit n).toNat ≠ 10 ∧ (hexDigit n).toNat ≠ 13 := by
  have : ∀ k : Fin 16, (hexDigit k.val).toNat < 128 ∧ (hexDigit k.val).toNat ≠ 34 ∧ (hexDigit k.val).toNat ≠ 92 ∧
    (hexDigit k.val).toNat ≠ 10 ∧ (hexDigit k.val).toNat ≠ 13 := by decide
  exact this ⟨n, h⟩

/-- The runes of an ASCII text. -/
def asciiChars (s : Bytes) : List Char := s.map fun x => Char.ofNat x.toNat

/-- An escape sequence: backslash, a letter, hex digits. -/
def IsEscape (s : Bytes) : Prop :=
  ∃ e hs, s = 92 :: e :: hs ∧ e.toNat < 128 ∧ e ≠ 10 ∧ e ≠ 13 ∧
    ∀ x ∈ hs, x.toNat < 128 ∧ x.toNat ≠ 34 ∧ x.toNat ≠ 92 ∧ x.toNat ≠ 10 ∧ x.toNat ≠ 13

/-- Text of a string literal: string-body characters without line breaks. -/
def BodyText (s : Bytes) : Prop := ∃ cs, s = encodeAll cs ∧ StrBody cs ∧ (∀ c ∈ cs, c ≠ '\n' ∧ c ≠ '\r')

theorem BodyText.append {a b : Bytes} (ha : BodyText a) (hb : BodyText b) : BodyText (a ++ b) := by
  obtain ⟨cs, h1, h2, h3⟩ := ha
  obtain ⟨ds, k1, k2, k3⟩ := hb
  refine ⟨cs ++ ds, by rw [encodeAll_append, h1, k1], h2.append k2, ?_⟩
  intro c hc
  rcases List.mem_append.1 hc with h | h
  · exact h3 c h
  · exact k3 c h

theorem IsEscape.body {s : Bytes} (h : IsEscape s) : BodyText s := by
  obtain ⟨e, hs, rfl, h1, h2, h2', h3⟩ := h
  have hascii : Ascii (92 :: e :: hs) := by
    intro x hx
    simp only [List.mem_cons] at hx
    rcases hx with rfl | rfl | hx
    · decide
    · exact h1
    · exact (h3 x hx).1
  have hne : ∀ x : UInt8, x.toNat < 128 → ∀ d : Char, x.toNat ≠ d.toNat → Char.ofNat x.toNat ≠ d := by
    intro x hx d hd hc
    apply hd
    rw [← hc, toNat_ofNat_valid _ (by omega)]
  refine ⟨asciiChars (92 :: e :: hs), (ascii_encodeAll _ hascii).symm, ?_, ?_⟩
  · show StrBody ('\\' :: Char.ofNat e.toNat :: hs.map fun x => Char.ofNat x.toNat)
    refine .esc _ _ (StrBody.of_chars ?_)
    intro c hc
    rw [List.mem_map] at hc
    obtain ⟨x, hx, rfl⟩ := hc
    have := h3 x hx
    exact ⟨hne x this.1 '"' this.2.1, hne x this.1 '\\' this.2.2.1⟩
  · intro c hc
    simp only [asciiChars, List.map_cons, List.mem_cons, List.mem_map] at hc
    rcases hc with rfl | rfl | ⟨x, hx, rfl⟩
    · decide
    · constructor
      · apply hne e h1
        intro h; apply h2; rw [← UInt8.toNat_inj]; exact h
      · apply hne e h1
        intro h; apply h2'; rw [← UInt8.toNat_inj]; exact h
    · have := h3 x hx
      exact ⟨hne x this.1 '\n' this.2.2.2.1, hne x this.1 '\r' this.2.2.2.2⟩

theorem hexEscape_isEscape (n : Nat) : IsEscape (hexEscape n) := by
  refine ⟨120, [hexDigit (n / 16 % 16), hexDigit (n % 16)], rfl, by decide, by decide, by decide, ?_⟩
  intro x hx
  simp only [List.mem_cons, List.not_mem_nil, or_false] at hx
  rcases hx with rfl | rfl <;> exact hexDigit_ascii _ (by omega)

theorem unquoteChar_hex (b : UInt8) (rest : Bytes) : unquoteChar (hexEscape b.toNat ++ rest) = some ([b], rest) := by
  have hb := b.toNat_lt
  have h1 : b.toNat / 16 % 16 * 16 + b.toNat % 16 = b.toNat := by omega
  have : hexEscape b.toNat ++ rest = 92 :: 120 :: hexDigit (b.toNat / 16 % 16) :: hexDigit (b.toNat % 16) :: rest := rfl
  rw [this]
  simp [unquoteChar, readHex, hexDigit_unhex _ (show b.toNat / 16 % 16 < 16 by omega),
    hexDigit_unhex _ (show b.toNat % 16 < 16 by omega), h1]

theorem escapeRune_cases [Ext] (c : Char) : (escapeRune c = encodeRune c ∧ c ≠ '"' ∧ c ≠ '\\' ∧ c ≠ '\n' ∧ c ≠ '\r') ∨ IsEscape (escapeRune c) := by
  have hex : ∀ n, n < 16 → _ := hexDigit_ascii
  have hmk : ∀ (e : UInt8), (e.toNat < 128 ∧ e ≠ 10 ∧ e ≠ 13) → ∀ hs : Bytes,
      (∀ x ∈ hs, ∃ n, n < 16 ∧ x = hexDigit n) → IsEscape (92 :: e :: hs) := by
    intro e he hs hh
    refine ⟨e, hs, rfl, he.1, he.2.1, he.2.2, ?_⟩
    intro x hx
    obtain ⟨n, hn, rfl⟩ := hh x hx
    exact hexDigit_ascii n hn
  unfold escapeRune
  split
  · rename_i h
    right
    refine hmk _ ?_ [] (by simp)
    rcases h with h | h <;> rw [h] <;> decide
  · rename_i hq
    split
    · rename_i hp
      left
      refine ⟨rfl, ?_, ?_, ?_, ?_⟩
      · intro h; subst h; exact hq (Or.inl rfl)
      · intro h; subst h; exact hq (Or.inr rfl)
      · intro h; subst h; simp [isPrintRune] at hp
      · intro h; subst h; simp [isPrintRune] at hp
    · right
      unfold escapeNamed escapeNumeric
      repeat' split
      all_goals first
        | exact hmk _ (by decide) [] (by simp)
        | exact hexEscape_isEscape _
        | (refine hmk _ (by decide) _ ?_
           intro x hx
           rcases List.mem_cons.1 hx with rfl | hx
           · exact ⟨_, by omega, rfl⟩
           rcases List.mem_cons.1 hx with rfl | hx
           · exact ⟨_, by omega, rfl⟩
           rcases List.mem_cons.1 hx with rfl | hx
           · exact ⟨_, by omega, rfl⟩
           rcases List.mem_cons.1 hx with rfl | hx
           · exact ⟨_, by omega, rfl⟩
           first
             | exact absurd hx List.not_mem_nil
             | (rcases List.mem_cons.1 hx with rfl | hx
                · exact ⟨_, by omega, rfl⟩
                rcases List.mem_cons.1 hx with rfl | hx
                · exact ⟨_, by omega, rfl⟩
                rcases List.mem_cons.1 hx with rfl | hx
                · exact ⟨_, by omega, rfl⟩
                rcases List.mem_cons.1 hx with rfl | hx
                · exact ⟨_, by omega, rfl⟩
                cases hx))

theorem escapeRune_body [Ext] (c : Char) : BodyText (escapeRune c) := by
  rcases escapeRune_cases c with ⟨h, h1, h2, h3, h4⟩ | h
  · refine ⟨[c], by rw [h, encodeAll_cons, encodeAll_nil, List.append_nil], .char c [] h1 h2 .nil, ?_⟩
    intro d hd
    simp only [List.mem_singleton] at hd
    subst hd; exact ⟨h3, h4⟩
  · exact h.body

theorem encodeRune_head (c : Char) : ∃ x r, encodeRune c = x :: r ∧
    (c.toNat < 128 → x.toNat = c.toNat ∧ r = []) ∧ (128 ≤ c.toNat → 128 ≤ x.toNat) := by
  have hr := char_range c
  unfold encodeRune
  simp only
  have key : ∀ n, n < 256 → (UInt8.ofNat n).toNat = n := by
    intro n h; simp [UInt8.toNat_ofNat']; omega
  split
  · exact ⟨_, _, rfl, fun _ => ⟨key _ (by omega), rfl⟩, fun h => by omega⟩
  · split
    · exact ⟨_, _, rfl, fun h => by omega, fun h => by rw [key _ (by omega)]; omega⟩
    · split
      · exact ⟨_, _, rfl, fun h => by omega, fun h => by rw [key _ (by omega)]; omega⟩
      · exact ⟨_, _, rfl, fun h => by omega, fun h => by rw [key _ (by omega)]; omega⟩

/-- Unquoting an escaped rune yields its encoding. -/
theorem unquoteChar_escape [Ext] (c : Char) (rest : Bytes) :
    unquoteChar (escapeRune c ++ rest) = some (encodeRune c, rest) := by
  have hr := char_range c
  have hc := Char.ofNat_toNat c
  have hv : validRune c.toNat = true := by
    simp only [validRune, Bool.or_eq_true, decide_eq_true_eq, Bool.and_eq_true]; omega
  have hlow : ∀ n, n < 128 → c.toNat = n → encodeRune c = [UInt8.ofNat n] := by
    intro n hn h; rw [← hc, h]; exact encodeRune_ascii n hn
  unfold escapeRune
  split
  · rename_i h
    rcases h with h | h
    · rw [hlow 34 (by omega) h, h]; rfl
    · rw [hlow 92 (by omega) h, h]; rfl
  · rename_i hq
    split
    · rename_i hp
      obtain ⟨x, r, he, ha, hb⟩ := encodeRune_head c
      by_cases h128 : c.toNat < 128
      · obtain ⟨hx, hnil⟩ := ha h128
        subst hnil
        rw [he]
        have x34 : x ≠ 34 := by intro h; subst h; apply hq; left; exact hx.symm
        have x92 : x ≠ 92 := by intro h; subst h; apply hq; right; exact hx.symm
        simp only [List.cons_append, List.nil_append, unquoteChar]
        rw [if_neg x34, if_neg (by omega), if_pos x92]
      · have hx := hb (by omega)
        have x34 : x ≠ 34 := by intro h; subst h; revert hx; decide
        have hd := decode_encode c rest
        rw [he, List.cons_append] at hd ⊢
        simp only [unquoteChar]
        rw [if_neg x34, if_pos hx, hd]
        simp [he]
    · unfold escapeNamed escapeNumeric
      split
      · rename_i h; rw [hlow 7 (by omega) h]; rfl
      · split
        · rename_i h; rw [hlow 8 (by omega) h]; rfl
        · split
          · rename_i h; rw [hlow 12 (by omega) h]; rfl
          · split
            · rename_i h; rw [hlow 10 (by omega) h]; rfl
            · split
              · rename_i h; rw [hlow 13 (by omega) h]; rfl
              · split
                · rename_i h; rw [hlow 9 (by omega) h]; rfl
                · split
                  · rename_i h; rw [hlow 11 (by omega) h]; rfl
                  · split
                    · rename_i h
                      have hn : c.toNat < 128 := by omega
                      rw [hlow c.toNat hn rfl]
                      have : hexEscape c.toNat = hexEscape (UInt8.ofNat c.toNat).toNat := by
                        rw [UInt8.toNat_ofNat', Nat.mod_eq_of_lt (by omega)]
                      rw [this]
                      exact unquoteChar_hex _ _
                    · split
                      · rename_i h
                        generalize hn : c.toNat = n at *
                        have hval : ((n / 4096 % 16 * 16 + n / 256 % 16) * 16 + n / 16 % 16) * 16 + n % 16 = n := by omega
                        simp [unquoteChar, readHex, hexDigit_unhex _ (show n / 4096 % 16 < 16 by omega),
                          hexDigit_unhex _ (show n / 256 % 16 < 16 by omega), hexDigit_unhex _ (show n / 16 % 16 < 16 by omega),
                          hexDigit_unhex _ (show n % 16 < 16 by omega), hval, hv, hc]
                      · rename_i h
                        generalize hn : c.toNat = n at *
                        have hval : ((((n / 1048576 % 16 * 16 + n / 65536 % 16) * 16 + n / 4096 % 16) * 16 + n / 256 % 16) * 16 + n / 16 % 16) * 16 + n % 16 = n := by omega
                        simp [unquoteChar, readHex, hexDigit_unhex 0 (by omega), hexDigit_unhex _ (show n / 1048576 % 16 < 16 by omega),
                          hexDigit_unhex _ (show n / 65536 % 16 < 16 by omega), hexDigit_unhex _ (show n / 4096 % 16 < 16 by omega),
                          hexDigit_unhex _ (show n / 256 % 16 < 16 by omega), hexDigit_unhex _ (show n / 16 % 16 < 16 by omega),
                          hexDigit_unhex _ (show n % 16 < 16 by omega), hval, hv, hc]

theorem unquoteLoop_step (f : Nat) (a out rest : Bytes) (h1 : unquoteChar (a ++ rest) = some (out, rest))
    (h2 : ∃ x r, a = x :: r ∧ x ≠ 34 ∧ x ≠ 10) :
    unquoteLoop (f + 1) (a ++ rest) = (unquoteLoop f rest).map fun p => (out ++ p.1, p.2) := by
  obtain ⟨x, r, rfl, h34, h10⟩ := h2
  rw [List.cons_append] at h1 ⊢
  rw [unquoteLoop, if_neg h34, if_neg h10, h1]
  simp only
  cases unquoteLoop f rest with
  | none => rfl
  | some p => rfl

theorem escape_head {s : Bytes} (h : IsEscape s) : ∃ x r, s = x :: r ∧ x ≠ 34 ∧ x ≠ 10 := by
  obtain ⟨e, hs, rfl, _⟩ := h
  exact ⟨92, e :: hs, rfl, by decide, by decide⟩

theorem escapeRune_head [Ext] (c : Char) : ∃ x r, escapeRune c = x :: r ∧ x ≠ 34 ∧ x ≠ 10 := by
  rcases escapeRune_cases c with ⟨h, h1, _, h3, _⟩ | h
  · obtain ⟨x, r, he, ha, hb⟩ := encodeRune_head c
    refine ⟨x, r, by rw [h, he], ?_, ?_⟩
    · rintro rfl
      by_cases h128 : c.toNat < 128
      · exact h1 (char_eq_of_toNat (ha h128).1.symm)
      · have := hb (by omega); revert this; decide
    · rintro rfl
      by_cases h128 : c.toNat < 128
      · exact h3 (char_eq_of_toNat (ha h128).1.symm)
      · have := hb (by omega); revert this; decide
  · exact escape_head h

theorem quoteBody_spec [Ext] (f : Nat) : ∀ s : Bytes, s.length ≤ f →
    BodyText (quoteBody f s) ∧
      ∀ F, (quoteBody f s).length < F → unquoteLoop F (quoteBody f s ++ [34]) = some (s, []) := by
  have hnil : BodyText [] ∧ ∀ F, ([] : Bytes).length < F → unquoteLoop F ([] ++ [34]) = some ([], []) := by
    refine ⟨⟨[], rfl, .nil, by simp⟩, ?_⟩
    intro F hF
    cases F with
    | zero => simp at hF
    | succ F => rfl
  induction f with
  | zero =>
    intro s hs
    have : s = [] := List.length_eq_zero_iff.1 (by omega)
    subst this
    exact hnil
  | succ f ih =>
    intro s hs
    cases s with
    | nil => exact hnil
    | cons b0 rest =>
      simp only [List.length_cons] at hs
      have stepLemma : ∀ (a out t : Bytes), BodyText a → (∃ x r, a = x :: r ∧ x ≠ 34 ∧ x ≠ 10) →
          (∀ r, unquoteChar (a ++ r) = some (out, r)) → t.length ≤ f →
          BodyText (a ++ quoteBody f t) ∧ ∀ F, (a ++ quoteBody f t).length < F →
            unquoteLoop F (a ++ quoteBody f t ++ [34]) = some (out ++ t, []) := by
        intro a out t hb hh hu ht
        have := ih t ht
        refine ⟨hb.append this.1, ?_⟩
        intro F hF
        cases F with
        | zero => omega
        | succ F =>
          rw [List.append_assoc, unquoteLoop_step F a out _ (hu _) hh, this.2 F ?_]
          · rfl
          · obtain ⟨x, r, rfl, _⟩ := hh
            simp only [List.length_append, List.length_cons] at hF; omega
      rw [quoteBody]
      split
      · have := stepLemma (hexEscape b0.toNat) [b0] rest (hexEscape_isEscape _).body (escape_head (hexEscape_isEscape _))
          (unquoteChar_hex b0) (by omega)
        simpa using this
      · rename_i hbad
        obtain ⟨h1, h2, h3⟩ := encode_decode (b0 :: rest) (by simp) hbad
        generalize hp : decodeRune (b0 :: rest) = p at *
        have := stepLemma (escapeRune p.1) (encodeRune p.1) ((b0 :: rest).drop p.2) (escapeRune_body _) (escapeRune_head _)
          (unquoteChar_escape p.1) (by simp only [List.length_drop, List.length_cons]; omega)
        rw [h1, List.take_append_drop] at this
        exact this

/-- Reading a quoted string back. -/
theorem unquote_quote [Ext] (s : Bytes) : unquote (quote s) = some s := by
  have h := (quoteBody_spec s.length s (Nat.le_refl _)).2 _ (Nat.lt_succ_of_le (Nat.le_succ _))
  unfold unquote quote
  simp only [List.cons_append, List.nil_append]
  have hl : (quoteBody s.length s ++ [34]).length + 1 = ((quoteBody s.length s).length + 1).succ := by simp
  rw [hl, h]

/-- The text of a literal. -/
theorem quote_text [Ext] (s : Bytes) : ∃ cs, quote s = encodeAll ('"' :: (cs ++ ['"'])) ∧ StrBody cs ∧ (∀ c ∈ cs, c ≠ '\n' ∧ c ≠ '\r') := by
  obtain ⟨cs, h1, h2, h3⟩ := (quoteBody_spec s.length s (Nat.le_refl _)).1
  refine ⟨cs, ?_, h2, h3⟩
  rw [quote, h1, encodeAll_cons, encodeAll_append]
  rfl

end Texted
