import Verif.Spec.JsonText
import Verif.Lemmas.JsonRead
import Verif.Lemmas.NumberText
/-
encoding/json reads exactly the texts of Spec/JsonText.
-/
namespace Texted
open Spec

/-! ### Hexadecimal digits -/

theorem unhex_iff (c : UInt8) (d : Nat) : unhex c = some d ↔ digit? (Char.ofNat c.toNat) = some d := by
  have h : ∀ n, n < 256 → unhex (UInt8.ofNat n) = digit? (Char.ofNat n) := by decide +kernel
  have h1 := h c.toNat c.toNat_lt
  rw [UInt8.ofNat_toNat] at h1
  rw [h1]

theorem unhex_lt16 {c : UInt8} {d : Nat} (h : unhex c = some d) : d < 16 := by
  simp only [unhex] at h
  repeat' split at h
  all_goals first | (cases h; omega) | cases h

theorem isDigit16 (c : UInt8) : IsDigit 16 c ↔ ∃ d, unhex c = some d := by
  constructor
  · rintro ⟨d, h, _⟩; exact ⟨d, (unhex_iff c d).2 h⟩
  · rintro ⟨d, h⟩; exact ⟨d, (unhex_iff c d).1 h, unhex_lt16 h⟩

theorem readHex_bytes (n : Nat) : ∀ (s : Bytes) (v w : Nat) (rest : Bytes), readHex n s v = some (w, rest) ↔
    ∃ h, s = h ++ rest ∧ h.length = n ∧ (∀ c ∈ h, IsDigit 16 c) ∧
      w = (h.map fun c => Char.ofNat c.toNat).foldl (fun v c => v * 16 + (digit? c).getD 0) v := by
  induction n with
  | zero =>
    intro s v w rest
    simp only [readHex, Option.some.injEq, Prod.mk.injEq]
    constructor
    · rintro ⟨rfl, rfl⟩; exact ⟨[], rfl, rfl, fun c hc => (nomatch hc), rfl⟩
    · rintro ⟨h, rfl, hl, _, rfl⟩
      cases List.length_eq_zero_iff.1 hl
      exact ⟨rfl, rfl⟩
  | succ n ih =>
    intro s v w rest
    cases s with
    | nil =>
      simp only [readHex, reduceCtorEq, false_iff]
      rintro ⟨h, h1, h2, _⟩
      cases (List.append_eq_nil_iff.1 h1.symm).1
      cases h2
    | cons c s =>
      rw [readHex]
      cases hc : unhex c with
      | none =>
        simp only [reduceCtorEq, false_iff]
        rintro ⟨h, h1, h2, h3, _⟩
        cases h with
        | nil => cases h2
        | cons a h =>
          cases h1
          obtain ⟨d, hd⟩ := (isDigit16 c).1 (h3 c (by simp))
          rw [hd] at hc; cases hc
      | some d =>
        simp only
        rw [ih]
        have hd : (digit? (Char.ofNat c.toNat)).getD 0 = d := by rw [(unhex_iff c d).1 hc]; rfl
        constructor
        · rintro ⟨h, rfl, h2, h3, h4⟩
          refine ⟨c :: h, rfl, by simp [h2], ?_, ?_⟩
          · intro x hx
            rcases List.mem_cons.1 hx with rfl | hx
            · exact (isDigit16 _).2 ⟨d, hc⟩
            · exact h3 x hx
          · rw [List.map_cons, List.foldl_cons, hd]; exact h4
        · rintro ⟨h, h1, h2, h3, h4⟩
          cases h with
          | nil => cases h2
          | cons a h =>
            cases h1
            refine ⟨h, rfl, by simpa using h2, fun x hx => h3 x (by simp [hx]), ?_⟩
            rw [List.map_cons, List.foldl_cons, hd] at h4; exact h4

theorem readHex_hex4 (s : Bytes) (n : Nat) (rest : Bytes) : readHex 4 s 0 = some (n, rest) ↔ ∃ h, s = h ++ rest ∧ Hex4 h n := by
  rw [readHex_bytes]; rfl

theorem hex4_no_quote {h : Bytes} {n : Nat} (hh : Hex4 h n) : (34 : UInt8) ∉ h := by
  intro hm
  obtain ⟨d, hd⟩ := (isDigit16 _).1 (hh.2.1 _ hm)
  rw [show unhex 34 = none from by decide] at hd
  cases hd

/-- Two ways to split around the first quote. -/
theorem prefix_of_quote {a b r rest : Bytes} (h : a ++ r = b ++ 34 :: rest) (ha : (34 : UInt8) ∉ a) : ∃ r', b = a ++ r' ∧ r = r' ++ 34 :: rest := by
  rcases List.append_eq_append_iff.1 h with ⟨c, h1, h2⟩ | ⟨c, h1, h2⟩
  · exact ⟨c, h1, h2⟩
  · cases c with
    | nil => simp at h1 h2; exact ⟨[], by simp [h1], by simp [h2]⟩
    | cons x c =>
      rw [List.cons_append, List.cons.injEq] at h2
      obtain ⟨rfl, _⟩ := h2
      exact absurd (by rw [h1]; simp) ha

/-! ### Strings -/

theorem decode_bad' {b : UInt8} {s : Bytes} : (∀ c r, b :: s ≠ encodeRune c ++ r) ↔ (decodeRune (b :: s)).2 = 1 ∧ (decodeRune (b :: s)).1 = runeError := by
  constructor
  · intro h
    refine Decidable.byContradiction fun hn => ?_
    obtain ⟨h1, _, _⟩ := encode_decode (b :: s) (by simp) hn
    refine h (decodeRune (b :: s)).1 ((b :: s).drop (decodeRune (b :: s)).2) ?_
    rw [h1, List.take_append_drop]
  · rintro ⟨h1, h2⟩ c r h
    rw [h, decode_encode] at h1 h2
    subst h2
    exact absurd h1 (by decide)

theorem encodeRune_no_quote {c : Char} (h : c ≠ '"') : (34 : UInt8) ∉ encodeRune c := by
  have hr := char_range c
  have key : ∀ n, n < 256 → (34 : UInt8) = UInt8.ofNat n → n = 34 := by decide +kernel
  have hn : c.toNat ≠ 34 := fun e => h (Char.toNat_inj.1 e)
  unfold encodeRune
  simp only
  split
  · intro hm; simp only [List.mem_cons, List.not_mem_nil, or_false] at hm; exact hn (key _ (by omega) hm)
  · split
    · intro hm; simp only [List.mem_cons, List.not_mem_nil, or_false] at hm
      rcases hm with hm | hm <;> have := key _ (by omega) hm <;> omega
    · split
      · intro hm; simp only [List.mem_cons, List.not_mem_nil, or_false] at hm
        rcases hm with hm | hm | hm <;> have := key _ (by omega) hm <;> omega
      · intro hm; simp only [List.mem_cons, List.not_mem_nil, or_false] at hm
        rcases hm with hm | hm | hm | hm <;> have := key _ (by omega) hm <;> omega

/-- What `jsonU` reads. -/
theorem jsonU_cases {s : Bytes} {c : Char} {r : Bytes} (h : jsonU s = some (c, r)) :
    (∃ g n, s = g ++ r ∧ Hex4 g n ∧ ¬ HighHalf n ∧ ¬ LowHalf n ∧ c = Char.ofNat n) ∨
    (∃ g l hi lo, s = g ++ 92 :: 117 :: (l ++ r) ∧ Hex4 g hi ∧ HighHalf hi ∧ Hex4 l lo ∧ LowHalf lo ∧
      c = Char.ofNat ((hi - 0xD800) * 0x400 + (lo - 0xDC00) + 0x10000)) ∨
    (∃ g n, s = g ++ r ∧ Hex4 g n ∧ (HighHalf n ∨ LowHalf n) ∧
      ¬ (HighHalf n ∧ ∃ l r' lo, r = 92 :: 117 :: (l ++ r') ∧ Hex4 l lo ∧ LowHalf lo) ∧ c = runeError) := by
  unfold jsonU at h
  split at h
  · cases h
  · rename_i hi q hq
    obtain ⟨g, rfl, hg⟩ := (readHex_hex4 _ _ _).1 hq
    split at h
    · rename_i hsur
      have hs : HighHalf hi ∨ LowHalf hi := by
        simp only [isSurrogate, Bool.and_eq_true, decide_eq_true_eq] at hsur
        unfold HighHalf LowHalf; omega
      split at h
      · rename_i r'
        split at h
        · rename_i lo r'' hlo
          obtain ⟨l, rfl, hl⟩ := (readHex_hex4 _ _ _).1 hlo
          split at h
          · rename_i hc
            simp only [Option.some.injEq, Prod.mk.injEq] at h
            obtain ⟨hcc, rfl⟩ := h
            refine Or.inr (Or.inl ⟨g, l, hi, lo, rfl, hg, ?_, hl, hc.2, hcc.symm⟩)
            rcases hs with hs | hs
            · exact hs
            · have := hs.1; omega
          · rename_i hc
            cases h
            refine Or.inr (Or.inr ⟨g, hi, rfl, hg, hs, ?_, rfl⟩)
            rintro ⟨h1, l', r3, lo', h2, h3, h4⟩
            simp only [List.cons.injEq, true_and] at h2
            have e1 := (readHex_hex4 (l ++ r'') lo' r3).2 ⟨l', h2, h3⟩
            rw [hlo] at e1
            cases e1
            exact hc ⟨h1.2, h4⟩
        · rename_i hlo
          cases h
          refine Or.inr (Or.inr ⟨g, hi, rfl, hg, hs, ?_, rfl⟩)
          rintro ⟨h1, l', r3, lo', h2, h3, h4⟩
          simp only [List.cons.injEq, true_and] at h2
          rw [(readHex_hex4 r' lo' r3).2 ⟨l', h2, h3⟩] at hlo
          cases hlo
      · rename_i hno
        cases h
        refine Or.inr (Or.inr ⟨g, hi, rfl, hg, hs, ?_, rfl⟩)
        rintro ⟨h1, l', r3, lo', h2, h3, h4⟩
        exact hno _ h2
    · rename_i hsur
      cases h
      refine Or.inl ⟨g, hi, rfl, hg, ?_, ?_, rfl⟩ <;>
        (simp only [isSurrogate, Bool.and_eq_true, decide_eq_true_eq] at hsur; first | (unfold HighHalf; omega) | (unfold LowHalf; omega))

/-- The function `jsonChar`, unfolded. -/
theorem jsonChar_cons (c : UInt8) (s : Bytes) : jsonChar (c :: s) =
    if c = 92 then
      match s with
      | [] => none
      | e :: s =>
        if e = 34 ∨ e = 92 ∨ e = 47 then some ([e], s)
        else if e = 98 then some ([8], s)
        else if e = 102 then some ([12], s)
        else if e = 110 then some ([10], s)
        else if e = 114 then some ([13], s)
        else if e = 116 then some ([9], s)
        else if e = 117 then
          match jsonU s with
          | some (r, s) => some (encodeRune r, s)
          | none => none
        else none
    else if c.toNat < 32 then none
    else if c.toNat < 128 then some ([c], s)
    else let p := decodeRune (c :: s); some (encodeRune p.1, (c :: s).drop p.2) := rfl

theorem runeError_eq : runeError = '\uFFFD' := by decide

theorem jsonStr_sound : ∀ (f : Nat) (s t r : Bytes), jsonStr f s = some (t, r) → ∃ b, s = b ++ 34 :: r ∧ StringBody b t
  | 0, s, t, r, h => by simp [jsonStr] at h
  | f + 1, [], t, r, h => by simp [jsonStr] at h
  | f + 1, c :: s, t, r, h => by
    rw [jsonStr] at h
    split at h
    · rename_i hc; cases h; subst hc; exact ⟨[], rfl, .nil⟩
    · rename_i hq
      split at h
      · cases h
      · rename_i out q hch
        split at h
        · cases h
        · rename_i more rest hm
          cases h
          obtain ⟨b, rfl, hb⟩ := jsonStr_sound f _ _ _ hm
          rw [jsonChar_cons] at hch
          split at hch
          · rename_i hc; subst hc
            split at hch
            · cases hch
            · rename_i e s
              have simple : ∀ (e' c' : Char), (e', c') ∈ jsonEscapes → e = ch e' → some ([ch c'], s) = some (out, b ++ 34 :: r) →
                  ∃ b0, (92 :: e :: s : Bytes) = b0 ++ 34 :: r ∧ StringBody b0 (out ++ more) := by
                intro e' c' h1 h2 h3
                cases h3; subst h2
                exact ⟨92 :: ch e' :: b, rfl, .escape h1 hb⟩
              split at hch
              · rename_i he
                rcases he with rfl | rfl | rfl
                · exact simple '"' '"' (by decide) (by decide) hch
                · exact simple '\\' '\\' (by decide) (by decide) hch
                · exact simple '/' '/' (by decide) (by decide) hch
              split at hch
              · rename_i he; exact simple 'b' '\x08' (by decide) he hch
              split at hch
              · rename_i he; exact simple 'f' '\x0c' (by decide) he hch
              split at hch
              · rename_i he; exact simple 'n' '\n' (by decide) he hch
              split at hch
              · rename_i he; exact simple 'r' '\r' (by decide) he hch
              split at hch
              · rename_i he; exact simple 't' '\t' (by decide) he hch
              split at hch
              · rename_i he; subst he
                split at hch
                · rename_i c q' hu
                  cases hch
                  rcases jsonU_cases hu with ⟨g, n, rfl, h1, h2, h3, rfl⟩ | ⟨g, l, hi, lo, rfl, h1, h2, h3, h4, hcc⟩ | ⟨g, n, rfl, h1, h2, h3, rfl⟩
                  · exact ⟨92 :: 117 :: (g ++ b), by simp, .unicode h1 h2 h3 hb⟩
                  · rw [hcc]; exact ⟨92 :: 117 :: (g ++ 92 :: 117 :: (l ++ b)), by simp, .pair h1 h2 h3 h4 hb⟩
                  · rw [runeError_eq]
                    refine ⟨92 :: 117 :: (g ++ b), by simp, .lone h1 h2 ?_ hb⟩
                    rintro ⟨e1, l, r', lo, e2, e3, e4⟩
                    refine h3 ⟨e1, l, r' ++ 34 :: r, lo, ?_, e3, e4⟩
                    rw [e2]
                    change 92 :: 117 :: (l ++ r') ++ 34 :: r = _
                    simp
                · cases hch
              · cases hch
          · rename_i hbs
            split at hch
            · cases hch
            · rename_i h32
              split at hch
              · rename_i h128
                cases hch
                refine ⟨c :: b, rfl, ?_⟩
                have he := encodeRune_ascii c.toNat h128
                rw [UInt8.ofNat_toNat] at he
                have := StringBody.char (s := b) (t := more) (Char.ofNat c.toNat) ?_ ?_ ?_ hb
                · rwa [he] at this
                · rw [toNat_ofNat_valid _ (by omega)]; omega
                · intro e; apply hq; have := congrArg Char.toNat e; rw [toNat_ofNat_valid _ (by omega)] at this
                  exact UInt8.toNat_inj.1 this
                · intro e; apply hbs; have := congrArg Char.toNat e; rw [toNat_ofNat_valid _ (by omega)] at this
                  exact UInt8.toNat_inj.1 this
              · rename_i h128
                simp only [Option.some.injEq, Prod.mk.injEq] at hch
                obtain ⟨rfl, hdrop⟩ := hch
                by_cases hbad : (decodeRune (c :: s)).2 = 1 ∧ (decodeRune (c :: s)).1 = runeError
                · rw [hbad.1] at hdrop
                  simp only [List.drop_succ_cons, List.drop_zero] at hdrop
                  subst hdrop
                  rw [hbad.2, runeError_eq]
                  refine ⟨c :: b, rfl, .bad ?_ hb⟩
                  intro c' r' e
                  exact decode_bad'.2 hbad c' (r' ++ 34 :: r) (by rw [← List.append_assoc, ← e]; rfl)
                · obtain ⟨h1, h2, h3⟩ := encode_decode (c :: s) (by simp) hbad
                  refine ⟨encodeRune (decodeRune (c :: s)).1 ++ b, ?_, ?_⟩
                  · rw [List.append_assoc, ← hdrop, h1, List.take_append_drop]
                  · obtain ⟨x, r', e1, e2, e3⟩ := encodeRune_head (decodeRune (c :: s)).1
                    have hx : x = c := by
                      have := e1.symm.trans h1
                      cases hn : (decodeRune (c :: s)).2 with
                      | zero => omega
                      | succ k => rw [hn] at this; simp at this; exact this.1
                    have hwide : 128 ≤ (decodeRune (c :: s)).1.toNat := by
                      refine Decidable.byContradiction fun hlt => ?_
                      have := (e2 (by omega)).1
                      rw [hx] at this
                      omega
                    refine .char _ (by omega) ?_ ?_ hb
                    · intro e; rw [e] at hwide; exact absurd hwide (by decide)
                    · intro e; rw [e] at hwide; exact absurd hwide (by decide)

theorem jsonU_of {s : Bytes} {c : Char} {r : Bytes}
    (h : (∃ g n, s = g ++ r ∧ Hex4 g n ∧ ¬ HighHalf n ∧ ¬ LowHalf n ∧ c = Char.ofNat n) ∨
    (∃ g l hi lo, s = g ++ 92 :: 117 :: (l ++ r) ∧ Hex4 g hi ∧ HighHalf hi ∧ Hex4 l lo ∧ LowHalf lo ∧
      c = Char.ofNat ((hi - 0xD800) * 0x400 + (lo - 0xDC00) + 0x10000)) ∨
    (∃ g n, s = g ++ r ∧ Hex4 g n ∧ (HighHalf n ∨ LowHalf n) ∧
      ¬ (HighHalf n ∧ ∃ l r' lo, r = 92 :: 117 :: (l ++ r') ∧ Hex4 l lo ∧ LowHalf lo) ∧ c = runeError)) : jsonU s = some (c, r) := by
  have sur : ∀ n, isSurrogate n = true ↔ HighHalf n ∨ LowHalf n := by
    intro n; simp only [isSurrogate, Bool.and_eq_true, decide_eq_true_eq]; unfold HighHalf LowHalf; omega
  rcases h with ⟨g, n, rfl, h1, h2, h3, rfl⟩ | ⟨g, l, hi, lo, rfl, h1, h2, h3, h4, hcc⟩ | ⟨g, n, rfl, h1, h2, h3, rfl⟩
  · rw [jsonU, (readHex_hex4 _ n _).2 ⟨g, rfl, h1⟩]
    simp only
    rw [if_neg]
    rw [sur]; exact fun h => h.elim h2 h3
  · rw [jsonU, (readHex_hex4 _ hi _).2 ⟨g, rfl, h1⟩]
    simp only
    rw [if_pos ((sur hi).2 (Or.inl h2)), (readHex_hex4 _ lo _).2 ⟨l, rfl, h3⟩]
    simp only
    rw [if_pos ⟨h2.2, h4⟩, hcc]
  · rw [jsonU, (readHex_hex4 _ n _).2 ⟨g, rfl, h1⟩]
    simp only
    rw [if_pos ((sur n).2 h2)]
    split
    · rename_i r'
      split
      · rename_i lo r'' hlo
        rw [if_neg]
        rintro ⟨e1, e2⟩
        obtain ⟨l, e3, e4⟩ := (readHex_hex4 _ _ _).1 hlo
        refine h3 ⟨⟨?_, e1⟩, l, r'', lo, by rw [e3], e4, e2⟩
        rcases h2 with h2 | h2
        · exact h2.1
        · have := h2.1; omega
      · rfl
    · rfl

theorem jsonStr_complete {b t : Bytes} (h : StringBody b t) (rest : Bytes) : ∀ f, b.length < f → jsonStr f (b ++ 34 :: rest) = some (t, rest) := by
  -- one character: the first byte is no quote, and `jsonChar` reads it
  have step : ∀ (x : UInt8) (p s out t : Bytes), x ≠ 34 → jsonChar ((x :: p) ++ (s ++ 34 :: rest)) = some (out, s ++ 34 :: rest) →
      (∀ f, s.length < f → jsonStr f (s ++ 34 :: rest) = some (t, rest)) →
      ∀ f, ((x :: p) ++ s).length < f → jsonStr f ((x :: p) ++ s ++ 34 :: rest) = some (out ++ t, rest) := by
    intro x p s out t hx hch ih f hf
    cases f with
    | zero => omega
    | succ f =>
      rw [List.append_assoc, List.cons_append, jsonStr, if_neg hx]
      rw [List.cons_append] at hch
      rw [hch]
      simp only
      rw [ih f (by rw [List.length_append, List.length_cons] at hf; omega)]
  induction h with
  | nil =>
    intro f hf
    cases f with
    | zero => omega
    | succ f => simp [jsonStr]
  | @char s t c h1 h2 h3 _ ih =>
    obtain ⟨x, p, he, ha, hb⟩ := encodeRune_head c
    have hx34 : x ≠ 34 := by
      rintro rfl
      exact encodeRune_no_quote h2 (by rw [he]; simp)
    rw [he]
    refine step x p s (x :: p) t hx34 ?_ ih
    rw [List.cons_append, jsonChar_cons]
    by_cases hlt : c.toNat < 128
    · obtain ⟨e1, e2⟩ := ha hlt
      have hx92 : x ≠ 92 := by
        rintro rfl
        exact h3 (Char.toNat_inj.1 (by rw [← e1]; rfl))
      rw [if_neg hx92, if_neg (by omega), if_pos (by omega), e2]
      rfl
    · have hw := hb (by omega)
      have hx92 : x ≠ 92 := by rintro rfl; exact absurd hw (by decide)
      rw [if_neg hx92, if_neg (by omega), if_neg (by omega)]
      have hd := decode_encode c (s ++ 34 :: rest)
      rw [he, List.cons_append] at hd
      simp only [hd]
      rw [he, ← List.cons_append, List.drop_left']
      rfl
  | @bad b s t h1 _ ih =>
    have hb := decode_bad'.1 h1
    have hwide : 128 ≤ b.toNat := by
      refine Decidable.byContradiction fun hlt => ?_
      have he := encodeRune_ascii b.toNat (by omega)
      rw [UInt8.ofNat_toNat] at he
      exact h1 (Char.ofNat b.toNat) s (by rw [he]; rfl)
    refine step b [] s _ t (by rintro rfl; exact absurd hwide (by decide)) ?_ ih
    rw [List.cons_append, List.nil_append, jsonChar_cons, if_neg (by rintro rfl; exact absurd hwide (by decide)), if_neg (by omega), if_neg (by omega)]
    have hb' : (decodeRune (b :: (s ++ 34 :: rest))).2 = 1 ∧ (decodeRune (b :: (s ++ 34 :: rest))).1 = runeError := by
      refine decode_bad'.1 ?_
      intro c r e
      have hc : c ≠ '"' := by
        rintro rfl
        have : b = 34 := by
          have := congrArg List.head? e
          rw [show encodeRune '"' = [34] from by decide] at this
          simpa using this
        rw [this] at hwide; exact absurd hwide (by decide)
      obtain ⟨r', e1, _⟩ := prefix_of_quote (b := b :: s) e.symm (encodeRune_no_quote hc)
      exact h1 c r' e1
    simp only [hb'.1, hb'.2, runeError_eq]
    rfl
  | @escape e c s t h1 _ ih =>
    refine step 92 [ch e] s [ch c] t (by decide) ?_ ih
    simp only [jsonEscapes, List.mem_cons, Prod.mk.injEq, List.not_mem_nil, or_false] at h1
    rcases h1 with ⟨rfl, rfl⟩ | ⟨rfl, rfl⟩ | ⟨rfl, rfl⟩ | ⟨rfl, rfl⟩ | ⟨rfl, rfl⟩ | ⟨rfl, rfl⟩ | ⟨rfl, rfl⟩ | ⟨rfl, rfl⟩ <;> rfl
  | @unicode g s t n h1 h2 h3 _ ih =>
    refine step 92 (117 :: g) s _ t (by decide) ?_ ih
    have := jsonU_of (c := Char.ofNat n) (r := s ++ 34 :: rest) (Or.inl ⟨g, n, rfl, h1, h2, h3, rfl⟩)
    change jsonChar (92 :: 117 :: (g ++ (s ++ 34 :: rest))) = _
    rw [jsonChar_cons, if_pos rfl]
    simp only
    rw [if_neg (by decide), if_neg (by decide), if_neg (by decide), if_neg (by decide), if_neg (by decide), if_neg (by decide), if_pos trivial, this]
  | @pair g l s t hi lo h1 h2 h3 h4 _ ih =>
    have hs := step 92 (117 :: (g ++ 92 :: 117 :: l)) s (encodeRune (Char.ofNat ((hi - 0xD800) * 0x400 + (lo - 0xDC00) + 0x10000))) t (by decide) ?_ ih
    · have e : (92 :: 117 :: (g ++ 92 :: 117 :: l)) ++ s = ch '\\' :: ch 'u' :: (g ++ ch '\\' :: ch 'u' :: (l ++ s)) := by
        simp; exact ⟨by decide, by decide, by decide, by decide⟩
      rw [e] at hs
      exact hs
    · have := jsonU_of (s := g ++ 92 :: 117 :: (l ++ (s ++ 34 :: rest))) (r := s ++ 34 :: rest)
        (c := Char.ofNat ((hi - 0xD800) * 0x400 + (lo - 0xDC00) + 0x10000)) (Or.inr (Or.inl ⟨g, l, hi, lo, rfl, h1, h2, h3, h4, rfl⟩))
      rw [show (92 :: 117 :: (g ++ 92 :: 117 :: l)) ++ (s ++ 34 :: rest) = 92 :: 117 :: (g ++ 92 :: 117 :: (l ++ (s ++ 34 :: rest))) by simp]
      rw [jsonChar_cons, if_pos rfl]
      simp only
      rw [if_neg (by decide), if_neg (by decide), if_neg (by decide), if_neg (by decide), if_neg (by decide), if_neg (by decide), if_pos trivial, this]
  | @lone g s t n h1 h2 h3 _ ih =>
    refine step 92 (117 :: g) s _ t (by decide) ?_ ih
    have := jsonU_of (s := g ++ (s ++ 34 :: rest)) (c := runeError) (r := s ++ 34 :: rest) (Or.inr (Or.inr ⟨g, n, rfl, h1, h2, ?_, rfl⟩))
    · change jsonChar (92 :: 117 :: (g ++ (s ++ 34 :: rest))) = _
      rw [jsonChar_cons, if_pos rfl]
      simp only
      rw [if_neg (by decide), if_neg (by decide), if_neg (by decide), if_neg (by decide), if_neg (by decide), if_neg (by decide), if_pos trivial, this,
        runeError_eq]
    · rintro ⟨e1, l, r', lo, e2, e3, e4⟩
      obtain ⟨r2, e5, _⟩ := prefix_of_quote (a := 92 :: 117 :: l) (r := r') (b := s) (rest := rest) (by rw [e2]; simp)
        (by simp only [List.mem_cons, not_or]; exact ⟨by decide, by decide, hex4_no_quote e3⟩)
      exact h3 ⟨e1, l, r2, lo, by rw [e5]; rfl, e3, e4⟩

/-! ### Numbers -/

theorem isDigit10 (c : UInt8) : isDigit c = true ↔ IsDigit 10 c := by
  have h : ∀ n, n < 256 → isDigit (UInt8.ofNat n) = (digit? (Char.ofNat n)).any (fun d => decide (d < 10)) := by decide +kernel
  have h1 := h c.toNat c.toNat_lt
  rw [UInt8.ofNat_toNat] at h1
  rw [h1, Option.any_eq_true]
  simp only [decide_eq_true_eq]
  rfl

theorem takeDigits (d rest : Bytes) (hd : ∀ c ∈ d, IsDigit 10 c) (hr : ∀ c ∈ rest.head?, isDigit c = false) :
    (d ++ rest).takeWhile isDigit = d ∧ (d ++ rest).dropWhile isDigit = rest := by
  induction d with
  | nil =>
    cases rest with
    | nil => exact ⟨rfl, rfl⟩
    | cons c r => have := hr c (by simp); simp [this]
  | cons x d ih =>
    obtain ⟨h1, h2⟩ := ih fun c hc => hd c (by simp [hc])
    have hx : isDigit x = true := (isDigit10 x).2 (hd x (by simp))
    simp [hx, h1, h2]

theorem digits1_iff {s d r : Bytes} (h : digits1 s = some (d, r)) : s = d ++ r ∧ Digits d := by
  unfold digits1 at h
  split at h
  · cases h
  · rename_i hne
    cases h
    refine ⟨(List.takeWhile_append_dropWhile).symm, hne, ?_⟩
    intro c hc
    exact (isDigit10 c).1 (List.all_eq_true.1 List.all_takeWhile c hc)

theorem digits1_of {d rest : Bytes} (hd : Digits d) (hr : ∀ c ∈ rest.head?, isDigit c = false) : digits1 (d ++ rest) = some (d, rest) := by
  obtain ⟨h1, h2⟩ := takeDigits d rest hd.2 hr
  unfold digits1
  rw [h1, h2, if_neg hd.1]

theorem jsonInt_iff {s i r : Bytes} (h : jsonInt s = some (i, r)) : s = i ++ r ∧ WholePart i := by
  cases s with
  | nil => cases h
  | cons c s =>
    rw [jsonInt] at h
    split at h
    · rename_i hc; cases h; subst hc; exact ⟨rfl, Or.inl rfl⟩
    · rename_i hc
      obtain ⟨h1, h2⟩ := digits1_iff h
      refine ⟨h1, Or.inr ⟨h2, ?_⟩⟩
      cases i with
      | nil => exact absurd rfl h2.1
      | cons x i => cases h1; intro e; cases e; exact hc rfl

theorem jsonInt_of {i rest : Bytes} (hi : WholePart i) (hr : ∀ c ∈ rest.head?, isDigit c = false) : jsonInt (i ++ rest) = some (i, rest) := by
  rcases hi with rfl | ⟨h1, h2⟩
  · rfl
  · cases i with
    | nil => exact absurd rfl h1.1
    | cons c i =>
      have hc : c ≠ 48 := by rintro rfl; exact h2 rfl
      rw [List.cons_append, jsonInt, if_neg hc]
      exact digits1_of h1 hr

theorem jsonFrac_iff {s i r : Bytes} (h : jsonFrac s = some (i, r)) : s = i ++ r ∧ FractionPart i := by
  unfold jsonFrac at h
  split at h
  · split at h
    · rename_i d r' hd
      cases h
      obtain ⟨rfl, h2⟩ := digits1_iff hd
      exact ⟨rfl, Or.inr ⟨d, rfl, h2⟩⟩
    · cases h
  · cases h; exact ⟨rfl, Or.inl rfl⟩

theorem jsonFrac_of {i rest : Bytes} (hi : FractionPart i) (hr : ∀ c ∈ rest.head?, isDigit c = false ∧ c ≠ 46) : jsonFrac (i ++ rest) = some (i, rest) := by
  rcases hi with rfl | ⟨d, rfl, hd⟩
  · cases rest with
    | nil => rfl
    | cons c r =>
      have := (hr c (by simp)).2
      rw [List.nil_append]
      unfold jsonFrac
      split
      · rename_i e; cases e; exact absurd rfl this
      · rfl
  · change jsonFrac (46 :: (d ++ rest)) = _
    rw [jsonFrac, digits1_of hd fun c hc => (hr c hc).1]
    rfl

theorem jsonSign_eq (s : Bytes) : s = (jsonSign s).1 ++ (jsonSign s).2 ∧ ((jsonSign s).1 = [] ∨ (jsonSign s).1 = [ch '+'] ∨ (jsonSign s).1 = [ch '-']) := by
  unfold jsonSign
  split
  · exact ⟨rfl, Or.inr (Or.inl rfl)⟩
  · exact ⟨rfl, Or.inr (Or.inr rfl)⟩
  · exact ⟨rfl, Or.inl rfl⟩

theorem jsonExp_iff {s i r : Bytes} (h : jsonExp s = some (i, r)) : s = i ++ r ∧ ExponentPart i := by
  cases s with
  | nil => cases h; exact ⟨rfl, Or.inl rfl⟩
  | cons c s =>
    rw [jsonExp] at h
    split at h
    · rename_i hc
      split at h
      · rename_i d r' hd
        cases h
        obtain ⟨h1, h2⟩ := digits1_iff hd
        obtain ⟨h3, h4⟩ := jsonSign_eq s
        refine ⟨?_, Or.inr ⟨c, _, d, rfl, hc, h4, h2⟩⟩
        rw [List.cons_append, List.append_assoc, ← h1, ← h3]
      · cases h
    · cases h; exact ⟨rfl, Or.inl rfl⟩

theorem digit_not_sign {c : UInt8} (h : IsDigit 10 c) : c ≠ 43 ∧ c ≠ 45 := by
  have := (isDigit10 c).2 h
  constructor <;> rintro rfl <;> exact absurd this (by decide)

/-- What may follow a number with these parts. -/
def Stop (i f e rest : Bytes) : Prop := ∀ c r, rest = c :: r →
  (e = [] → c ≠ 101 ∧ c ≠ 69) ∧ (e ≠ [] → isDigit c = false) ∧ (e = [] → f = [] → c ≠ 46) ∧ (e = [] → f ≠ [] → isDigit c = false) ∧
  (e = [] → f = [] → i ≠ [48] → isDigit c = false)

theorem jsonSign_of {sg d : Bytes} (rest : Bytes) (hsg : sg = [] ∨ sg = [ch '+'] ∨ sg = [ch '-']) (hd : Digits d) :
    jsonSign (sg ++ d ++ rest) = (sg, d ++ rest) := by
  rcases hsg with rfl | rfl | rfl
  · cases d with
    | nil => exact absurd rfl hd.1
    | cons x d =>
      obtain ⟨h1, h2⟩ := digit_not_sign (hd.2 x (by simp))
      rw [List.nil_append, List.cons_append]
      unfold jsonSign
      split
      · rename_i e; cases e; exact absurd rfl h1
      · rename_i e; cases e; exact absurd rfl h2
      · rfl
  · rfl
  · rfl

theorem head_of {rest : Bytes} {P : UInt8 → Prop} (h : ∀ c r, rest = c :: r → P c) : ∀ c ∈ rest.head?, P c := by
  cases rest with
  | nil => intro c hc; cases hc
  | cons x r => intro c hc; simp at hc; subst hc; exact h _ _ rfl

theorem jsonExp_of {i f e rest : Bytes} (he : ExponentPart e) (hs : Stop i f e rest) : jsonExp (e ++ rest) = some (e, rest) := by
  rcases he with rfl | ⟨m, sg, d, rfl, hm, hsg, hd⟩
  · cases rest with
    | nil => rfl
    | cons c r =>
      have := (hs c r rfl).1 rfl
      rw [List.nil_append, jsonExp, if_neg]
      rintro (h | h)
      · exact this.1 h
      · exact this.2 h
  · rw [List.cons_append, jsonExp, if_pos (by simpa [ch] using hm)]
    rw [jsonSign_of rest hsg hd, digits1_of hd (head_of fun c r hc => (hs c r hc).2.1 (by simp))]

theorem exp_head {e : Bytes} (he : ExponentPart e) : ∀ c r, e = c :: r → c = 101 ∨ c = 69 := by
  rcases he with rfl | ⟨m, sg, d, rfl, hm, _, _⟩
  · intro c r h; cases h
  · intro c r h; cases h; exact hm

theorem jsonFrac_of' {i f e rest : Bytes} (hf : FractionPart f) (he : ExponentPart e) (hs : Stop i f e rest) :
    jsonFrac (f ++ (e ++ rest)) = some (f, e ++ rest) := by
  rcases hf with rfl | ⟨d, rfl, hd⟩
  · rw [List.nil_append]
    unfold jsonFrac
    split
    · rename_i x hx
      cases e with
      | nil =>
        cases rest with
        | nil => cases hx
        | cons c r => cases hx; exact absurd rfl ((hs _ _ rfl).2.2.1 rfl rfl)
      | cons y e => cases hx; rcases exp_head he _ _ rfl with h | h <;> cases h
    · rfl
  · change jsonFrac (46 :: (d ++ (e ++ rest))) = _
    rw [jsonFrac, digits1_of hd]
    · rfl
    · apply head_of
      intro c r hc
      cases e with
      | nil => exact (hs c r hc).2.2.2.1 rfl (by simp)
      | cons y e => cases hc; rcases exp_head he _ _ rfl with h | h <;> rw [h] <;> decide

theorem jsonInt_of' {i f e rest : Bytes} (hi : WholePart i) (hf : FractionPart f) (he : ExponentPart e) (hs : Stop i f e rest) :
    jsonInt (i ++ (f ++ (e ++ rest))) = some (i, f ++ (e ++ rest)) := by
  rcases hi with rfl | ⟨h1, h2⟩
  · rfl
  · refine jsonInt_of (Or.inr ⟨h1, h2⟩) ?_
    apply head_of
    intro c r hc
    rcases hf with rfl | ⟨d, rfl, hd⟩
    · rw [List.nil_append] at hc
      cases e with
      | nil => exact (hs c r hc).2.2.2.2 rfl rfl (by rintro rfl; exact h2 rfl)
      | cons y e => cases hc; rcases exp_head he _ _ rfl with h | h <;> rw [h] <;> decide
    · cases hc; decide

theorem jsonMinus_of {sg i : Bytes} (rest : Bytes) (hsg : sg = [] ∨ sg = [ch '-']) (hi : WholePart i) : jsonMinus (sg ++ (i ++ rest)) = (sg, i ++ rest) := by
  rcases hsg with rfl | rfl
  · cases i with
    | nil => rcases hi with hi | hi
             · cases hi
             · exact absurd rfl hi.1.1
    | cons c i =>
      have hc : IsDigit 10 c := by
        rcases hi with hi | hi
        · cases hi; exact ⟨0, by decide, by decide⟩
        · exact hi.1.2 c (by simp)
      rw [List.nil_append, List.cons_append]
      unfold jsonMinus
      split
      · rename_i e'; cases e'; exact absurd rfl (digit_not_sign hc).2
      · rfl
  · rfl

theorem numText_of {sg i f e rest : Bytes} (hsg : sg = [] ∨ sg = [ch '-']) (hi : WholePart i) (hf : FractionPart f) (he : ExponentPart e)
    (hs : Stop i f e rest) : jsonNumText (sg ++ i ++ f ++ e ++ rest) = some (sg ++ i ++ f ++ e, rest) := by
  have hassoc : sg ++ i ++ f ++ e ++ rest = sg ++ (i ++ (f ++ (e ++ rest))) := by simp
  rw [hassoc, jsonNumText, jsonMinus_of _ hsg hi]
  simp only
  rw [jsonInt_of' hi hf he hs]
  simp only
  rw [jsonFrac_of' hf he hs]
  simp only
  rw [jsonExp_of he hs]

theorem digits1_stop {s d r : Bytes} (h : digits1 s = some (d, r)) : ∀ c q, r = c :: q → isDigit c = false := by
  unfold digits1 at h
  split at h
  · cases h
  · cases h
    intro c q hc
    have := List.head?_dropWhile_not isDigit s
    rw [hc] at this
    simpa using this

theorem numText_sound {s t r : Bytes} (h : jsonNumText s = some (t, r)) :
    ∃ sg i f e, s = t ++ r ∧ t = sg ++ i ++ f ++ e ∧ (sg = [] ∨ sg = [ch '-']) ∧ WholePart i ∧ FractionPart f ∧ ExponentPart e ∧ Stop i f e r := by
  unfold jsonNumText at h
  split at h
  · cases h
  · rename_i i r1 hi
    split at h
    · cases h
    · rename_i fr q1 hf
      split at h
      · cases h
      · rename_i e t1 he
        cases h
        obtain ⟨h1, h2⟩ := jsonInt_iff hi
        obtain ⟨h3, h4⟩ := jsonFrac_iff hf
        obtain ⟨h5, h6⟩ := jsonExp_iff he
        have hm : s = (jsonMinus s).1 ++ (jsonMinus s).2 ∧ ((jsonMinus s).1 = [] ∨ (jsonMinus s).1 = [ch '-']) := by
          unfold jsonMinus; split
          · exact ⟨rfl, Or.inr rfl⟩
          · exact ⟨rfl, Or.inl rfl⟩
        refine ⟨_, i, fr, e, ?_, rfl, hm.2, h2, h4, h6, ?_⟩
        · conv => lhs; rw [hm.1, h1, h3, h5]
          simp
        · intro c q hc
          refine ⟨?_, ?_, ?_, ?_, ?_⟩
          · rintro rfl
            subst hc
            rw [List.nil_append] at h5
            subst h5
            rw [jsonExp] at he
            split at he
            · split at he
              · cases he
              · cases he
            · rename_i hne
              exact ⟨fun h => hne (Or.inl h), fun h => hne (Or.inr h)⟩
          · intro hne
            cases q1 with
            | nil => cases he; exact absurd rfl hne
            | cons x q1 =>
              rw [jsonExp] at he
              split at he
              · split at he
                · rename_i d r' hd
                  cases he
                  exact digits1_stop hd c q hc
                · cases he
              · cases he; exact absurd rfl hne
          · rintro rfl rfl rfl
            rw [List.nil_append] at h5 h3
            rw [h3, h5, hc] at hf
            rw [jsonFrac] at hf
            split at hf
            · cases hf
            · cases hf
          · rintro rfl hne
            rw [List.nil_append] at h5
            unfold jsonFrac at hf
            split at hf
            · split at hf
              · rename_i d r' hd
                cases hf
                exact digits1_stop hd c q (by rw [h5, hc])
              · cases hf
            · cases hf; exact absurd rfl hne
          · rintro rfl rfl hne
            rw [List.nil_append] at h5 h3
            cases hs : (jsonMinus s).2 with
            | nil => rw [hs] at hi; cases hi
            | cons x y =>
              rw [hs, jsonInt] at hi
              split at hi
              · rename_i hx; cases hi; subst hx; exact absurd rfl hne
              · exact digits1_stop hi c q (by rw [h3, h5, hc])

theorem stop_congr {i f e : Bytes} {c : UInt8} {q : Bytes} (h : Stop i f e (c :: q)) (q' : Bytes) : Stop i f e (c :: q') := by
  intro x r hx
  cases hx
  exact h c q rfl

theorem ends_of_stop {sg i f e rest : Bytes} (hsg : sg = [] ∨ sg = [ch '-']) (hi : WholePart i) (hf : FractionPart f) (he : ExponentPart e)
    (hs : Stop i f e rest) : NumberEnds (sg ++ i ++ f ++ e) rest := by
  rintro c r rfl q ⟨sg', i', f', e', h1, h2, h3, h4, h5⟩
  have g1 := numText_of hsg hi hf he (stop_congr hs q)
  have g2 := numText_of (rest := []) h2 h3 h4 h5 (fun c r hc => nomatch hc)
  rw [List.append_nil, ← h1, g1] at g2
  simp at g2

theorem digits_append {d : Bytes} {c : UInt8} (hd : Digits d) (hc : isDigit c = true) : Digits (d ++ [c]) := by
  refine ⟨by simp, fun x hx => ?_⟩
  rcases List.mem_append.1 hx with h | h
  · exact hd.2 x h
  · rw [List.mem_singleton.1 h]; exact (isDigit10 c).1 hc

theorem stop_of_ends {sg i f e rest : Bytes} (hsg : sg = [] ∨ sg = [ch '-']) (hi : WholePart i) (hf : FractionPart f) (he : ExponentPart e)
    (hn : NumberEnds (sg ++ i ++ f ++ e) rest) : Stop i f e rest := by
  intro c r hc
  have h := hn c r hc
  have d0 : Digits [48] := ⟨by simp, fun x hx => by rw [List.mem_singleton.1 hx]; exact ⟨0, by decide, by decide⟩⟩
  have nd : ∀ {P : Prop}, (isDigit c = true → False) → isDigit c = false := fun h => by
    cases hd : isDigit c with
    | true => exact (h hd).elim
    | false => rfl
  refine ⟨?_, ?_, ?_, ?_, ?_⟩
  · rintro rfl
    have : ¬ (c = 101 ∨ c = 69) := fun hc' => h [48] ⟨sg, i, f, c :: ([] ++ [48]), by simp, hsg, hi, hf, Or.inr ⟨c, [], [48], rfl, hc', Or.inl rfl, d0⟩⟩
    exact ⟨fun h => this (Or.inl h), fun h => this (Or.inr h)⟩
  · intro hne
    refine nd (P := True) fun hd => ?_
    rcases he with rfl | ⟨m, sg', d, rfl, hm, hsg', hd'⟩
    · exact hne rfl
    · exact h [] ⟨sg, i, f, m :: (sg' ++ (d ++ [c])), by simp, hsg, hi, hf, Or.inr ⟨m, sg', d ++ [c], rfl, hm, hsg', digits_append hd' hd⟩⟩
  · rintro rfl rfl rfl
    exact h [48] ⟨sg, i, [46, 48], [], by simp, hsg, hi, Or.inr ⟨[48], rfl, d0⟩, Or.inl rfl⟩
  · rintro rfl hne
    refine nd (P := True) fun hd => ?_
    rcases hf with rfl | ⟨d, rfl, hd'⟩
    · exact hne rfl
    · exact h [] ⟨sg, i, ch '.' :: (d ++ [c]), [], by simp, hsg, hi, Or.inr ⟨d ++ [c], rfl, digits_append hd' hd⟩, Or.inl rfl⟩
  · rintro rfl rfl hne
    refine nd (P := True) fun hd => ?_
    rcases hi with rfl | ⟨h1, h2⟩
    · exact hne rfl
    · refine h [] ⟨sg, i ++ [c], [], [], by simp, hsg, Or.inr ⟨digits_append h1 hd, ?_⟩, Or.inl rfl, Or.inl rfl⟩
      cases i with
      | nil => exact absurd rfl h1.1
      | cons x i => exact h2

theorem jsonNum_sound {s r : Bytes} {x : F64} (h : jsonNum s = some (x, r)) : ∃ t, s = t ++ r ∧ JsonNumber t x ∧ NumberEnds t r := by
  unfold jsonNum at h
  split at h
  · cases h
  · rename_i t q ht
    split at h
    · rename_i y hp
      cases h
      obtain ⟨sg, i, f, e, h1, h2, h3, h4, h5, h6, h7⟩ := numText_sound ht
      refine ⟨t, h1, ⟨⟨sg, i, f, e, h2, h3, h4, h5, h6⟩, (parseFloat_iff _ _).1 hp⟩, ?_⟩
      rw [h2]
      exact ends_of_stop h3 h4 h5 h6 h7
    · cases h

theorem jsonNum_complete {t rest : Bytes} {x : F64} (h : JsonNumber t x) (hr : NumberEnds t rest) : jsonNum (t ++ rest) = some (x, rest) := by
  obtain ⟨⟨sg, i, f, e, rfl, hsg, hi, hf, he⟩, hx⟩ := h
  rw [jsonNum, numText_of hsg hi hf he (stop_of_ends hsg hi hf he hr)]
  simp only
  rw [(parseFloat_iff _ _).2 hx]

theorem ends_of_numStop {t rest : Bytes} (ht : NumberShape t) (h : NumStop rest) : NumberEnds t rest := by
  obtain ⟨sg, i, f, e, rfl, hsg, hi, hf, he⟩ := ht
  refine ends_of_stop hsg hi hf he ?_
  intro c r hc
  obtain ⟨h1, h2, h3, h4⟩ := h c (by rw [hc]; rfl)
  exact ⟨fun _ => ⟨h3, h4⟩, fun _ => h1, fun _ _ => h2, fun _ _ => h1, fun _ _ _ => h1⟩

/-! ### Values -/

theorem space_iff (c : UInt8) : jsonSpace c = true ↔ c ∈ [ch ' ', ch '\t', ch '\n', ch '\r'] := by
  have h : ∀ n, n < 256 → jsonSpace (UInt8.ofNat n) = decide (UInt8.ofNat n ∈ [ch ' ', ch '\t', ch '\n', ch '\r']) := by decide +kernel
  have h1 := h c.toNat c.toNat_lt
  rw [UInt8.ofNat_toNat] at h1
  rw [h1, decide_eq_true_eq]

theorem jws_split (s : Bytes) : ∃ w, Spaces w ∧ s = w ++ jws s :=
  ⟨s.takeWhile jsonSpace, fun c hc => (space_iff c).1 (List.all_eq_true.1 List.all_takeWhile c hc), (List.takeWhile_append_dropWhile).symm⟩

theorem jws_spaces {w : Bytes} (hw : Spaces w) (s : Bytes) : jws (w ++ s) = jws s := by
  induction w with
  | nil => rfl
  | cons c w ih =>
    have hc : jsonSpace c = true := (space_iff c).2 (hw c (by simp))
    rw [List.cons_append, jws, List.dropWhile_cons_of_pos hc]
    exact ih fun x hx => hw x (by simp [hx])

theorem jws_stop {w : Bytes} (hw : Spaces w) (c : UInt8) (s : Bytes) (hc : jsonSpace c = false) : jws (w ++ c :: s) = c :: s := by
  rw [jws_spaces hw, jws_cons c s hc]

theorem numStop_spaces {v : Bytes} (hv : Spaces v) (c : UInt8) (s : Bytes) (hc : c = 44 ∨ c = 93 ∨ c = 125) : NumStop (v ++ c :: s) := by
  cases v with
  | nil =>
    intro x hx; simp at hx; subst hx
    rcases hc with rfl | rfl | rfl <;> decide
  | cons y v =>
    intro x hx; simp at hx; subst hx
    have := hv y (by simp)
    simp only [List.mem_cons, List.not_mem_nil, or_false] at this
    rcases this with rfl | rfl | rfl | rfl <;> decide

theorem numStop_end {v : Bytes} (hv : Spaces v) : NumStop v := by
  cases v with
  | nil => intro x hx; cases hx
  | cons y v =>
    intro x hx; simp at hx; subst hx
    have := hv y (by simp)
    simp only [List.mem_cons, List.not_mem_nil, or_false] at this
    rcases this with rfl | rfl | rfl | rfl <;> decide

theorem items_space {w b : Bytes} {l : List Json} (hw : Spaces w) (h : JsonItems b l) : JsonItems (w ++ b) l := by
  have app : ∀ {w'}, Spaces w' → Spaces (w ++ w') := fun hw' c hc => (List.mem_append.1 hc).elim (hw c) (hw' c)
  cases h with
  | one h1 h2 h3 => rw [← List.append_assoc]; exact .one (app h1) h2 h3
  | more h1 h2 h3 h4 => rw [← List.append_assoc]; exact .more (app h1) h2 h3 h4

theorem members_space {w b : Bytes} {l : List (Bytes × Json)} (hw : Spaces w) (h : JsonMembers b l) : JsonMembers (w ++ b) l := by
  have app : ∀ {w'}, Spaces w' → Spaces (w ++ w') := fun hw' c hc => (List.mem_append.1 hc).elim (hw c) (hw' c)
  cases h with
  | one h1 h2 h3 h4 h5 h6 => rw [← List.append_assoc]; exact .one (app h1) h2 h3 h4 h5 h6
  | more h1 h2 h3 h4 h5 h6 h7 => rw [← List.append_assoc]; exact .more (app h1) h2 h3 h4 h5 h6 h7

theorem prefix_drop {c : UInt8} {s p : Bytes} (h : hasPrefix (c :: s) p = true) (hp : p ≠ []) : c :: s = p ++ s.drop (p.length - 1) := by
  cases p with
  | nil => exact absurd rfl hp
  | cons x p =>
    simp only [hasPrefix, List.isPrefixOf_cons₂, Bool.and_eq_true, beq_iff_eq, List.isPrefixOf_iff_prefix] at h
    obtain ⟨rfl, t, ht⟩ := h
    rw [← ht]; simp

theorem json_sound : ∀ f : Nat,
    (∀ d s j r, jsonValue f d s = some (j, r) → ∃ b, s = b ++ r ∧ JsonSays b j ∧ Within d j) ∧
    (∀ d s l r, jsonElems f d s = some (l, r) → ∃ b, s = b ++ 93 :: r ∧ JsonItems b l ∧ ∀ j ∈ l, Within d j) ∧
    (∀ d s l r, jsonFields f d s = some (l, r) → ∃ b, s = b ++ 125 :: r ∧ JsonMembers b l ∧ ∀ j ∈ l, Within d j.2)
  | 0 => ⟨fun d s j r h => by simp [jsonValue] at h, fun d s l r h => by simp [jsonElems] at h, fun d s l r h => by simp [jsonFields] at h⟩
  | f + 1 => by
    obtain ⟨ih1, ih2, ih3⟩ := json_sound f
    have nilS : Spaces [] := fun c hc => (nomatch hc)
    refine ⟨?_, ?_, ?_⟩
    · intro d s j r h
      cases s with
      | nil => simp [jsonValue] at h
      | cons c s =>
        rw [jsonValue] at h
        split at h
        · rename_i hc; subst hc
          split at h
          · rename_i x q hx; cases h
            obtain ⟨b, rfl, hb⟩ := jsonStr_sound _ _ _ _ hx
            exact ⟨34 :: (b ++ [34]), by simp, .str hb, .str⟩
          · cases h
        split at h
        · rename_i hc; subst hc
          split at h
          · cases h
          · rename_i hd
            obtain ⟨w, hw, hs⟩ := jws_split s
            obtain ⟨d, rfl⟩ : ∃ d', d = d' + 1 := ⟨d - 1, by omega⟩
            split at h
            · rename_i q hq; cases h
              rw [hq] at hs
              exact ⟨91 :: (w ++ [93]), by rw [hs]; simp, .empty hw, .arr fun j hj => (nomatch hj)⟩
            · split at h
              · rename_i l q hl; cases h
                obtain ⟨b, hb, h1, h2⟩ := ih2 _ _ _ _ hl
                refine ⟨91 :: (w ++ b ++ [93]), ?_, .arr (items_space hw h1), .arr h2⟩
                conv => lhs; rw [hs, hb]
                simp
              · cases h
        split at h
        · rename_i hc; subst hc
          split at h
          · cases h
          · rename_i hd
            obtain ⟨w, hw, hs⟩ := jws_split s
            obtain ⟨d, rfl⟩ : ∃ d', d = d' + 1 := ⟨d - 1, by omega⟩
            split at h
            · rename_i q hq; cases h
              rw [hq] at hs
              exact ⟨123 :: (w ++ [125]), by rw [hs]; simp, .emptyObj hw, .obj fun j hj => (nomatch hj)⟩
            · split at h
              · rename_i l q hl; cases h
                obtain ⟨b, hb, h1, h2⟩ := ih3 _ _ _ _ hl
                refine ⟨123 :: (w ++ b ++ [125]), ?_, .obj (members_space hw h1), .obj h2⟩
                conv => lhs; rw [hs, hb]
                simp
              · cases h
        split at h
        · rename_i hp; cases h
          exact ⟨b! "true", prefix_drop hp (by decide), .true, .bool⟩
        split at h
        · rename_i hp; cases h
          exact ⟨b! "false", prefix_drop hp (by decide), .false, .bool⟩
        split at h
        · rename_i hp; cases h
          exact ⟨b! "null", prefix_drop hp (by decide), .null, .null⟩
        split at h
        · rename_i x q hx; cases h
          obtain ⟨t, h1, h2⟩ := jsonNum_sound hx
          exact ⟨t, h1, .num h2.1, .num⟩
        · cases h
    · intro d s l r h
      rw [jsonElems] at h
      split at h
      · cases h
      · rename_i v q hv
        obtain ⟨b, rfl, h1, h2⟩ := ih1 _ _ _ _ hv
        obtain ⟨w, hw, hq⟩ := jws_split q
        split at h
        · rename_i q' hq'
          rw [hq'] at hq
          split at h
          · rename_i vs r' hvs; cases h
            obtain ⟨b', hb', h3, h4⟩ := ih2 _ _ _ _ hvs
            obtain ⟨w', hw', hq2⟩ := jws_split q'
            rw [hb'] at hq2
            refine ⟨[] ++ (b ++ (w ++ 44 :: (w' ++ b'))), ?_, .more nilS h1 hw (items_space hw' h3), ?_⟩
            · rw [hq, hq2]; simp
            · intro j hj
              rcases List.mem_cons.1 hj with rfl | hj
              · exact h2
              · exact h4 j hj
          · cases h
        · rename_i q' hq'
          cases h
          rw [hq'] at hq
          refine ⟨[] ++ (b ++ w), by rw [hq]; simp, .one nilS h1 hw, ?_⟩
          intro j hj
          cases List.mem_singleton.1 hj
          exact h2
        · cases h
    · intro d s l r h
      rw [jsonFields.eq_def] at h
      dsimp only at h
      split at h
      · rename_i s
        split at h
        · cases h
        · rename_i k q hk
          obtain ⟨kb, rfl, hkb⟩ := jsonStr_sound _ _ _ _ hk
          obtain ⟨w2, hw2, hq⟩ := jws_split q
          split at h
          · rename_i q1 hq1
            rw [hq1] at hq
            obtain ⟨w3, hw3, hq2⟩ := jws_split q1
            split at h
            · cases h
            · rename_i v q3 hv
              obtain ⟨b, hb, h1, h2⟩ := ih1 _ _ _ _ hv
              rw [hb] at hq2
              obtain ⟨w4, hw4, hq4⟩ := jws_split q3
              split at h
              · rename_i q5 hq5
                rw [hq5] at hq4
                split at h
                · rename_i vs r' hvs; cases h
                  obtain ⟨b', hb', h3, h4⟩ := ih3 _ _ _ _ hvs
                  obtain ⟨w5, hw5, hq6⟩ := jws_split q5
                  rw [hb'] at hq6
                  refine ⟨[] ++ 34 :: (kb ++ 34 :: (w2 ++ 58 :: (w3 ++ (b ++ (w4 ++ 44 :: (w5 ++ b')))))), ?_,
                    .more nilS hkb hw2 hw3 h1 hw4 (members_space hw5 h3), ?_⟩
                  · rw [hq, hq2, hq4, hq6]; simp
                  · intro j hj
                    rcases List.mem_cons.1 hj with rfl | hj
                    · exact h2
                    · exact h4 j hj
                · cases h
              · rename_i q5 hq5
                cases h
                rw [hq5] at hq4
                refine ⟨[] ++ 34 :: (kb ++ 34 :: (w2 ++ 58 :: (w3 ++ (b ++ w4)))), ?_, .one nilS hkb hw2 hw3 h1 hw4, ?_⟩
                · rw [hq, hq2, hq4]; simp
                · intro j hj
                  cases List.mem_singleton.1 hj
                  exact h2
              · cases h
          · cases h
      · cases h

/-- How a value begins. -/
theorem says_head {b : Bytes} {j : Json} (h : JsonSays b j) : ∃ c r, b = c :: r ∧
    (c ∈ [34, 91, 123, 116, 102, 110, 45] ∨ IsDigit 10 c) := by
  cases h with
  | null => exact ⟨_, _, rfl, Or.inl (by decide)⟩
  | true => exact ⟨_, _, rfl, Or.inl (by decide)⟩
  | false => exact ⟨_, _, rfl, Or.inl (by decide)⟩
  | str _ => exact ⟨_, _, rfl, Or.inl (by decide)⟩
  | empty _ => exact ⟨_, _, rfl, Or.inl (by decide)⟩
  | arr _ => exact ⟨_, _, rfl, Or.inl (by decide)⟩
  | emptyObj _ => exact ⟨_, _, rfl, Or.inl (by decide)⟩
  | obj _ => exact ⟨_, _, rfl, Or.inl (by decide)⟩
  | num h =>
    obtain ⟨⟨sg, i, f, e, rfl, hsg, hi, _, _⟩, _⟩ := h
    rcases hsg with rfl | rfl
    · rcases hi with rfl | ⟨hd, _⟩
      · exact ⟨48, f ++ e, by simp [ch], Or.inr ⟨0, by decide, by decide⟩⟩
      · cases i with
        | nil => exact absurd rfl hd.1
        | cons c i => exact ⟨c, i ++ f ++ e, by simp, Or.inr (hd.2 c (by simp))⟩
    · exact ⟨45, i ++ f ++ e, by simp [ch], Or.inl (by decide)⟩

theorem head_not {c : UInt8} (h : c ∈ [34, 91, 123, 116, 102, 110, 45] ∨ IsDigit 10 c) : jsonSpace c = false ∧ c ≠ 93 ∧ c ≠ 125 := by
  rw [← isDigit10] at h
  have key : ∀ n, n < 256 → (UInt8.ofNat n ∈ ([34, 91, 123, 116, 102, 110, 45] : List UInt8) ∨ isDigit (UInt8.ofNat n) = true) →
      jsonSpace (UInt8.ofNat n) = false ∧ UInt8.ofNat n ≠ 93 ∧ UInt8.ofNat n ≠ 125 := by decide +kernel
  have := key c.toNat c.toNat_lt
  rw [UInt8.ofNat_toNat] at this
  exact this h

theorem num_head {t : Bytes} {x : F64} (h : JsonNumber t x) : ∃ c r, t = c :: r ∧ c ≠ 34 ∧ c ≠ 91 ∧ c ≠ 123 ∧ c ≠ 116 ∧ c ≠ 102 ∧ c ≠ 110 := by
  have key : ∀ c : UInt8, IsDigit 10 c → c ≠ 34 ∧ c ≠ 91 ∧ c ≠ 123 ∧ c ≠ 116 ∧ c ≠ 102 ∧ c ≠ 110 := by
    intro c hc
    rw [← isDigit10] at hc
    refine ⟨?_, ?_, ?_, ?_, ?_, ?_⟩ <;> rintro rfl <;> exact absurd hc (by decide)
  obtain ⟨⟨sg, i, f, e, rfl, hsg, hi, _, _⟩, _⟩ := h
  rcases hsg with rfl | rfl
  · rcases hi with rfl | ⟨hd, _⟩
    · exact ⟨48, f ++ e, by simp [ch], by decide⟩
    · cases i with
      | nil => exact absurd rfl hd.1
      | cons c i => exact ⟨c, i ++ f ++ e, by simp, key c (hd.2 c (by simp))⟩
  · exact ⟨45, i ++ f ++ e, by simp [ch], by decide⟩

theorem ends_says {b : Bytes} {j : Json} (h : JsonSays b j) {rest : Bytes} (hr : NumStop rest) : (∃ x, j = .num x) → NumberEnds b rest := by
  rintro ⟨x, rfl⟩
  cases h with
  | num h => exact ends_of_numStop h.1 hr

mutual
theorem value_complete {b : Bytes} {j : Json} (h : JsonSays b j) : ∀ f d rest, 2 * b.length ≤ f → Within d j →
    ((∃ x, j = .num x) → NumberEnds b rest) → jsonValue f d (b ++ rest) = some (j, rest) := by
  intro f d rest hf hd hr
  obtain ⟨c0, r0, hb0, _⟩ := says_head h
  have hf0 : 1 ≤ f := by rw [hb0] at hf; simp at hf; omega
  obtain ⟨f, rfl⟩ : ∃ f', f = f' + 1 := ⟨f - 1, by omega⟩
  match h with
  | .null => rfl
  | .true => rfl
  | .false => rfl
  | .num h =>
    obtain ⟨c, r, hc, h1, h2, h3, h4, h5, h6⟩ := num_head h
    have := jsonNum_complete h (hr ⟨_, rfl⟩)
    rw [hc, List.cons_append] at this ⊢
    rw [jsonValue, if_neg h1, if_neg h2, if_neg h3, hasPrefix_ne c 116 _ _ h4, hasPrefix_ne c 102 _ _ h5, hasPrefix_ne c 110 _ _ h6]
    simp only [Bool.false_eq_true, if_false]
    rw [this]
  | .str (s := s) h =>
    have := jsonStr_complete h rest ((s ++ 34 :: rest).length + 1) (by rw [List.length_append]; omega)
    rw [show ch '"' :: (s ++ [ch '"']) ++ rest = 34 :: (s ++ 34 :: rest) by simp [ch]]
    rw [jsonValue, if_pos rfl, this]
  | .empty (w := w) hw =>
    cases hd with | arr hd =>
    rw [show ch '[' :: (w ++ [ch ']']) ++ rest = 91 :: (w ++ 93 :: rest) by simp [ch]]
    rw [jsonValue, if_neg (by decide), if_pos rfl, if_neg (by omega), jws_stop hw _ _ (by decide)]
    rfl
  | .arr (s := s) (l := l) hi =>
    cases hd with | arr hd =>
    rename_i n
    have ih := items_complete hi f n rest (by simp at hf; omega) hd
    obtain ⟨c, q, hcq, hne⟩ := items_head hi (93 :: rest)
    rw [show ch '[' :: (s ++ [ch ']']) ++ rest = 91 :: (s ++ 93 :: rest) by simp [ch]]
    rw [jsonValue, if_neg (by decide), if_pos rfl, if_neg (by omega)]
    rw [hcq] at ih ⊢
    split
    · rename_i e; cases e; exact absurd rfl hne.1
    · rw [Nat.add_sub_cancel, ih]
  | .emptyObj (w := w) hw =>
    cases hd with | obj hd =>
    rw [show ch '{' :: (w ++ [ch '}']) ++ rest = 123 :: (w ++ 125 :: rest) by simp [ch]]
    rw [jsonValue, if_neg (by decide), if_neg (by decide), if_pos rfl, if_neg (by omega), jws_stop hw _ _ (by decide)]
    rfl
  | .obj (s := s) (l := l) hi =>
    cases hd with | obj hd =>
    rename_i n
    have ih := members_complete hi f n rest (by simp at hf; omega) hd
    obtain ⟨q, hcq⟩ := members_head hi (125 :: rest)
    rw [show ch '{' :: (s ++ [ch '}']) ++ rest = 123 :: (s ++ 125 :: rest) by simp [ch]]
    rw [jsonValue, if_neg (by decide), if_neg (by decide), if_pos rfl, if_neg (by omega)]
    rw [hcq] at ih ⊢
    split
    · rename_i e; cases e
    · rw [Nat.add_sub_cancel, ih]
theorem items_complete {b : Bytes} {l : List Json} (h : JsonItems b l) : ∀ f d rest, 2 * b.length + 1 ≤ f → (∀ j ∈ l, Within d j) →
    jsonElems f d (jws (b ++ 93 :: rest)) = some (l, rest) := by
  intro f d rest hf hd
  obtain ⟨f, rfl⟩ : ∃ f', f = f' + 1 := ⟨f - 1, by omega⟩
  match h with
  | .one (w := w) (s := s) (v := v) (j := j) hw hs hv =>
    obtain ⟨c, r, hc, hh⟩ := says_head hs
    have ih := value_complete hs f d (v ++ 93 :: rest) (by simp at hf; omega) (hd j (by simp)) (ends_says hs (numStop_spaces hv 93 rest (by decide)))
    rw [show w ++ (s ++ v) ++ 93 :: rest = w ++ (s ++ (v ++ 93 :: rest)) by simp]
    rw [jws_spaces hw]
    rw [hc, List.cons_append] at ih ⊢
    rw [jws_cons _ _ (head_not hh).1, jsonElems, ih]
    simp only
    rw [jws_stop hv _ _ (by decide)]
    rfl
  | .more (w := w) (s := s) (v := v) (r := r) (j := j) (l := l) hw hs hv hr =>
    obtain ⟨c, r1, hc, hh⟩ := says_head hs
    have hlen : 1 ≤ s.length := by rw [hc]; simp
    have ih := value_complete hs f d (v ++ 44 :: (r ++ 93 :: rest)) (by simp at hf; omega) (hd j (by simp)) (ends_says hs (numStop_spaces hv 44 _ (by decide)))
    have ih2 := items_complete hr f d rest (by simp at hf; omega) fun x hx => hd x (by simp [hx])
    rw [show w ++ (s ++ (v ++ ch ',' :: r)) ++ 93 :: rest = w ++ (s ++ (v ++ 44 :: (r ++ 93 :: rest))) by simp [ch]]
    rw [jws_spaces hw]
    rw [hc, List.cons_append] at ih ⊢
    rw [jws_cons _ _ (head_not hh).1, jsonElems, ih]
    simp only
    rw [jws_stop hv _ _ (by decide)]
    simp only
    rw [ih2]
theorem members_complete {b : Bytes} {l : List (Bytes × Json)} (h : JsonMembers b l) : ∀ f d rest, 2 * b.length + 1 ≤ f →
    (∀ j ∈ l, Within d j.2) → jsonFields f d (jws (b ++ 125 :: rest)) = some (l, rest) := by
  intro f d rest hf hd
  obtain ⟨f, rfl⟩ : ∃ f', f = f' + 1 := ⟨f - 1, by omega⟩
  match h with
  | .one (w := w) (k := k) (w2 := w2) (w3 := w3) (s := s) (v := v) (key := key) (j := j) hw hk hw2 hw3 hs hv =>
    obtain ⟨c, r, hc, hh⟩ := says_head hs
    have ih := value_complete hs f d (v ++ 125 :: rest) (by simp at hf; omega) (hd (key, j) (by simp)) (ends_says hs (numStop_spaces hv 125 rest (by decide)))
    rw [show w ++ ch '"' :: (k ++ ch '"' :: (w2 ++ ch ':' :: (w3 ++ (s ++ v)))) ++ 125 :: rest =
      w ++ 34 :: (k ++ 34 :: (w2 ++ 58 :: (w3 ++ (s ++ (v ++ 125 :: rest))))) by simp [ch]]
    rw [jws_stop hw _ _ (by decide), jsonFields]
    have hkc := jsonStr_complete hk (w2 ++ 58 :: (w3 ++ (s ++ (v ++ 125 :: rest))))
      ((k ++ 34 :: (w2 ++ 58 :: (w3 ++ (s ++ (v ++ 125 :: rest))))).length + 1) (by rw [List.length_append]; omega)
    rw [hkc]
    simp only
    rw [jws_stop hw2 _ _ (by decide)]
    simp only
    rw [jws_spaces hw3]
    rw [hc, List.cons_append] at ih ⊢
    rw [jws_cons _ _ (head_not hh).1, ih]
    simp only
    rw [jws_stop hv _ _ (by decide)]
    rfl
  | .more (w := w) (k := k) (w2 := w2) (w3 := w3) (s := s) (v := v) (r := r) (key := key) (j := j) (l := l) hw hk hw2 hw3 hs hv hr =>
    obtain ⟨c, r1, hc, hh⟩ := says_head hs
    have ih := value_complete hs f d (v ++ 44 :: (r ++ 125 :: rest)) (by simp at hf; omega) (hd (key, j) (by simp)) (ends_says hs (numStop_spaces hv 44 _ (by decide)))
    have ih2 := members_complete hr f d rest (by simp at hf; omega) fun x hx => hd x (by simp [hx])
    rw [show w ++ ch '"' :: (k ++ ch '"' :: (w2 ++ ch ':' :: (w3 ++ (s ++ (v ++ ch ',' :: r))))) ++ 125 :: rest =
      w ++ 34 :: (k ++ 34 :: (w2 ++ 58 :: (w3 ++ (s ++ (v ++ 44 :: (r ++ 125 :: rest)))))) by simp [ch]]
    rw [jws_stop hw _ _ (by decide), jsonFields]
    have hkc := jsonStr_complete hk (w2 ++ 58 :: (w3 ++ (s ++ (v ++ 44 :: (r ++ 125 :: rest)))))
      ((k ++ 34 :: (w2 ++ 58 :: (w3 ++ (s ++ (v ++ 44 :: (r ++ 125 :: rest)))))).length + 1) (by rw [List.length_append]; omega)
    rw [hkc]
    simp only
    rw [jws_stop hw2 _ _ (by decide)]
    simp only
    rw [jws_spaces hw3]
    rw [hc, List.cons_append] at ih ⊢
    rw [jws_cons _ _ (head_not hh).1, ih]
    simp only
    rw [jws_stop hv _ _ (by decide)]
    simp only
    rw [ih2]
theorem items_head {b : Bytes} {l : List Json} (h : JsonItems b l) (rest : Bytes) : ∃ c q, jws (b ++ rest) = c :: q ∧ c ≠ 93 ∧ c ≠ 125 := by
  match h with
  | .one (w := w) (s := s) (v := v) hw hs hv =>
    obtain ⟨c, r, hc, hh⟩ := says_head hs
    refine ⟨c, r ++ (v ++ rest), ?_, (head_not hh).2⟩
    rw [show w ++ (s ++ v) ++ rest = w ++ (s ++ (v ++ rest)) by simp, hc, List.cons_append, jws_stop hw _ _ (head_not hh).1]
  | .more (w := w) (s := s) (v := v) (r := r) hw hs hv hr =>
    obtain ⟨c, r1, hc, hh⟩ := says_head hs
    refine ⟨c, r1 ++ (v ++ ch ',' :: r ++ rest), ?_, (head_not hh).2⟩
    rw [show w ++ (s ++ (v ++ ch ',' :: r)) ++ rest = w ++ (s ++ (v ++ ch ',' :: r ++ rest)) by simp, hc, List.cons_append, jws_stop hw _ _ (head_not hh).1]
theorem members_head {b : Bytes} {l : List (Bytes × Json)} (h : JsonMembers b l) (rest : Bytes) : ∃ q, jws (b ++ rest) = 34 :: q := by
  match h with
  | .one (w := w) hw _ _ _ _ _ =>
    rw [List.append_assoc, List.cons_append]
    exact ⟨_, jws_stop hw _ _ (by decide)⟩
  | .more (w := w) hw _ _ _ _ _ _ =>
    rw [List.append_assoc, List.cons_append]
    exact ⟨_, jws_stop hw _ _ (by decide)⟩
end

theorem value_num {f d : Nat} {s r : Bytes} {x : F64} (h : jsonValue f d s = some (.num x, r)) : jsonNum s = some (x, r) := by
  cases f with
  | zero => simp [jsonValue] at h
  | succ f =>
    cases s with
    | nil => simp [jsonValue] at h
    | cons c s =>
      rw [jsonValue] at h
      by_cases h1 : c = 34
      · rw [if_pos h1] at h; split at h <;> cases h
      rw [if_neg h1] at h
      by_cases h2 : c = 91
      · rw [if_pos h2] at h
        split at h
        · cases h
        · split at h
          · cases h
          · split at h <;> cases h
      rw [if_neg h2] at h
      by_cases h3 : c = 123
      · rw [if_pos h3] at h
        split at h
        · cases h
        · split at h
          · cases h
          · split at h <;> cases h
      rw [if_neg h3] at h
      split at h
      · cases h
      split at h
      · cases h
      split at h
      · cases h
      split at h
      · rename_i hn; cases h; exact hn
      · cases h

/-- The decoder takes one JSON value off the input. -/
theorem jsonOne_iff (s r : Bytes) (j : Json) : jsonOne s = some (j, r) ↔
    ∃ w b, s = w ++ (b ++ r) ∧ Spaces w ∧ JsonSays b j ∧ Within 10000 j ∧ ((∃ x, j = .num x) → NumberEnds b r) := by
  constructor
  · intro h
    unfold jsonOne at h
    obtain ⟨w, hw, hs⟩ := jws_split s
    obtain ⟨b, hb, h1, h2⟩ := (json_sound _).1 _ _ _ _ h
    refine ⟨w, b, by rw [← hb]; exact hs, hw, h1, h2, ?_⟩
    rintro ⟨x, rfl⟩
    obtain ⟨t, ht, _, h4⟩ := jsonNum_sound (value_num h)
    rw [hb] at ht
    rw [List.append_cancel_right ht]
    exact h4
  · rintro ⟨w, b, rfl, hw, h1, h2, h3⟩
    obtain ⟨c, q, hc, hh⟩ := says_head h1
    have hval := value_complete h1 (2 * (w ++ (b ++ r)).length + 2) maxNesting r (by simp; omega) h2 h3
    unfold jsonOne
    have : jws (w ++ (b ++ r)) = b ++ r := by rw [hc, List.cons_append, jws_stop hw _ _ (head_not hh).1]
    rw [this, hval]

theorem jsonOne_length {s r : Bytes} {j : Json} (h : jsonOne s = some (j, r)) : r.length < s.length := by
  obtain ⟨w, b, rfl, _, h1, _⟩ := (jsonOne_iff s r j).1 h
  obtain ⟨c, q, hc, _⟩ := says_head h1
  rw [hc]; simp; omega

/-- `json.Unmarshal` accepts exactly the JSON texts, with their meaning. -/
theorem jsonText_iff (s : Bytes) (j : Json) : jsonText s = some j ↔ JsonText s j := by
  constructor
  · intro h
    unfold jsonText jsonOne at h
    split at h
    · rename_i j' r hv
      split at h
      · rename_i hr
        cases h
        obtain ⟨w, hw, hs⟩ := jws_split s
        obtain ⟨b, hb, h1, h2⟩ := (json_sound _).1 _ _ _ _ hv
        obtain ⟨v, hv', hr'⟩ := jws_split r
        rw [hr, List.append_nil] at hr'
        refine ⟨w, b, v, ?_, hw, h1, hv', h2⟩
        rw [hs, hb, hr']
      · cases h
    · cases h
  · rintro ⟨w, b, v, rfl, hw, h1, hv, h2⟩
    obtain ⟨c, r, hc, hh⟩ := says_head h1
    have hval := value_complete h1 (2 * (w ++ (b ++ v)).length + 2) maxNesting v (by simp; omega) h2 (ends_says h1 (numStop_end hv))
    unfold jsonText jsonOne
    have : jws (w ++ (b ++ v)) = b ++ v := by rw [hc, List.cons_append, jws_stop hw _ _ (head_not hh).1]
    rw [this, hval]
    simp only
    have hv0 : jws v = [] := by have := jws_spaces hv []; rwa [List.append_nil] at this
    rw [if_pos hv0]

end Texted
