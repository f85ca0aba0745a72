import Verif.Spec.Literal
import Verif.Lemmas.Quote
/- strconv.Unquote reads exactly the string literals. -/
namespace Texted
open Spec

theorem encodeRune_byte (c : Char) (h : c.toNat < 128) : encodeRune c = [UInt8.ofNat c.toNat] := by
  have := encodeRune_ascii c.toNat h
  rwa [Char.ofNat_toNat] at this

theorem ofNat_eq_iff (n k : Nat) (h : n < 256) (hk : k < 256) : UInt8.ofNat n = UInt8.ofNat k ↔ n = k := by
  constructor
  · intro he
    have := congrArg UInt8.toNat he
    simp only [UInt8.toNat_ofNat'] at this
    omega
  · rintro rfl; rfl

/-- The digits of the model and of the specification. -/
theorem digit?_byte : ∀ n, n < 128 → digit? (Char.ofNat n) = unhex (UInt8.ofNat n) := by decide

theorem digit?_unhex (c : Char) (h : c.toNat < 128) : digit? c = unhex (UInt8.ofNat c.toNat) := by
  have := digit?_byte c.toNat h
  rwa [Char.ofNat_toNat] at this

theorem digit?_ascii {c : Char} {d : Nat} (h : digit? c = some d) : c.toNat < 128 ∧ d < 16 := by
  simp only [digit?, Char.le_def, UInt32.le_iff_toNat_le] at h
  have e : c.val.toNat = c.toNat := rfl
  simp only [e] at h
  split at h
  · rename_i h1
    cases h
    have : ('0' : Char).val.toNat = 48 := rfl
    have : ('9' : Char).val.toNat = 57 := rfl
    have : ('0' : Char).toNat = 48 := rfl
    omega
  · split at h
    · cases h
      have : ('a' : Char).val.toNat = 97 := rfl
      have : ('f' : Char).val.toNat = 102 := rfl
      have : ('a' : Char).toNat = 97 := rfl
      omega
    · split at h
      · cases h
        have : ('A' : Char).val.toNat = 65 := rfl
        have : ('F' : Char).val.toNat = 70 := rfl
        have : ('A' : Char).toNat = 65 := rfl
        omega
      · cases h

theorem encodeAll_head_ascii {c : Char} {cs : List Char} (h : c.toNat < 128) : encodeAll (c :: cs) = UInt8.ofNat c.toNat :: encodeAll cs := by
  rw [encodeAll_cons, encodeRune_byte c h]; rfl

theorem encodeAll_head_wide {c : Char} {cs : List Char} (h : 128 ≤ c.toNat) : ∃ x r, encodeAll (c :: cs) = x :: r ∧ 128 ≤ x.toNat := by
  obtain ⟨x, r, h1, _, h3⟩ := encodeRune_head c
  exact ⟨x, r ++ encodeAll cs, by rw [encodeAll_cons, h1]; rfl, h3 h⟩

theorem unhex_lt {c : UInt8} {d : Nat} (h : unhex c = some d) : c.toNat < 128 := by
  simp only [unhex] at h
  repeat' split at h
  all_goals first | omega | cases h

theorem readHex_iff (n : Nat) : ∀ (cs : List Char) (v w : Nat) (rest : Bytes), readHex n (encodeAll cs) v = some (w, rest) ↔
    ∃ ds r, cs = ds ++ r ∧ ds.length = n ∧ DigitsOf 16 ds ∧ w = ds.foldl (fun v c => v * 16 + (digit? c).getD 0) v ∧ rest = encodeAll r := by
  induction n with
  | zero =>
    intro cs v w rest
    simp only [readHex, Option.some.injEq, Prod.mk.injEq]
    constructor
    · rintro ⟨rfl, rfl⟩
      exact ⟨[], cs, rfl, rfl, fun c hc => (nomatch hc), rfl, rfl⟩
    · rintro ⟨ds, r, rfl, h1, _, rfl, rfl⟩
      obtain rfl := List.eq_nil_of_length_eq_zero h1
      exact ⟨rfl, rfl⟩
  | succ n ih =>
    intro cs v w rest
    cases cs with
    | nil =>
      simp only [encodeAll_nil, readHex]
      constructor
      · intro h; cases h
      · rintro ⟨ds, r, h, h1, _⟩
        have := (List.append_eq_nil_iff.1 h.symm).1
        subst this; cases h1
    | cons c cs =>
      by_cases hc : c.toNat < 128
      · rw [encodeAll_head_ascii hc, readHex, ← digit?_unhex c hc]
        cases hd : digit? c with
        | none =>
          simp only
          constructor
          · intro h; cases h
          · rintro ⟨ds, r, h, h1, h2, _⟩
            cases ds with
            | nil => cases h1
            | cons d ds =>
              simp only [List.cons_append, List.cons.injEq] at h
              obtain ⟨x, hx, _⟩ := h2 d (by simp)
              rw [← h.1, hd] at hx; cases hx
        | some d =>
          simp only
          rw [ih]
          constructor
          · rintro ⟨ds, r, rfl, h1, h2, h3, h4⟩
            refine ⟨c :: ds, r, rfl, by simp [h1], ?_, ?_, h4⟩
            · intro x hx
              rcases List.mem_cons.1 hx with rfl | hx
              · exact ⟨d, hd, (digit?_ascii hd).2⟩
              · exact h2 x hx
            · simp only [List.foldl_cons, hd, Option.getD_some]; exact h3
          · rintro ⟨ds, r, h, h1, h2, h3, h4⟩
            cases ds with
            | nil => cases h1
            | cons d' ds =>
              simp only [List.cons_append, List.cons.injEq] at h
              obtain ⟨rfl, rfl⟩ := h
              refine ⟨ds, r, rfl, by simpa using h1, fun x hx => h2 x (by simp [hx]), ?_, h4⟩
              simpa only [List.foldl_cons, hd, Option.getD_some] using h3
      · obtain ⟨x, r, hx, hx2⟩ := encodeAll_head_wide (c := c) (cs := cs) (by omega)
        rw [hx, readHex]
        have : unhex x = none := by
          cases hu : unhex x with
          | none => rfl
          | some d => have := unhex_lt hu; omega
        rw [this]
        simp only
        constructor
        · intro h; cases h
        · rintro ⟨ds, r, h, h1, h2, _⟩
          cases ds with
          | nil => cases h1
          | cons d ds =>
            simp only [List.cons_append, List.cons.injEq] at h
            obtain ⟨y, hy, _⟩ := h2 d (by simp)
            have := (digit?_ascii hy).1
            rw [← h.1] at this; omega

theorem validRune_iff (n : Nat) : validRune n = true ↔ Scalar n := by
  simp [validRune, Scalar]

/-- One character or escape. -/
inductive LitItem : List Char → Bytes → Prop
  | char (c : Char) : c ≠ '"' → c ≠ '\\' → LitItem [c] (encodeRune c)
  | simple (e : Char) (x : UInt8) : (e, x) ∈ simpleEscapes → LitItem ['\\', e] [x]
  | hex (ds : List Char) : DigitsOf 16 ds → ds.length = 2 → LitItem ('\\' :: 'x' :: ds) [UInt8.ofNat (numeral 16 ds)]
  | octal (ds : List Char) : DigitsOf 8 ds → ds.length = 3 → numeral 8 ds ≤ 255 → LitItem ('\\' :: ds) [UInt8.ofNat (numeral 8 ds)]
  | unicode (u : Char) (ds : List Char) : (u = 'u' ∧ ds.length = 4) ∨ (u = 'U' ∧ ds.length = 8) → DigitsOf 16 ds →
      Scalar (numeral 16 ds) → LitItem ('\\' :: u :: ds) (encodeRune (Char.ofNat (numeral 16 ds)))

theorem octal_digit {c : Char} : (∃ d, digit? c = some d ∧ d < 8) ↔ 48 ≤ c.toNat ∧ c.toNat ≤ 55 := by
  have : ∀ n, n < 128 → ((∃ d, digit? (Char.ofNat n) = some d ∧ d < 8) ↔ 48 ≤ n ∧ n ≤ 55) := by
    intro n hn
    have h : ∀ n, n < 128 → (((digit? (Char.ofNat n)).any fun d => decide (d < 8)) = true ↔ 48 ≤ n ∧ n ≤ 55) := by decide
    rw [← h n hn]
    cases digit? (Char.ofNat n) <;> simp
  constructor
  · intro h
    obtain ⟨d, hd, _⟩ := id h
    have h1 := this c.toNat (digit?_ascii hd).1
    rw [Char.ofNat_toNat] at h1
    exact h1.1 h
  · intro h
    have h1 := this c.toNat (by omega)
    rw [Char.ofNat_toNat] at h1
    exact h1.2 h

theorem octal_value {c : Char} (h : 48 ≤ c.toNat ∧ c.toNat ≤ 55) : (digit? c).getD 0 = c.toNat - 48 := by
  have : ∀ n, n < 128 → 48 ≤ n ∧ n ≤ 55 → (digit? (Char.ofNat n)).getD 0 = n - 48 := by decide
  have h1 := this c.toNat (by omega) h
  rwa [Char.ofNat_toNat] at h1

theorem byte_eq (c k : Char) (h : c.toNat < 128) (hk : k.toNat < 128) : UInt8.ofNat c.toNat = UInt8.ofNat k.toNat ↔ c = k := by
  rw [ofNat_eq_iff _ _ (by omega) (by omega)]
  exact ⟨char_eq_of_toNat, fun h => by rw [h]⟩

theorem unquoteChar_cons (c : UInt8) (s : Bytes) : unquoteChar (c :: s) =
    if c = 34 then none
    else if 0x80 ≤ c.toNat then
      let p := decodeRune (c :: s)
      some (encodeRune p.1, (c :: s).drop p.2)
    else if c ≠ 92 then some ([c], s)
    else match s with
      | [] => none
      | e :: s =>
        if e = 97 then some ([7], s)
        else if e = 98 then some ([8], s)
        else if e = 102 then some ([12], s)
        else if e = 110 then some ([10], s)
        else if e = 114 then some ([13], s)
        else if e = 116 then some ([9], s)
        else if e = 118 then some ([11], s)
        else if e = 120 then
          match readHex 2 s 0 with
          | some (v, r) => some ([UInt8.ofNat v], r)
          | none => none
        else if e = 117 ∨ e = 85 then
          match readHex (if e = 117 then 4 else 8) s 0 with
          | some (v, r) => if validRune v then some (encodeRune (Char.ofNat v), r) else none
          | none => none
        else if 48 ≤ e ∧ e ≤ 55 then
          match s with
          | x :: y :: r =>
            if 48 ≤ x ∧ x ≤ 55 ∧ 48 ≤ y ∧ y ≤ 55 then
              let v := (e.toNat - 48) * 64 + (x.toNat - 48) * 8 + (y.toNat - 48)
              if v > 255 then none else some ([UInt8.ofNat v], r)
            else none
          | _ => none
        else if e = 92 then some ([92], s)
        else if e = 34 then some ([34], s)
        else none := rfl

/-- `unquoteChar` behind a backslash, in terms of characters. -/
theorem unquoteChar_backslash (e : Char) (s : Bytes) (h : e.toNat < 128) : unquoteChar (92 :: UInt8.ofNat e.toNat :: s) =
    if e = 'a' then some ([7], s)
    else if e = 'b' then some ([8], s)
    else if e = 'f' then some ([12], s)
    else if e = 'n' then some ([10], s)
    else if e = 'r' then some ([13], s)
    else if e = 't' then some ([9], s)
    else if e = 'v' then some ([11], s)
    else if e = 'x' then
      match readHex 2 s 0 with
      | some (v, r) => some ([UInt8.ofNat v], r)
      | none => none
    else if e = 'u' ∨ e = 'U' then
      match readHex (if e = 'u' then 4 else 8) s 0 with
      | some (v, r) => if validRune v then some (encodeRune (Char.ofNat v), r) else none
      | none => none
    else if 48 ≤ e.toNat ∧ e.toNat ≤ 55 then
      match s with
      | x :: y :: r =>
        if 48 ≤ x ∧ x ≤ 55 ∧ 48 ≤ y ∧ y ≤ 55 then
          let v := (e.toNat - 48) * 64 + (x.toNat - 48) * 8 + (y.toNat - 48)
          if v > 255 then none else some ([UInt8.ofNat v], r)
        else none
      | _ => none
    else if e = '\\' then some ([92], s)
    else if e = '"' then some ([34], s)
    else none := by
  have k : ∀ (n : UInt8) (k : Char), n = UInt8.ofNat k.toNat → k.toNat < 128 → (UInt8.ofNat e.toNat = n) = (e = k) := by
    rintro _ k rfl hk; exact propext (byte_eq e k h hk)
  have ht : (UInt8.ofNat e.toNat).toNat = e.toNat := by rw [UInt8.toNat_ofNat']; omega
  have ho : (48 ≤ UInt8.ofNat e.toNat ∧ UInt8.ofNat e.toNat ≤ 55) = (48 ≤ e.toNat ∧ e.toNat ≤ 55) := by
    simp only [UInt8.le_iff_toNat_le, ht]; rfl
  rw [unquoteChar_cons, if_neg (by decide), if_neg (by decide), if_neg (by decide)]
  simp only [k 97 'a' rfl (by decide), k 98 'b' rfl (by decide), k 102 'f' rfl (by decide), k 110 'n' rfl (by decide),
    k 114 'r' rfl (by decide), k 116 't' rfl (by decide), k 118 'v' rfl (by decide), k 120 'x' rfl (by decide),
    k 117 'u' rfl (by decide), k 85 'U' rfl (by decide), k 92 '\\' rfl (by decide), k 34 '"' rfl (by decide), ho, ht]
  rfl

theorem unquoteChar_item {cs : List Char} {out rest : Bytes} (h : unquoteChar (encodeAll cs) = some (out, rest)) :
    ∃ a r, cs = a ++ r ∧ LitItem a out ∧ rest = encodeAll r := by
  cases cs with
  | nil => cases h
  | cons c cs =>
    by_cases hc : c.toNat < 128
    · by_cases hb : c = '\\'
      · subst hb
        rw [encodeAll_head_ascii hc] at h
        cases cs with
        | nil => cases h
        | cons e cs =>
          by_cases he : e.toNat < 128
          · rw [encodeAll_head_ascii he] at h
            replace h := (unquoteChar_backslash e (encodeAll cs) he).symm.trans h
            by_cases n : e = 'a'
            · subst n; cases h; exact ⟨['\\', 'a'], cs, rfl, .simple _ _ (by decide), rfl⟩
            rw [if_neg n] at h
            clear n
            by_cases n : e = 'b'
            · subst n; cases h; exact ⟨['\\', 'b'], cs, rfl, .simple _ _ (by decide), rfl⟩
            rw [if_neg n] at h
            clear n
            by_cases n : e = 'f'
            · subst n; cases h; exact ⟨['\\', 'f'], cs, rfl, .simple _ _ (by decide), rfl⟩
            rw [if_neg n] at h
            clear n
            by_cases n : e = 'n'
            · subst n; cases h; exact ⟨['\\', 'n'], cs, rfl, .simple _ _ (by decide), rfl⟩
            rw [if_neg n] at h
            clear n
            by_cases n : e = 'r'
            · subst n; cases h; exact ⟨['\\', 'r'], cs, rfl, .simple _ _ (by decide), rfl⟩
            rw [if_neg n] at h
            clear n
            by_cases n : e = 't'
            · subst n; cases h; exact ⟨['\\', 't'], cs, rfl, .simple _ _ (by decide), rfl⟩
            rw [if_neg n] at h
            clear n
            by_cases n : e = 'v'
            · subst n; cases h; exact ⟨['\\', 'v'], cs, rfl, .simple _ _ (by decide), rfl⟩
            rw [if_neg n] at h
            clear n
            by_cases n : e = 'x'
            · subst n
              rw [if_pos rfl] at h
              split at h
              · rename_i v r hr
                obtain ⟨ds, r', rfl, h1, h2, h3, h4⟩ := (readHex_iff 2 cs 0 v r).1 hr
                cases h
                refine ⟨'\\' :: 'x' :: ds, r', rfl, ?_, h4⟩
                rw [h3]; exact .hex ds h2 h1
              · cases h
            rw [if_neg n] at h
            clear n
            by_cases hu : e = 'u' ∨ e = 'U'
            · rw [if_pos hu] at h
              split at h
              · rename_i v r hr
                split at h
                · rename_i hv
                  obtain ⟨ds, r', rfl, h1, h2, h3, h4⟩ := (readHex_iff _ cs 0 v r).1 hr
                  cases h
                  refine ⟨'\\' :: e :: ds, r', rfl, ?_, h4⟩
                  subst h3
                  refine .unicode e ds ?_ h2 ((validRune_iff _).1 hv)
                  rcases hu with rfl | rfl
                  · exact .inl ⟨rfl, h1⟩
                  · exact .inr ⟨rfl, h1⟩
                · cases h
              · cases h
            rw [if_neg hu] at h
            by_cases ho : 48 ≤ e.toNat ∧ e.toNat ≤ 55
            · rw [if_pos ho] at h
              rcases cs with _ | ⟨x, cs⟩
              · cases h
              by_cases hx : x.toNat < 128
              · rw [encodeAll_head_ascii hx] at h
                rcases cs with _ | ⟨y, cs⟩
                · cases h
                by_cases hy : y.toNat < 128
                · rw [encodeAll_head_ascii hy] at h
                  have hx' : (UInt8.ofNat x.toNat).toNat = x.toNat := by rw [UInt8.toNat_ofNat']; omega
                  have hy' : (UInt8.ofNat y.toNat).toNat = y.toNat := by rw [UInt8.toNat_ofNat']; omega
                  simp only [UInt8.le_iff_toNat_le, hx', hy', UInt8.reduceToNat] at h
                  split at h
                  · rename_i hd
                    split at h
                    · cases h
                    · rename_i hv
                      cases h
                      have hval : numeral 8 [e, x, y] = (e.toNat - 48) * 64 + (x.toNat - 48) * 8 + (y.toNat - 48) := by
                        simp only [numeral, List.foldl_cons, List.foldl_nil, octal_value ho, octal_value ⟨hd.1, hd.2.1⟩, octal_value hd.2.2]
                        omega
                      refine ⟨['\\', e, x, y], cs, rfl, ?_, rfl⟩
                      rw [← hval]
                      refine .octal [e, x, y] ?_ rfl (by omega)
                      intro c hc
                      apply octal_digit.2
                      simp only [List.mem_cons, List.not_mem_nil, or_false] at hc
                      rcases hc with rfl | rfl | rfl <;> omega
                  · cases h
                · exfalso
                  obtain ⟨z, r, hz, hz2⟩ := encodeAll_head_wide (c := y) (cs := cs) (by omega)
                  rw [hz] at h
                  simp only [UInt8.le_iff_toNat_le, UInt8.reduceToNat] at h
                  rw [if_neg (by omega)] at h
                  cases h
              · exfalso
                obtain ⟨z, r, hz, hz2⟩ := encodeAll_head_wide (c := x) (cs := cs) (by omega)
                rw [hz] at h
                cases r with
                | nil => cases h
                | cons z' r =>
                  simp only [UInt8.le_iff_toNat_le, UInt8.reduceToNat] at h
                  rw [if_neg (by omega)] at h
                  cases h
            rw [if_neg ho] at h
            by_cases n : e = '\\'
            · subst n; cases h; exact ⟨['\\', '\\'], cs, rfl, .simple _ _ (by decide), rfl⟩
            rw [if_neg n] at h
            clear n
            by_cases n : e = '"'
            · subst n; cases h; exact ⟨['\\', '"'], cs, rfl, .simple _ _ (by decide), rfl⟩
            rw [if_neg n] at h
            cases h
          · exfalso
            obtain ⟨z, r, hz, hz2⟩ := encodeAll_head_wide (c := e) (cs := cs) (by omega)
            rw [hz] at h
            have hn : ∀ k : UInt8, k.toNat < 128 → z ≠ k := by rintro k hk rfl; omega
            have h0 : ¬ (48 ≤ z ∧ z ≤ 55) := by simp only [UInt8.le_iff_toNat_le, UInt8.reduceToNat]; omega
            rw [unquoteChar_cons, if_neg (by decide), if_neg (by decide), if_neg (by decide)] at h
            simp [hn 97 (by decide), hn 98 (by decide), hn 102 (by decide), hn 110 (by decide), hn 114 (by decide), hn 116 (by decide),
              hn 118 (by decide), hn 120 (by decide), hn 117 (by decide), hn 85 (by decide), h0, hn 92 (by decide), hn 34 (by decide)] at h
      · rw [encodeAll_head_ascii hc, unquoteChar_cons] at h
        have ht : (UInt8.ofNat c.toNat).toNat = c.toNat := by rw [UInt8.toNat_ofNat']; omega
        by_cases h34 : UInt8.ofNat c.toNat = 34
        · rw [if_pos h34] at h; cases h
        · rw [if_neg h34, if_neg (by omega), if_pos] at h
          · cases h
            refine ⟨[c], cs, rfl, ?_, rfl⟩
            rw [← encodeRune_byte c hc]
            refine .char c ?_ hb
            rintro rfl; exact h34 rfl
          · intro h92
            exact hb ((byte_eq c '\\' hc (by decide)).1 h92)
    · have hd := decode_encode c (encodeAll cs)
      obtain ⟨x, r, hx, hx2⟩ := encodeAll_head_wide (c := c) (cs := cs) (by omega)
      rw [← encodeAll_cons] at hd
      rw [hx, unquoteChar_cons, if_neg (by rintro rfl; revert hx2; decide), if_pos hx2, ← hx] at h
      simp only [hd, Option.some.injEq, Prod.mk.injEq] at h
      refine ⟨[c], cs, rfl, ?_, ?_⟩
      · rw [← h.1]; exact .char c (by rintro rfl; exact hc (by decide)) (by rintro rfl; exact hc (by decide))
      · rw [← h.2, encodeAll_cons, List.drop_append_of_le_length (Nat.le_refl _), List.drop_length]; rfl

theorem item_unquoteChar {a : List Char} {out : Bytes} (h : LitItem a out) (r : List Char) :
    unquoteChar (encodeAll (a ++ r)) = some (out, encodeAll r) := by
  have hbs : ('\\' : Char).toNat < 128 := by decide
  cases h with
  | char c h1 h2 =>
    rw [List.singleton_append]
    by_cases hc : c.toNat < 128
    · rw [encodeAll_head_ascii hc, encodeRune_byte c hc, unquoteChar_cons,
        if_neg (show ¬ UInt8.ofNat c.toNat = 34 from fun h => h1 ((byte_eq c '"' hc (by decide)).1 h)), if_neg,
        if_pos (show UInt8.ofNat c.toNat ≠ 92 from fun h => h2 ((byte_eq c '\\' hc (by decide)).1 h))]
      rw [UInt8.toNat_ofNat']; omega
    · have hd := decode_encode c (encodeAll r)
      obtain ⟨x, t, hx, hx2⟩ := encodeAll_head_wide (c := c) (cs := r) (by omega)
      rw [← encodeAll_cons] at hd
      rw [hx, unquoteChar_cons, if_neg (by rintro rfl; revert hx2; decide), if_pos hx2, ← hx]
      simp only [hd]
      rw [encodeAll_cons, List.drop_append_of_le_length (Nat.le_refl _), List.drop_length]; rfl
  | simple e x h =>
    have hx : ∀ p ∈ simpleEscapes, p.1.toNat < 128 := by decide
    have he := hx _ h
    simp only [List.cons_append, List.nil_append]
    rw [encodeAll_head_ascii hbs, encodeAll_head_ascii he]
    refine (unquoteChar_backslash e (encodeAll r) he).trans ?_
    simp only [simpleEscapes, List.mem_cons, Prod.mk.injEq, List.not_mem_nil, or_false] at h
    rcases h with ⟨rfl, rfl⟩ | ⟨rfl, rfl⟩ | ⟨rfl, rfl⟩ | ⟨rfl, rfl⟩ | ⟨rfl, rfl⟩ | ⟨rfl, rfl⟩ | ⟨rfl, rfl⟩ | ⟨rfl, rfl⟩ | ⟨rfl, rfl⟩ <;> rfl
  | hex ds h1 h2 =>
    have h := (readHex_iff 2 (ds ++ r) 0 _ _).2 ⟨ds, r, rfl, h2, h1, rfl, rfl⟩
    simp only [List.cons_append]
    rw [encodeAll_head_ascii hbs, encodeAll_head_ascii (by decide)]
    refine (unquoteChar_backslash 'x' _ (by decide)).trans ?_
    rw [h]; rfl
  | octal ds h1 h2 h3 =>
    match ds, h2 with
    | [e, x, y], _ =>
      have he := octal_digit.1 (h1 e (by simp))
      have hx := octal_digit.1 (h1 x (by simp))
      have hy := octal_digit.1 (h1 y (by simp))
      have hval : numeral 8 [e, x, y] = (e.toNat - 48) * 64 + (x.toNat - 48) * 8 + (y.toNat - 48) := by
        simp only [numeral, List.foldl_cons, List.foldl_nil, octal_value he, octal_value hx, octal_value hy]
        omega
      have hx' : (UInt8.ofNat x.toNat).toNat = x.toNat := by rw [UInt8.toNat_ofNat']; omega
      have hy' : (UInt8.ofNat y.toNat).toNat = y.toNat := by rw [UInt8.toNat_ofNat']; omega
      have hne : ∀ k : Char, 55 < k.toNat → e ≠ k := by rintro k hk rfl; omega
      simp only [List.cons_append, List.nil_append]
      rw [encodeAll_head_ascii hbs, encodeAll_head_ascii (by omega), encodeAll_head_ascii (by omega), encodeAll_head_ascii (by omega)]
      refine (unquoteChar_backslash e _ (by omega)).trans ?_
      rw [if_neg (hne _ (by decide)), if_neg (hne _ (by decide)), if_neg (hne _ (by decide)), if_neg (hne _ (by decide)),
        if_neg (hne _ (by decide)), if_neg (hne _ (by decide)), if_neg (hne _ (by decide)), if_neg (hne _ (by decide)),
        if_neg (fun h => h.elim (hne _ (by decide)) (hne _ (by decide))), if_pos he]
      simp only [UInt8.le_iff_toNat_le, hx', hy', UInt8.reduceToNat]
      rw [if_pos ⟨hx.1, hx.2, hy⟩, ← hval, if_neg (by omega)]
  | unicode u ds h1 h2 h3 =>
    simp only [List.cons_append]
    rcases h1 with ⟨rfl, h1⟩ | ⟨rfl, h1⟩
    · have h := (readHex_iff 4 (ds ++ r) 0 _ _).2 ⟨ds, r, rfl, h1, h2, rfl, rfl⟩
      rw [encodeAll_head_ascii hbs, encodeAll_head_ascii (by decide)]
      refine (unquoteChar_backslash 'u' _ (by decide)).trans ?_
      have hv := (validRune_iff _).2 h3
      show (match readHex 4 (encodeAll (ds ++ r)) 0 with | some (v, r) => if validRune v then some (encodeRune (Char.ofNat v), r) else none | none => none) = _
      rw [h]
      exact if_pos hv
    · have h := (readHex_iff 8 (ds ++ r) 0 _ _).2 ⟨ds, r, rfl, h1, h2, rfl, rfl⟩
      rw [encodeAll_head_ascii hbs, encodeAll_head_ascii (by decide)]
      refine (unquoteChar_backslash 'U' _ (by decide)).trans ?_
      have hv := (validRune_iff _).2 h3
      show (match readHex 8 (encodeAll (ds ++ r)) 0 with | some (v, r) => if validRune v then some (encodeRune (Char.ofNat v), r) else none | none => none) = _
      rw [h]
      exact if_pos hv

theorem LitItem.ne_nil {a : List Char} {o : Bytes} (h : LitItem a o) : a ≠ [] := by cases h <;> simp

theorem LitItem.head {a : List Char} {o : Bytes} (h : LitItem a o) : a.head? ≠ some '"' := by
  cases h with
  | char c h1 h2 => simpa using h1
  | _ => simp

theorem LitItem.head_nl {a : List Char} {o : Bytes} (h : LitItem a o) (r : List Char) (ho : Bytes) (hn : a.head? ≠ some '\n')
    (hr : LitBody r ho) : LitBody (a ++ r) (o ++ ho) := by
  cases h with
  | char c h1 h2 => exact .char c r ho h1 h2 (by simpa using hn) hr
  | simple e x h => exact .simple e x r ho h hr
  | hex ds h1 h2 => exact .hex ds r ho h1 h2 hr
  | octal ds h1 h2 h3 => exact .octal ds r ho h1 h2 h3 hr
  | unicode u ds h1 h2 h3 => exact .unicode u ds r ho h1 h2 h3 hr

theorem Spec.LitBody.cases_item {cs : List Char} {o : Bytes} (h : LitBody cs o) : (cs = [] ∧ o = []) ∨
    ∃ a r x y, cs = a ++ r ∧ o = x ++ y ∧ LitItem a x ∧ a.head? ≠ some '\n' ∧ LitBody r y := by
  cases h with
  | nil => exact .inl ⟨rfl, rfl⟩
  | char c r o h1 h2 h3 hr => exact .inr ⟨[c], r, _, o, rfl, rfl, .char c h1 h2, by simpa using h3, hr⟩
  | simple e x r o h hr => exact .inr ⟨['\\', e], r, [x], o, rfl, rfl, .simple e x h, by simp, hr⟩
  | hex ds r o h1 h2 hr => exact .inr ⟨'\\' :: 'x' :: ds, r, [_], o, rfl, rfl, .hex ds h1 h2, by simp, hr⟩
  | octal ds r o h1 h2 h3 hr => exact .inr ⟨'\\' :: ds, r, [_], o, rfl, rfl, .octal ds h1 h2 h3, by simp, hr⟩
  | unicode u ds r o h1 h2 h3 hr => exact .inr ⟨'\\' :: u :: ds, r, _, o, rfl, rfl, .unicode u ds h1 h2 h3, by simp, hr⟩

theorem encodeAll_head (c : Char) (cs : List Char) (k : Char) (hk : k.toNat < 128) :
    ∃ x r, encodeAll (c :: cs) = x :: r ∧ (x = UInt8.ofNat k.toNat ↔ c = k) := by
  by_cases hc : c.toNat < 128
  · exact ⟨_, _, encodeAll_head_ascii hc, byte_eq c k hc hk⟩
  · obtain ⟨x, r, hx, hx2⟩ := encodeAll_head_wide (c := c) (cs := cs) (by omega)
    refine ⟨x, r, hx, ⟨?_, by rintro rfl; omega⟩⟩
    rintro rfl
    rw [UInt8.toNat_ofNat'] at hx2; omega

theorem unquoteLoop_cons (f : Nat) (c : Char) (cs : List Char) : unquoteLoop (f + 1) (encodeAll (c :: cs)) =
    if c = '"' then some ([], encodeAll cs)
    else if c = '\n' then none
    else match unquoteChar (encodeAll (c :: cs)) with
      | none => none
      | some (out, r) => match unquoteLoop f r with
        | none => none
        | some (more, rest) => some (out ++ more, rest) := by
  obtain ⟨x, r, hx, h1⟩ := encodeAll_head c cs '"' (by decide)
  obtain ⟨x', r', hx', h2⟩ := encodeAll_head c cs '\n' (by decide)
  rw [hx] at hx'
  cases hx'
  replace h1 : x = 34 ↔ c = '"' := h1
  replace h2 : x = 10 ↔ c = '\n' := h2
  rw [hx, unquoteLoop]
  simp only [h1, h2]
  by_cases hq : c = '"'
  · rw [if_pos hq, if_pos hq]
    subst hq
    rw [encodeAll_head_ascii (by decide)] at hx
    cases hx; rfl
  · rw [if_neg hq, if_neg hq]
    rfl

theorem unquoteLoop_sound (f : Nat) : ∀ (cs : List Char) (out rest : Bytes), unquoteLoop f (encodeAll cs) = some (out, rest) →
    ∃ body r, cs = body ++ '"' :: r ∧ LitBody body out ∧ rest = encodeAll r := by
  induction f with
  | zero => intro cs out rest h; cases h
  | succ f ih =>
    intro cs out rest h
    cases cs with
    | nil => cases h
    | cons c cs =>
      rw [unquoteLoop_cons] at h
      by_cases hq : c = '"'
      · rw [if_pos hq] at h
        cases h
        exact ⟨[], cs, by rw [hq]; rfl, .nil, rfl⟩
      · rw [if_neg hq] at h
        by_cases hn : c = '\n'
        · rw [if_pos hn] at h; cases h
        · rw [if_neg hn] at h
          split at h
          · cases h
          · rename_i x r hx
            split at h
            · cases h
            · rename_i y r' hy
              cases h
              obtain ⟨a, r1, h1, h2, rfl⟩ := unquoteChar_item hx
              obtain ⟨body, r2, rfl, h3, rfl⟩ := ih _ _ _ hy
              refine ⟨a ++ body, r2, by rw [h1, List.append_assoc], h2.head_nl _ _ ?_ h3, rfl⟩
              obtain ⟨c', a', rfl⟩ := List.exists_cons_of_ne_nil h2.ne_nil
              cases h1
              simpa using hn

theorem unquoteLoop_complete {body : List Char} {out : Bytes} (h : LitBody body out) (r : List Char) : ∀ f, body.length < f →
    unquoteLoop f (encodeAll (body ++ '"' :: r)) = some (out, encodeAll r) := by
  induction hl : body.length using Nat.strongRecOn generalizing body out with
  | ind k ih =>
    intro f hf
    cases f with
    | zero => omega
    | succ f =>
      rcases h.cases_item with ⟨rfl, rfl⟩ | ⟨a, r', x, y, rfl, rfl, h1, h2, h3⟩
      · rw [List.nil_append, unquoteLoop_cons, if_pos rfl]
      · obtain ⟨c, a', rfl⟩ := List.exists_cons_of_ne_nil h1.ne_nil
        have hi := item_unquoteChar h1 (r' ++ '"' :: r)
        have hc := h1.head
        simp only [List.head?_cons, ne_eq, Option.some.injEq] at hc h2
        simp only [List.length_append, List.length_cons] at hl
        rw [List.append_assoc]
        simp only [List.cons_append] at hi ⊢
        rw [unquoteLoop_cons, if_neg hc, if_neg h2, hi]
        simp only
        rw [ih r'.length (by omega) h3 rfl f (by omega)]

/-- `strconv.Unquote` accepts exactly the string literals. -/
theorem unquote_iff (cs : List Char) (s : Bytes) : unquote (encodeAll cs) = some s ↔ StringLit cs s := by
  cases cs with
  | nil =>
    constructor
    · intro h; cases h
    · rintro ⟨body, h, _⟩; cases h
  | cons c cs =>
    by_cases hq : c = '"'
    · subst hq
      rw [encodeAll_head_ascii (by decide)]
      show (match unquoteLoop ((encodeAll cs).length + 1) (encodeAll cs) with | some (out, []) => some out | _ => none) = some s ↔ _
      constructor
      · intro h
        split at h
        · rename_i out hu
          cases h
          obtain ⟨body, r, h1, h2, h3⟩ := unquoteLoop_sound _ _ _ _ hu
          obtain rfl := encodeAll_eq_nil.1 h3.symm
          exact ⟨body, by rw [h1], h2⟩
        · cases h
      · rintro ⟨body, h, hb⟩
        simp only [List.cons.injEq, true_and] at h
        subst h
        rw [unquoteLoop_complete hb [] _ ?_]
        · rfl
        · have h1 : ∀ l : List Char, l.length ≤ (encodeAll l).length := by
            intro l
            induction l with
            | nil => simp
            | cons c l ih => have := (encodeRune_length c).1; rw [encodeAll_cons, List.length_append, List.length_cons]; omega
          have := h1 (body ++ ['"'])
          simp only [List.length_append, List.length_cons, List.length_nil] at this
          omega
    · obtain ⟨x, r, hx, h1⟩ := encodeAll_head c cs '"' (by decide)
      have hx34 : x ≠ 34 := fun h => hq (h1.1 h)
      rw [hx]
      constructor
      · intro h
        unfold unquote at h
        split at h
        · rename_i he; cases he; exact absurd rfl hx34
        · cases h
      · rintro ⟨body, h, _⟩
        cases h; exact absurd rfl hq

end Texted
