import Verif.Spec.Utf8Text
import Verif.Lemmas.Utf8
import Verif.Lemmas.Scan
/- Lemmas about UTF-8 text (C73). -/
namespace Texted

/-- The model's encoder is Lean's. -/
theorem encodeRune_core (c : Char) : encodeRune c = String.utf8EncodeChar c := by
  have hr := char_range c
  unfold encodeRune String.utf8EncodeChar
  change c.toNat < 0xD800 ∨ _ at hr
  have hv : c.val.toNat = c.toNat := rfl
  simp only [hv]
  generalize c.toNat = n at hr ⊢
  by_cases h1 : n < 0x80
  · rw [if_pos h1, if_pos (show n ≤ 0x7f by omega)]
  · rw [if_neg h1, if_neg (show ¬ n ≤ 0x7f by omega)]
    by_cases h2 : n < 0x800
    · rw [if_pos h2, if_pos (show n ≤ 0x7ff by omega)]
      rw [show 0xC0 + n / 64 = n / 64 % 32 + 0xC0 by omega, show 0x80 + n % 64 = n % 64 + 0x80 by omega]
    · rw [if_neg h2, if_neg (show ¬ n ≤ 0x7ff by omega)]
      by_cases h3 : n < 0x10000
      · rw [if_pos h3, if_pos (show n ≤ 0xffff by omega)]
        rw [show 0xE0 + n / 4096 = n / 4096 % 16 + 0xE0 by omega, show 0x80 + n / 64 % 64 = n / 64 % 64 + 0x80 by omega,
          show 0x80 + n % 64 = n % 64 + 0x80 by omega]
      · rw [if_neg h3, if_neg (show ¬ n ≤ 0xffff by omega)]
        rw [show 0xF0 + n / 262144 = n / 262144 % 8 + 0xF0 by omega, show 0x80 + n / 4096 % 64 = n / 4096 % 64 + 0x80 by omega,
          show 0x80 + n / 64 % 64 = n / 64 % 64 + 0x80 by omega, show 0x80 + n % 64 = n % 64 + 0x80 by omega]

theorem utf8_encodeAll {s : Bytes} : Utf8Text s ↔ ∃ cs, s = encodeAll cs := by
  unfold Utf8Text encodeAll
  have : encodeRune = String.utf8EncodeChar := funext encodeRune_core
  rw [this]

/-- Being UTF-8 text can be computed. -/
theorem utf8_decide (s : Bytes) : Utf8Text s ↔ encodeAll (decodeAll s) = s := by
  rw [utf8_encodeAll]
  constructor
  · rintro ⟨cs, rfl⟩; rw [decodeAll_encodeAll]
  · intro h; exact ⟨_, h.symm⟩

instance (s : Bytes) : Decidable (Utf8Text s) := decidable_of_iff _ (utf8_decide s).symm

theorem Utf8Text.nil : Utf8Text [] := ⟨[], rfl⟩

theorem Utf8Text.append {u v : Bytes} (hu : Utf8Text u) (hv : Utf8Text v) : Utf8Text (u ++ v) := by
  obtain ⟨a, rfl⟩ := hu
  obtain ⟨b, rfl⟩ := hv
  exact ⟨a ++ b, by simp⟩

theorem encode_prefix_free {c d : Char} {r t : Bytes} (h : encodeRune c ++ r = encodeRune d ++ t) : c = d ∧ r = t := by
  have h1 := decode_encode c r
  have h2 := decode_encode d t
  rw [h, h2] at h1
  have e : d = c := (Prod.mk.injEq .. ▸ h1).1
  subst e
  exact ⟨rfl, List.append_cancel_left h⟩

/-- What follows UTF-8 text in UTF-8 text is UTF-8 text. -/
theorem Utf8Text.cancel {u v : Bytes} (h : Utf8Text (u ++ v)) (hu : Utf8Text u) : Utf8Text v := by
  rw [utf8_encodeAll] at h hu ⊢
  obtain ⟨a, ha⟩ := h
  obtain ⟨b, rfl⟩ := hu
  induction b generalizing a with
  | nil => exact ⟨a, by simpa [encodeAll] using ha⟩
  | cons c b ih =>
    cases a with
    | nil =>
      have h0 := congrArg List.length ha
      have hl := encodeRune_length c
      simp only [encodeAll, List.flatMap_cons, List.flatMap_nil, List.length_append, List.length_nil] at h0
      omega
    | cons d a =>
      simp only [encodeAll, List.flatMap_cons, List.append_assoc] at ha
      obtain ⟨rfl, h'⟩ := encode_prefix_free ha
      exact ih a h'

/-- The first byte of an encoded character is no continuation byte, all others are. -/
theorem encodeRune_bytes (c : Char) : ∀ n x, (encodeRune c)[n]? = some x → (isCont x = true ↔ 0 < n) := by
  have hr := char_range c
  unfold encodeRune
  simp only []
  generalize c.toNat = m at hr ⊢
  have hb : ∀ k, k < 256 → (isCont (UInt8.ofNat k) = true ↔ 0x80 ≤ k ∧ k ≤ 0xBF) := by
    intro k hk; rw [isCont_iff, bn_ofNat k hk]
  intro n x
  split
  · rcases n with _ | n
    · intro h; obtain rfl := Option.some.inj h; rw [hb _ (by omega)]; omega
    · intro h; simp at h
  · split
    · rcases n with _ | _ | n
      · intro h; obtain rfl := Option.some.inj h; rw [hb _ (by omega)]; omega
      · intro h; obtain rfl := Option.some.inj h; rw [hb _ (by omega)]; omega
      · intro h; simp at h
    · split
      · rcases n with _ | _ | _ | n
        · intro h; obtain rfl := Option.some.inj h; rw [hb _ (by omega)]; omega
        · intro h; obtain rfl := Option.some.inj h; rw [hb _ (by omega)]; omega
        · intro h; obtain rfl := Option.some.inj h; rw [hb _ (by omega)]; omega
        · intro h; simp at h
      · rcases n with _ | _ | _ | _ | n
        · intro h; obtain rfl := Option.some.inj h; rw [hb _ (by omega)]; omega
        · intro h; obtain rfl := Option.some.inj h; rw [hb _ (by omega)]; omega
        · intro h; obtain rfl := Option.some.inj h; rw [hb _ (by omega)]; omega
        · intro h; obtain rfl := Option.some.inj h; rw [hb _ (by omega)]; omega
        · intro h; simp at h

/-- The offset `n` is a character boundary of `s`. -/
def Cut (s : Bytes) (n : Nat) : Prop := n ≤ s.length ∧ Utf8Text (s.take n) ∧ Utf8Text (s.drop n)

theorem Cut.text {s : Bytes} {n : Nat} (h : Cut s n) : Utf8Text s := by
  have := h.2.1.append h.2.2; rwa [List.take_append_drop] at this

theorem cut_between {s : Bytes} {n : Nat} : Between s ((n : Int) + 1) ↔ Cut s n := by
  constructor
  · rintro ⟨u, v, hu, hv, rfl, hp⟩
    have : n = u.length := by omega
    subst this
    exact ⟨by simp, by simpa using hu, by simpa using hv⟩
  · rintro ⟨h, hu, hv⟩
    exact ⟨_, _, hu, hv, (List.take_append_drop n s).symm, by rw [List.length_take]; omega⟩

theorem between_exists {s : Bytes} {p : Int} (h : Between s p) : ∃ n : Nat, p = n + 1 ∧ Cut s n := by
  obtain ⟨u, v, hu, hv, rfl, rfl⟩ := h
  exact ⟨u.length, rfl, by simp, by simpa using hu, by simpa using hv⟩

theorem cut_zero {s : Bytes} (h : Utf8Text s) : Cut s 0 := ⟨by omega, by simpa using Utf8Text.nil, by simpa using h⟩

theorem cut_end {s : Bytes} (h : Utf8Text s) : Cut s s.length := ⟨by omega, by simpa using h, by simpa using Utf8Text.nil⟩

/-- A byte that is not a continuation byte begins a character. -/
theorem cut_of_lead {s : Bytes} (h : Utf8Text s) {n : Nat} {x : UInt8} (hx : s[n]? = some x) (hc : isCont x = false) : Cut s n := by
  have key : Utf8Text (s.take n) := by
    rw [utf8_encodeAll] at h ⊢
    obtain ⟨cs, rfl⟩ := h
    induction cs generalizing n with
    | nil => simp [encodeAll] at hx
    | cons c cs ih =>
      simp only [encodeAll, List.flatMap_cons] at hx ⊢
      rcases Nat.lt_or_ge n (encodeRune c).length with hlt | hge
      · rw [List.getElem?_append_left hlt] at hx
        have := encodeRune_bytes c n x hx
        have h0 : n = 0 := by rw [hc] at this; simpa using this
        subst h0
        exact ⟨[], rfl⟩
      · rw [List.getElem?_append_right hge] at hx
        obtain ⟨ds, hd⟩ := ih hx
        refine ⟨c :: ds, ?_⟩
        rw [List.take_append, List.take_of_length_le hge]
        simp only [encodeAll, List.flatMap_cons] at hd ⊢
        rw [hd]
  have hlt : n < s.length := by
    rcases Nat.lt_or_ge n s.length with h' | h'
    · exact h'
    · rw [List.getElem?_eq_none h'] at hx; cases hx
  refine ⟨by omega, key, ?_⟩
  have h2 := h
  rw [← List.take_append_drop n s] at h2
  exact h2.cancel key

theorem utf8_ascii_byte {x : UInt8} (hx : x.toNat < 128) : Utf8Text [x] := by
  rw [utf8_encodeAll]
  refine ⟨[Char.ofNat x.toNat], ?_⟩
  simp [encodeAll, encodeRune_ascii _ hx]

theorem not_cont {x : UInt8} (hx : x.toNat < 128) : isCont x = false := by
  have : ¬ isCont x = true := by rw [isCont_iff]; unfold bn; omega
  simpa using this

/-- Before and after an ASCII byte there are character boundaries. -/
theorem cut_ascii {s : Bytes} (h : Utf8Text s) {n : Nat} {x : UInt8} (hx : s[n]? = some x) (ha : x.toNat < 128) :
    Cut s n ∧ Cut s (n + 1) := by
  have hn := cut_of_lead h hx (not_cont ha)
  have hlt : n < s.length := by
    rcases Nat.lt_or_ge n s.length with h' | h'
    · exact h'
    · rw [List.getElem?_eq_none h'] at hx; cases hx
  refine ⟨hn, by omega, ?_, ?_⟩
  · rw [List.take_succ, hx]
    exact hn.2.1.append (utf8_ascii_byte ha)
  · have hd : s.drop n = [x] ++ s.drop (n + 1) := by
      rw [List.drop_eq_getElem_cons hlt]
      rw [List.getElem?_eq_getElem hlt] at hx
      cases hx; rfl
    have := hn.2.2
    rw [hd] at this
    exact this.cancel (utf8_ascii_byte ha)

/-- Text between two boundaries. -/
theorem Cut.mid {s : Bytes} {i j : Nat} (hi : Cut s i) (hj : Cut s j) (h : i ≤ j) : Utf8Text ((s.drop i).take (j - i)) := by
  have e : s.take j = s.take i ++ (s.drop i).take (j - i) := by
    have := List.take_append_drop i (s.take j)
    rw [List.take_take, Nat.min_eq_left h, List.drop_take] at this
    exact this.symm
  have := hj.2.1
  rw [e] at this
  exact this.cancel hi.2.1

theorem cut_append {u t v : Bytes} (hu : Utf8Text u) (ht : Utf8Text t) (hv : Utf8Text v) :
    Cut (u ++ t ++ v) u.length ∧ Cut (u ++ t ++ v) (u.length + t.length) := by
  constructor
  · refine ⟨by simp, ?_, ?_⟩
    · rw [List.append_assoc, List.take_left]; exact hu
    · rw [List.append_assoc, List.drop_left]; exact ht.append hv
  · rw [← List.length_append]
    refine ⟨by simp, ?_, ?_⟩
    · rw [List.take_left]; exact hu.append ht
    · rw [List.drop_left]; exact hv

/-- Where UTF-8 text occurs in UTF-8 text, it begins and ends at boundaries (if it is not empty). -/
theorem cut_occurs {s p : Bytes} {i : Nat} (h : Utf8Text s) (hp : Utf8Text p) (hne : p ≠ []) (ho : OccursAt p s i) :
    Cut s i ∧ Cut s (i + p.length) := by
  obtain ⟨u, v, rfl, rfl⟩ := ho
  obtain ⟨cs, hcs⟩ := utf8_encodeAll.1 hp
  have hlead : ∃ x, p[0]? = some x ∧ isCont x = false := by
    cases cs with
    | nil => exact absurd hcs hne
    | cons c cs =>
      have hl := encodeRune_length c
      simp only [encodeAll, List.flatMap_cons] at hcs
      refine ⟨(encodeRune c)[0], ?_, ?_⟩
      · rw [hcs, List.getElem?_append_left (by omega), List.getElem?_eq_getElem]
      · have := encodeRune_bytes c 0 _ (List.getElem?_eq_getElem (by omega))
        simpa using this
  obtain ⟨x, hx, hc⟩ := hlead
  have hlen : 0 < p.length := List.length_pos_iff.2 hne
  have hu : Cut (u ++ p ++ v) u.length := by
    refine cut_of_lead h (x := x) ?_ hc
    rw [List.append_assoc, List.getElem?_append_right (by omega), Nat.sub_self, List.getElem?_append_left hlen]
    exact hx
  have hut : Utf8Text u := by have := hu.2.1; rwa [List.append_assoc, List.take_left] at this
  have hpv : Utf8Text (p ++ v) := by have := hu.2.2; rwa [List.append_assoc, List.drop_left] at this
  exact cut_append hut hp (hpv.cancel hp)

/-- Boundaries of a suffix that begins at a boundary. -/
theorem Cut.drop {s : Bytes} {i j : Nat} (hi : Cut s i) (hj : Cut (s.drop i) j) : Cut s (i + j) := by
  obtain ⟨h1, h2, h3⟩ := hi
  obtain ⟨g1, g2, g3⟩ := hj
  rw [List.length_drop] at g1
  refine ⟨by omega, ?_, by rwa [List.drop_drop] at g3⟩
  have : s.take (i + j) = s.take i ++ (s.drop i).take j := by
    rw [List.take_add]
  rw [this]; exact h2.append g2

/-- Boundaries of a prefix that ends at a boundary. -/
theorem Cut.take {s : Bytes} {i j : Nat} (hi : Cut s i) (hj : Cut (s.take i) j) : Cut s j := by
  obtain ⟨h1, h2, h3⟩ := hi
  obtain ⟨g1, g2, g3⟩ := hj
  rw [List.length_take] at g1
  have hle : j ≤ i := by omega
  refine ⟨by omega, by rwa [List.take_take, Nat.min_eq_left hle] at g2, ?_⟩
  have e : s.drop j = (s.take i).drop j ++ s.drop i := by
    conv => lhs; rw [← List.take_append_drop i s]
    rw [List.drop_append, List.length_take, Nat.min_eq_left h1, Nat.sub_eq_zero_of_le hle, List.drop_zero]
  rw [e]; exact g3.append h3

/-! ### Words and lines -/

theorem wordByte_ascii {x : UInt8} (h : WordByte x) : x.toNat < 128 := by unfold WordByte at h; omega

theorem cut_wordAt {s : Bytes} (h : Utf8Text s) {n : Nat} (hw : WordAt s n) : Cut s n ∧ Cut s (n + 1) := by
  obtain ⟨x, hx, hb⟩ := hw
  exact cut_ascii h hx (wordByte_ascii hb)

theorem cut_newline {s : Bytes} (h : Utf8Text s) {n : Nat} (hw : s[n]? = some nl) : Cut s n ∧ Cut s (n + 1) :=
  cut_ascii h hw (by decide)

theorem cut_lineStart {s : Bytes} (h : Utf8Text s) {i k : Nat} (hk : IsLineStart s i k) : Cut s k := by
  rcases hk.2.1 with rfl | hn
  · exact cut_zero h
  · rcases Nat.eq_zero_or_pos k with rfl | hp
    · exact cut_zero h
    · have := (cut_newline h hn).2
      rwa [Nat.sub_add_cancel hp] at this

theorem cut_lineEnd {s : Bytes} (h : Utf8Text s) {i k : Nat} (hk : IsLineEnd s i k) : Cut s k := by
  rcases hk.2.2.1 with rfl | hn
  · exact cut_end h
  · exact (cut_newline h hn).1

theorem cut_lineNext {s : Bytes} (h : Utf8Text s) {i k : Nat} (hk : IsLineNext s i k) : Cut s k := by
  obtain ⟨e, he, ⟨hlt, rfl⟩ | ⟨hl, rfl⟩⟩ := hk
  · rcases he.2.2.1 with h' | hn
    · omega
    · exact (cut_newline h hn).2
  · exact cut_lineEnd h he

theorem cut_nextWord {s : Bytes} (h : Utf8Text s) {i k : Nat} (hk : IsNextWordEnd s i k) : Cut s k := by
  obtain ⟨m, _, h2, _, _, h5, h6, _⟩ := hk
  rcases Nat.lt_or_ge m k with hlt | hge
  · have := (cut_wordAt h (h6 (k - 1) (by omega) (by omega))).2
    rwa [Nat.sub_add_cancel (by omega)] at this
  · have : m = k := by omega
    subst this
    rcases h5 with rfl | hw
    · exact cut_end h
    · exact (cut_wordAt h hw).1

theorem cut_prevWord {s : Bytes} (h : Utf8Text s) {i k : Nat} (hk : IsPrevWordStart s i k) : Cut s k := by
  obtain ⟨m, h1, _, _, h4, h5, _⟩ := hk
  rcases Nat.lt_or_ge k m with hlt | hge
  · exact (cut_wordAt h (h5 k (by omega) hlt)).1
  · have : m = k := by omega
    subst this
    rcases h4 with rfl | hw
    · exact cut_zero h
    · rcases Nat.eq_zero_or_pos m with rfl | hp
      · exact cut_zero h
      · have := (cut_wordAt h hw).2
        rwa [Nat.sub_add_cancel hp] at this

theorem cut_iter {s : Bytes} {R : Nat → Nat → Prop} (hR : ∀ i k, R i k → Cut s k) {n i k : Nat} (hi : Cut s i)
    (h : Iter R n i k) : Cut s k := by
  induction n generalizing i with
  | zero => cases h; exact hi
  | succ n ih =>
    obtain ⟨j, h1, h2⟩ := h
    exact ih (hR _ _ h1) h2

end Texted
