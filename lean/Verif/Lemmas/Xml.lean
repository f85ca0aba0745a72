import Verif.Spec.Xml
import Verif.Lemmas.Utf8Text
/- Lemmas for C77: the pieces of the XML reader against the grammar of Spec/Xml. -/
namespace Texted
open Spec

theorem checkRunes_encode (ok : Char → Bool) (cs : List Char) : ∀ f, (encodeAll cs).length ≤ f →
    (checkRunes ok f (encodeAll cs) = true ↔ ∀ c ∈ cs, ok c = true) := by
  induction cs with
  | nil => intro f _; cases f <;> simp [encodeAll, checkRunes]
  | cons c cs ih =>
    intro f hf
    have hl := (encodeRune_length c).1
    have he : encodeAll (c :: cs) = encodeRune c ++ encodeAll cs := by simp [encodeAll]
    rw [he, List.length_append] at hf
    obtain ⟨f, rfl⟩ : ∃ g, f = g + 1 := ⟨f - 1, by omega⟩
    have hd := decode_encode c (encodeAll cs)
    have hb : ¬ (c = runeError ∧ (encodeRune c).length = 1) := by
      rintro ⟨rfl, h⟩; exact absurd h (by decide)
    have hne : encodeRune c ++ encodeAll cs ≠ [] := by
      intro h; rw [List.append_eq_nil_iff] at h; rw [h.1] at hl; simp at hl
    rw [he]
    cases hs : encodeRune c ++ encodeAll cs with
    | nil => exact absurd hs hne
    | cons a s =>
      rw [hs] at hd
      have hdrop : (a :: s).drop (encodeRune c).length = encodeAll cs := by rw [← hs, List.drop_left]
      simp only [checkRunes, hd, hb, if_false, hdrop, Bool.and_eq_true, List.mem_cons, forall_eq_or_imp]
      rw [ih f (by omega)]

theorem checkRunes_inv (ok : Char → Bool) : ∀ f s, s.length ≤ f → checkRunes ok f s = true → ∃ cs, s = encodeAll cs := by
  intro f
  induction f with
  | zero => intro s hs _; exact ⟨[], by simp [encodeAll, List.length_eq_zero_iff.1 (Nat.le_zero.1 hs)]⟩
  | succ f ih =>
    intro s hs h
    cases s with
    | nil => exact ⟨[], rfl⟩
    | cons a s =>
      simp only [checkRunes] at h
      split at h
      · cases h
      · rename_i hb
        simp only [Bool.and_eq_true] at h
        obtain ⟨h1, h2, h3⟩ := encode_decode (a :: s) (by simp) (fun hh => hb ⟨hh.2, hh.1⟩)
        obtain ⟨cs, hcs⟩ := ih ((a :: s).drop (decodeRune (a :: s)).2) (by rw [List.length_drop]; omega) h.2
        refine ⟨(decodeRune (a :: s)).1 :: cs, ?_⟩
        have : encodeAll ((decodeRune (a :: s)).1 :: cs) = encodeRune (decodeRune (a :: s)).1 ++ encodeAll cs := by simp [encodeAll]
        rw [this, h1, ← hcs, List.take_append_drop]

theorem checkRunes_iff (ok : Char → Bool) (s : Bytes) : checkRunes ok s.length s = true ↔ ∃ cs, s = encodeAll cs ∧ ∀ c ∈ cs, ok c = true := by
  constructor
  · intro h
    obtain ⟨cs, rfl⟩ := checkRunes_inv ok _ s (Nat.le_refl _) h
    exact ⟨cs, rfl, (checkRunes_encode ok cs _ (Nat.le_refl _)).1 h⟩
  · rintro ⟨cs, rfl, h⟩
    exact (checkRunes_encode ok cs _ (Nat.le_refl _)).2 h

theorem encodeAll_core (cs : List Char) : encodeAll cs = cs.flatMap String.utf8EncodeChar := by
  have : encodeRune = String.utf8EncodeChar := funext encodeRune_core
  unfold encodeAll; rw [this]

theorem char_eq_iff (c d : Char) : c = d ↔ c.toNat = d.toNat :=
  ⟨fun h => by rw [h], fun h => by rw [← Char.ofNat_toNat c, ← Char.ofNat_toNat d, h]⟩

theorem xmlChar_iff (c : Char) : xmlChar c = true ↔ XmlCharacter c := by
  have hr := char_range c
  unfold xmlChar XmlCharacter
  simp only [Bool.or_eq_true, beq_iff_eq, Bool.and_eq_true, decide_eq_true_eq, char_eq_iff c]
  have h1 : '\t'.toNat = 9 := rfl
  have h2 : '\n'.toNat = 10 := rfl
  have h3 : '\r'.toNat = 13 := rfl
  rw [h1, h2, h3]
  omega

theorem legal_iff (t : Bytes) : checkRunes xmlChar t.length t = true ↔ LegalText t := by
  rw [checkRunes_iff]
  unfold LegalText
  simp only [encodeAll_core, xmlChar_iff]

theorem u8le (a b : UInt8) : a ≤ b ↔ a.toNat ≤ b.toNat := UInt8.le_iff_toNat_le
theorem u8eq (a b : UInt8) : a = b ↔ a.toNat = b.toNat := UInt8.toNat_inj.symm

theorem xmlNameByte_iff (b : UInt8) : xmlNameByte b = true ↔ NameByte b := by
  unfold xmlNameByte NameByte
  simp only [Bool.or_eq_true, Bool.and_eq_true, decide_eq_true_eq, beq_iff_eq, List.mem_cons, List.not_mem_nil, or_false, u8le, u8eq b]
  simp only [UInt8.toNat_ofNat]
  omega

/-! ### Names -/

theorem first_iff (x : XmlExt) (c : Char) : x.first c = true ↔ if c.toNat < 128 then c.isAlpha ∨ c = '_' ∨ c = ':' else x.nameStart c = true := by
  unfold XmlExt.first
  by_cases h : c.toNat < 128
  · simp only [h, if_true, Bool.or_eq_true, beq_iff_eq, Bool.and_eq_true, decide_eq_true_eq, Char.isAlpha, Char.isUpper, Char.isLower]
    have e1 : ∀ a b : Char, a ≤ b ↔ a.val ≤ b.val := fun a b => Iff.rfl
    simp only [e1]
    have : ('A'.val ≤ c.val ∧ c.val ≤ 'Z'.val ↔ 65 ≤ c.val ∧ c.val ≤ 90) ∧ ('a'.val ≤ c.val ∧ c.val ≤ 'z'.val ↔ 97 ≤ c.val ∧ c.val ≤ 122) := ⟨Iff.rfl, Iff.rfl⟩
    rw [this.1, this.2]
    constructor
    · rintro (((h | h) | h) | h)
      · exact .inr (.inr h)
      · exact .inr (.inl h)
      · exact .inl (.inl h)
      · exact .inl (.inr h)
    · rintro ((h | h) | h | h)
      · exact .inl (.inr h)
      · exact .inr h
      · exact .inl (.inl (.inr h))
      · exact .inl (.inl (.inl h))
  · simp only [h, if_false]

theorem part_iff (x : XmlExt) (c : Char) : x.part c = true ↔
    if c.toNat < 128 then c.isAlphanum ∨ c = '_' ∨ c = ':' ∨ c = '-' ∨ c = '.' else x.nameStart c = true ∨ x.namePart c = true := by
  unfold XmlExt.part
  have hf := first_iff x c
  by_cases h : c.toNat < 128
  · simp only [h, if_true, Bool.or_eq_true, beq_iff_eq, Bool.and_eq_true, decide_eq_true_eq, Char.isAlphanum, Char.isDigit] at hf ⊢
    have e1 : ∀ a b : Char, a ≤ b ↔ a.val ≤ b.val := fun a b => Iff.rfl
    simp only [e1, hf]
    have : ('0'.val ≤ c.val ∧ c.val ≤ '9'.val ↔ 48 ≤ c.val ∧ c.val ≤ 57) := Iff.rfl
    rw [this]
    constructor
    · rintro (((( h | h | h) | h) | h) | h)
      · exact .inl (.inl h)
      · exact .inr (.inl h)
      · exact .inr (.inr (.inl h))
      · exact .inr (.inr (.inr (.inl h)))
      · exact .inr (.inr (.inr (.inr h)))
      · exact .inl (.inr h)
    · rintro ((h | h) | h | h | h | h)
      · exact .inl (.inl (.inl (.inl h)))
      · exact .inr h
      · exact .inl (.inl (.inl (.inr (.inl h))))
      · exact .inl (.inl (.inl (.inr (.inr h))))
      · exact .inl (.inl (.inr h))
      · exact .inl (.inr h)
  · simp only [h, if_false, Bool.or_eq_true]

theorem part_of_first (x : XmlExt) {c : Char} (h : x.first c = true) : x.part c = true := by
  unfold XmlExt.part
  split
  · simp [h]
  · rename_i hc
    unfold XmlExt.first at h
    rw [if_neg hc] at h
    simp [h]

theorem isName_iff (x : XmlExt) (s : Bytes) (hs : s ≠ []) : x.isName s = true ↔ Name x s := by
  unfold XmlExt.isName Name
  rw [Bool.and_eq_true, checkRunes_iff]
  constructor
  · rintro ⟨⟨cs, rfl, h⟩, hf⟩
    cases cs with
    | nil => exact absurd rfl hs
    | cons c cs =>
      have he : encodeAll (c :: cs) = encodeRune c ++ encodeAll cs := by simp [encodeAll]
      rw [he, decode_encode] at hf
      exact ⟨c, cs, encodeAll_core _, (first_iff x c).1 hf, fun d hd => (part_iff x d).1 (h d (List.mem_cons_of_mem _ hd))⟩
  · rintro ⟨c, cs, rfl, h1, h2⟩
    rw [← encodeAll_core]
    have hf := (first_iff x c).2 h1
    refine ⟨⟨c :: cs, rfl, ?_⟩, ?_⟩
    · intro d hd
      rcases List.mem_cons.1 hd with rfl | hd
      · exact part_of_first x hf
      · exact (part_iff x d).2 (h2 d hd)
    · have he : encodeAll (c :: cs) = encodeRune c ++ encodeAll cs := by simp [encodeAll]
      rw [he, decode_encode]; exact hf

theorem encodeRune_high {c : Char} (h : 128 ≤ c.toNat) {b : UInt8} (hb : b ∈ encodeRune c) : 128 ≤ b.toNat := by
  have hr := char_range c
  unfold encodeRune at hb
  simp only [] at hb
  rw [if_neg (by omega)] at hb
  split at hb
  · simp only [List.mem_cons, List.not_mem_nil, or_false] at hb
    rcases hb with rfl | rfl <;> (rw [UInt8.toNat_ofNat']; omega)
  · split at hb
    · simp only [List.mem_cons, List.not_mem_nil, or_false] at hb
      rcases hb with rfl | rfl | rfl <;> (rw [UInt8.toNat_ofNat']; omega)
    · simp only [List.mem_cons, List.not_mem_nil, or_false] at hb
      rcases hb with rfl | rfl | rfl | rfl <;> (rw [UInt8.toNat_ofNat']; omega)

theorem part_bytes (x : XmlExt) {c : Char} (h : x.part c = true) : ∀ b ∈ encodeRune c, NameByte b := by
  intro b hb
  by_cases hc : c.toNat < 128
  · rw [part_iff, if_pos hc] at h
    have : encodeRune c = [UInt8.ofNat c.toNat] := by unfold encodeRune; simp only []; rw [if_pos hc]
    rw [this, List.mem_singleton] at hb
    have hbn : b.toNat = c.toNat := by rw [hb, UInt8.toNat_ofNat']; omega
    unfold NameByte
    have e2 : ∀ n : UInt32, n ≤ c.val ↔ n.toNat ≤ c.toNat := fun n => UInt32.le_iff_toNat_le
    have e3 : ∀ n : UInt32, c.val ≤ n ↔ c.toNat ≤ n.toNat := fun n => UInt32.le_iff_toNat_le
    simp only [Char.isAlphanum, Char.isAlpha, Char.isUpper, Char.isLower, Char.isDigit, Bool.or_eq_true, Bool.and_eq_true, decide_eq_true_eq,
      ge_iff_le, e2, e3, char_eq_iff c, UInt32.toNat_ofNat, UInt32.reduceToNat] at h
    simp only [List.mem_cons, List.not_mem_nil, or_false, u8eq b, hbn]
    have h1 : '_'.toNat = 95 := rfl
    have h2 : ':'.toNat = 58 := rfl
    have h3 : '-'.toNat = 45 := rfl
    have h4 : '.'.toNat = 46 := rfl
    have h5 : 'A'.val.toNat = 65 ∧ 'Z'.val.toNat = 90 ∧ 'a'.val.toNat = 97 ∧ 'z'.val.toNat = 122 ∧ '0'.val.toNat = 48 ∧ '9'.val.toNat = 57 :=
      ⟨rfl, rfl, rfl, rfl, rfl, rfl⟩
    rw [h1, h2, h3, h4] at h
    simp only [UInt8.toNat_ofNat]
    omega
  · exact .inr (.inr (.inr (.inr (encodeRune_high (by omega) hb))))

theorem name_bytes {x : XmlExt} {n : Bytes} (h : Name x n) : n ≠ [] ∧ ∀ b ∈ n, NameByte b := by
  obtain ⟨c, cs, rfl, h1, h2⟩ := h
  rw [← encodeAll_core]
  constructor
  · intro h0
    have he : encodeAll (c :: cs) = encodeRune c ++ encodeAll cs := by simp [encodeAll]
    rw [he, List.append_eq_nil_iff] at h0
    have := (encodeRune_length c).1
    rw [h0.1] at this; simp at this
  · intro b hb
    unfold encodeAll at hb
    rw [List.mem_flatMap] at hb
    obtain ⟨d, hd, hb⟩ := hb
    refine part_bytes x ?_ b hb
    rcases List.mem_cons.1 hd with rfl | hd
    · exact part_of_first x ((first_iff x _).2 h1)
    · exact (part_iff x d).2 (h2 d hd)

/-- What follows a name. -/
def Stops (r : Bytes) : Prop := ∃ b t, r = b :: t ∧ ¬ NameByte b

theorem takeWhile_stops {p : UInt8 → Bool} {n r : Bytes} (hn : ∀ b ∈ n, p b = true) (hr : ∀ b, r.head? = some b → p b = false) :
    (n ++ r).takeWhile p = n ∧ (n ++ r).dropWhile p = r := by
  induction n with
  | nil =>
    cases r with
    | nil => exact ⟨rfl, rfl⟩
    | cons b t => have := hr b rfl; simp [this]
  | cons a n ih =>
    have := hn a (by simp)
    obtain ⟨h1, h2⟩ := ih (fun b hb => hn b (by simp [hb]))
    simp [this, h1, h2]

theorem dropWhile_head {p : UInt8 → Bool} (s : Bytes) : ∀ b, (s.dropWhile p).head? = some b → p b = false := by
  induction s with
  | nil => intro b h; cases h
  | cons a s ih =>
    intro b h
    rw [List.dropWhile_cons] at h
    split at h
    · exact ih b h
    · rename_i hp
      simp only [List.head?_cons, Option.some.injEq] at h
      subst h; simpa using hp

theorem mem_takeWhile {p : UInt8 → Bool} (s : Bytes) : ∀ b ∈ s.takeWhile p, p b = true := by
  induction s with
  | nil => intro b h; cases h
  | cons a s ih =>
    intro b h
    rw [List.takeWhile_cons] at h
    split at h
    · rename_i hp
      rcases List.mem_cons.1 h with rfl | h
      · exact hp
      · exact ih b h
    · cases h

theorem xmlName_iff (x : XmlExt) (s n r : Bytes) : xmlName x s = some (n, r) ↔ s = n ++ r ∧ Name x n ∧ Stops r := by
  unfold xmlName
  simp only []
  constructor
  · intro h
    split at h
    · cases h
    · rename_i hne
      split at h
      · rename_i hn
        have h := Option.some.inj h
        obtain ⟨rfl, rfl⟩ := Prod.mk.inj h
        refine ⟨(List.takeWhile_append_dropWhile).symm, (isName_iff x _ (fun h0 => hne (.inl h0))).1 hn, ?_⟩
        cases hd : s.dropWhile xmlNameByte with
        | nil => exact absurd (.inr hd) hne
        | cons b t =>
          refine ⟨b, t, rfl, ?_⟩
          rw [← xmlNameByte_iff]
          have := dropWhile_head s (p := xmlNameByte) b (by rw [hd]; rfl)
          simp [this]
      · cases h
  · rintro ⟨rfl, hn, b, t, rfl, hb⟩
    obtain ⟨h0, hb'⟩ := name_bytes hn
    have hnb : xmlNameByte b = false := by
      have : ¬ xmlNameByte b = true := fun h => hb ((xmlNameByte_iff b).1 h)
      simpa using this
    obtain ⟨h1, h2⟩ := takeWhile_stops (p := xmlNameByte) (n := n) (r := b :: t) (fun c hc => (xmlNameByte_iff c).2 (hb' c hc))
      (fun c hc => by simp only [List.head?_cons, Option.some.injEq] at hc; subst hc; exact hnb)
    rw [h1, h2, if_neg (by simp [h0]), if_pos ((isName_iff x n h0).2 hn)]

/-! ### Prefix and local part -/

theorem splitByte_none {n : Bytes} (h : 58 ∉ n) : splitByte 58 n = [n] := by
  induction n with
  | nil => rfl
  | cons a n ih =>
    have h1 : a ≠ 58 := fun e => h (by simp [e])
    have := ih (fun e => h (by simp [e]))
    simp [splitByte, h1, this]

theorem splitByte_cut {a b : Bytes} (h : 58 ∉ a) : splitByte 58 (a ++ 58 :: b) = a :: splitByte 58 b := by
  induction a with
  | nil => simp [splitByte]
  | cons c a ih =>
    have h1 : c ≠ 58 := fun e => h (by simp [e])
    have := ih (fun e => h (by simp [e]))
    simp [splitByte, h1, this]

theorem cut_colon (n : Bytes) : 58 ∉ n ∨ ∃ a b, n = a ++ 58 :: b ∧ 58 ∉ a := by
  induction n with
  | nil => exact .inl (by simp)
  | cons c n ih =>
    by_cases hc : c = 58
    · exact .inr ⟨[], n, by rw [hc]; rfl, by simp⟩
    · rcases ih with h | ⟨a, b, rfl, h⟩
      · exact .inl (by simp [h, Ne.symm hc])
      · exact .inr ⟨c :: a, b, rfl, by simp [h, Ne.symm hc]⟩

/-- The name a pair was cut from. -/
def XName.whole (q : XName) : Bytes := if q.space = [] then q.loc else q.space ++ 58 :: q.loc

theorem splitName_cases (n : Bytes) :
    (58 ∉ n ∧ splitName n = some ⟨[], n⟩) ∨
    (∃ a b, n = a ++ 58 :: b ∧ 58 ∉ a ∧ 58 ∉ b ∧ (a = [] ∨ b = []) ∧ splitName n = some ⟨[], n⟩) ∨
    (∃ a b, n = a ++ 58 :: b ∧ 58 ∉ a ∧ 58 ∉ b ∧ a ≠ [] ∧ b ≠ [] ∧ splitName n = some ⟨a, b⟩) ∨
    (1 < n.count 58 ∧ splitName n = none) := by
  rcases cut_colon n with h | ⟨a, b, rfl, ha⟩
  · exact .inl ⟨h, by unfold splitName; rw [splitByte_none h]⟩
  · rcases cut_colon b with hb | ⟨c, d, rfl, hc⟩
    · have hs : splitByte 58 (a ++ 58 :: b) = [a, b] := by rw [splitByte_cut ha, splitByte_none hb]
      by_cases h0 : a = [] ∨ b = []
      · exact .inr (.inl ⟨a, b, rfl, ha, hb, h0, by unfold splitName; rw [hs]; simp only [h0, if_true]⟩)
      · exact .inr (.inr (.inl ⟨a, b, rfl, ha, hb, fun h => h0 (.inl h), fun h => h0 (.inr h), by unfold splitName; rw [hs]; simp only [h0, if_false]⟩))
    · refine .inr (.inr (.inr ⟨?_, ?_⟩))
      · rw [List.count_append, List.count_cons_self, List.count_append, List.count_cons_self]; omega
      · unfold splitName
        rw [splitByte_cut ha, splitByte_cut hc]
        have : ∃ e l, splitByte 58 d = e :: l := by
          cases hd : splitByte 58 d with
          | nil =>
            rcases cut_colon d with h | ⟨e, f, rfl, he⟩
            · rw [splitByte_none h] at hd; cases hd
            · rw [splitByte_cut he] at hd; cases hd
          | cons e l => exact ⟨e, l, rfl⟩
        obtain ⟨e, l, he⟩ := this
        rw [he]

theorem cut_unique {a b p r : Bytes} (ha : 58 ∉ a) (hb : 58 ∉ b) (h : a ++ 58 :: b = p ++ 58 :: r) : p = a ∧ r = b := by
  rcases List.append_eq_append_iff.1 h with ⟨m, rfl, h2⟩ | ⟨m, rfl, h2⟩
  · cases m with
    | nil =>
      simp only [List.nil_append, List.cons.injEq, true_and] at h2
      exact ⟨by simp, h2.symm⟩
    | cons c m =>
      simp only [List.cons_append, List.cons.injEq] at h2
      exact absurd (show 58 ∈ b by rw [h2.2]; simp) hb
  · cases m with
    | nil =>
      simp only [List.nil_append, List.cons.injEq, true_and] at h2
      exact ⟨by simp, h2⟩
    | cons c m =>
      simp only [List.cons_append, List.cons.injEq] at h2
      exact absurd (show 58 ∈ p ++ c :: m by rw [← h2.1]; simp) ha

theorem splitName_some {n : Bytes} {q : XName} (h : splitName n = some q) : n.count 58 ≤ 1 ∧ n = q.whole ∧ ∀ l, LocalPart n l ↔ l = q.loc := by
  unfold XName.whole LocalPart
  rcases splitName_cases n with ⟨h1, h2⟩ | ⟨a, b, rfl, ha, hb, h0, h2⟩ | ⟨a, b, rfl, ha, hb, ha0, hb0, h2⟩ | ⟨_, h2⟩
  · rw [h2] at h; cases h
    refine ⟨by rw [List.count_eq_zero_of_not_mem h1]; omega, rfl, fun l => ⟨?_, ?_⟩⟩
    · rintro (⟨p, rfl, _⟩ | ⟨rfl, _⟩)
      · exact absurd (by simp) h1
      · rfl
    · rintro rfl
      refine .inr ⟨rfl, fun p r he => ?_⟩
      rw [he] at h1
      exact absurd (by simp) h1
  · rw [h2] at h; cases h
    refine ⟨by rw [List.count_append, List.count_cons_self, List.count_eq_zero_of_not_mem ha, List.count_eq_zero_of_not_mem hb]; omega, rfl,
      fun l => ⟨?_, ?_⟩⟩
    · rintro (⟨p, he, hp, hl⟩ | ⟨rfl, _⟩)
      · obtain ⟨rfl, rfl⟩ := cut_unique ha hb he
        rcases h0 with h0 | h0
        · exact absurd h0 hp
        · exact absurd h0 hl
      · rfl
    · rintro rfl
      refine .inr ⟨rfl, fun p r he => ?_⟩
      obtain ⟨rfl, rfl⟩ := cut_unique ha hb he
      exact h0
  · rw [h2] at h; cases h
    refine ⟨by rw [List.count_append, List.count_cons_self, List.count_eq_zero_of_not_mem ha, List.count_eq_zero_of_not_mem hb]; omega,
      by rw [if_neg ha0], fun l => ⟨?_, ?_⟩⟩
    · rintro (⟨p, he, hp, hl⟩ | ⟨rfl, hx⟩)
      · exact (cut_unique ha hb he).2
      · rcases hx a b rfl with h | h
        · exact absurd h ha0
        · exact absurd h hb0
    · rintro rfl
      exact .inl ⟨a, rfl, ha0, hb0⟩
  · rw [h2] at h; cases h

theorem splitName_exists {n : Bytes} (h : n.count 58 ≤ 1) : ∃ q, splitName n = some q := by
  rcases splitName_cases n with ⟨h1, h2⟩ | ⟨a, b, rfl, ha, hb, h0, h2⟩ | ⟨a, b, rfl, ha, hb, ha0, hb0, h2⟩ | ⟨h1, h2⟩
  · exact ⟨_, h2⟩
  · exact ⟨_, h2⟩
  · exact ⟨_, h2⟩
  · omega

theorem splitName_inj {n m : Bytes} {q : XName} (hn : splitName n = some q) (hm : splitName m = some q) : n = m := by
  rw [(splitName_some hn).2.1, (splitName_some hm).2.1]

theorem xmlNsName_iff (x : XmlExt) (s r : Bytes) (q : XName) :
    xmlNsName x s = some (q, r) ↔ ∃ n, s = n ++ r ∧ TagName x n ∧ splitName n = some q ∧ Stops r := by
  unfold xmlNsName
  constructor
  · intro h
    cases hn : xmlName x s with
    | none => rw [hn] at h; cases h
    | some nr =>
      obtain ⟨n, r'⟩ := nr
      rw [hn] at h
      simp only [] at h
      cases hq : splitName n with
      | none => rw [hq] at h; cases h
      | some q' =>
        rw [hq] at h
        simp only [Option.some.injEq, Prod.mk.injEq] at h
        obtain ⟨rfl, rfl⟩ := h
        obtain ⟨h1, h2, h3⟩ := (xmlName_iff x s n r').1 hn
        exact ⟨n, h1, ⟨h2, (splitName_some hq).1⟩, hq, h3⟩
  · rintro ⟨n, h1, ⟨h2, _⟩, h4, h3⟩
    rw [(xmlName_iff x s n r).2 ⟨h1, h2, h3⟩]
    simp only [h4]

/-! ### White space -/

theorem xmlSpace_iff (b : UInt8) : xmlSpace b = true ↔ b = 32 ∨ b = 9 ∨ b = 10 ∨ b = 13 := by
  unfold xmlSpace
  simp only [Bool.or_eq_true, beq_iff_eq]
  constructor
  · rintro (((h | h) | h) | h)
    · exact .inl h
    · exact .inr (.inr (.inr h))
    · exact .inr (.inr (.inl h))
    · exact .inr (.inl h)
  · rintro (h | h | h | h)
    · exact .inl (.inl (.inl h))
    · exact .inr h
    · exact .inl (.inr h)
    · exact .inl (.inl (.inr h))

theorem blank_one (b : UInt8) : White [b] ↔ xmlSpace b = true := by
  rw [xmlSpace_iff]; unfold White; simp

theorem skipSpace_inv (s : Bytes) : ∃ sp, White sp ∧ s = sp ++ skipSpace s ∧ ∀ b, (skipSpace s).head? = some b → ¬ White [b] := by
  refine ⟨s.takeWhile xmlSpace, fun b hb => (xmlSpace_iff b).1 (mem_takeWhile s b hb), (List.takeWhile_append_dropWhile).symm, fun b hb => ?_⟩
  rw [blank_one]
  have := dropWhile_head s b hb
  simp [this]

theorem skipSpace_append {sp : Bytes} (h : White sp) (r : Bytes) : skipSpace (sp ++ r) = skipSpace r := by
  unfold skipSpace
  induction sp with
  | nil => rfl
  | cons a sp ih =>
    have := (xmlSpace_iff a).2 (h a (by simp))
    simp only [List.cons_append, List.dropWhile_cons, this, if_true]
    exact ih (fun b hb => h b (by simp [hb]))

theorem skipSpace_stop {b : UInt8} (h : ¬ White [b]) (r : Bytes) : skipSpace (b :: r) = b :: r := by
  rw [blank_one] at h
  unfold skipSpace
  simp [h]

theorem space_not_name {b : UInt8} (h : White [b]) : ¬ NameByte b := by
  rw [blank_one, xmlSpace_iff] at h
  rcases h with rfl | rfl | rfl | rfl <;> (unfold NameByte; decide)

/-! ### References -/

theorem bytes_rev {P : Bytes → Prop} (h0 : P []) (h1 : ∀ s b, P s → P (s ++ [b])) (s : Bytes) : P s := by
  have : ∀ n (s : Bytes), s.length = n → P s := by
    intro n
    induction n with
    | zero => intro s hs; rw [List.length_eq_zero_iff.1 hs]; exact h0
    | succ n ih =>
      intro s hs
      have hne : s ≠ [] := by rintro rfl; cases hs
      rw [← List.dropLast_concat_getLast hne]
      exact h1 _ _ (ih _ (by rw [List.length_dropLast]; omega))
  exact this _ s rfl

theorem digits_iff {hex : Bool} {digit : UInt8 → Nat → Prop} (hd : ∀ b d, digit b d ↔ isXmlDigit hex b = true ∧ d = xmlDigit b) (base : Nat) (s : Bytes) :
    ∀ n, Numeral base digit s n ↔ s ≠ [] ∧ (∀ b ∈ s, isXmlDigit hex b = true) ∧ n = xmlNumber base s := by
  intro n
  constructor
  · intro h
    induction h with
    | one h =>
      obtain ⟨h1, rfl⟩ := (hd _ _).1 h
      exact ⟨by simp, by simpa using h1, by simp [xmlNumber]⟩
    | more _ h ih =>
      obtain ⟨h1, rfl⟩ := (hd _ _).1 h
      obtain ⟨i1, i2, rfl⟩ := ih
      refine ⟨by simp, ?_, by simp [xmlNumber]⟩
      intro b hb
      rcases List.mem_append.1 hb with hb | hb
      · exact i2 b hb
      · rw [List.mem_singleton] at hb; rw [hb]; exact h1
  · rintro ⟨h1, h2, rfl⟩
    induction s using bytes_rev with
    | h0 => exact absurd rfl h1
    | h1 s b ih =>
      have hb := h2 b (by simp)
      by_cases hs : s = []
      · subst hs
        have e : xmlNumber base ([] ++ [b]) = xmlDigit b := by simp [xmlNumber]
        rw [e]; exact .one ((hd _ _).2 ⟨hb, rfl⟩)
      · have := ih hs (fun c hc => h2 c (by simp [hc]))
        have e : xmlNumber base (s ++ [b]) = xmlNumber base s * base + xmlDigit b := by simp [xmlNumber]
        rw [e]; exact .more this ((hd _ _).2 ⟨hb, rfl⟩)

theorem decDigit_iff (b : UInt8) (d : Nat) : DecDigit b d ↔ isXmlDigit false b = true ∧ d = xmlDigit b := by
  unfold DecDigit isXmlDigit xmlDigit
  simp only [Bool.false_and, Bool.or_false, Bool.and_eq_true, decide_eq_true_eq, u8le, UInt8.toNat_ofNat]
  constructor
  · rintro ⟨h1, h2⟩
    rw [if_pos (by omega)]
    omega
  · rintro ⟨h1, h2⟩
    rw [if_pos (by omega)] at h2
    omega

theorem hexDigit_iff (b : UInt8) (d : Nat) : HexDigit b d ↔ isXmlDigit true b = true ∧ d = xmlDigit b := by
  unfold HexDigit DecDigit isXmlDigit xmlDigit
  simp only [Bool.true_and, Bool.or_eq_true, Bool.and_eq_true, decide_eq_true_eq, u8le, UInt8.toNat_ofNat]
  constructor
  · intro h
    split
    · omega
    · split <;> omega
  · rintro ⟨h1, h2⟩
    split at h2
    · omega
    · split at h2 <;> omega

theorem runeText_char (c : Char) : runeText c.toNat = String.utf8EncodeChar c := by
  have := char_range c
  unfold runeText
  rw [if_pos (by omega), Char.ofNat_toNat, encodeRune_core]

theorem runeText_surrogate {n : Nat} (h1 : 0xD800 ≤ n) (h2 : n ≤ 0xDFFF) : runeText n = String.utf8EncodeChar '\uFFFD' := by
  unfold runeText
  rw [if_neg (by omega), encodeRune_core]; rfl

theorem xmlCharRef_iff (hex : Bool) (s t r : Bytes) : xmlCharRef hex s = some (t, r) ↔
    ∃ d, s = d ++ 59 :: r ∧ d ≠ [] ∧ (∀ b ∈ d, isXmlDigit hex b = true) ∧ xmlNumber (if hex then 16 else 10) d ≤ 0x10FFFF ∧
      t = runeText (xmlNumber (if hex then 16 else 10) d) := by
  unfold xmlCharRef
  simp only []
  generalize (if hex then 16 else 10 : Nat) = base
  constructor
  · intro h
    split at h
    · rename_i r' hr
      split at h
      · cases h
      · rename_i hc
        simp only [Option.some.injEq, Prod.mk.injEq] at h
        obtain ⟨rfl, rfl⟩ := h
        refine ⟨s.takeWhile (isXmlDigit hex), ?_, fun h0 => hc (.inl h0), mem_takeWhile s, ?_, rfl⟩
        · rw [← hr]; exact (List.takeWhile_append_dropWhile).symm
        · exact Decidable.byContradiction fun hn => hc (.inr (by omega))
    · cases h
  · rintro ⟨d, rfl, h1, h2, h3, rfl⟩
    have h59 : isXmlDigit hex 59 = false := by cases hex <;> decide
    obtain ⟨e1, e2⟩ := takeWhile_stops (p := isXmlDigit hex) (n := d) (r := 59 :: r) h2
      (fun c hc => by simp only [List.head?_cons, Option.some.injEq] at hc; subst hc; exact h59)
    rw [e1, e2]
    simp only []
    rw [if_neg (by simp only [h1, false_or]; omega)]

theorem charRef_ref {hex : Bool} {d : Bytes} (h1 : d ≠ []) (h2 : ∀ b ∈ d, isXmlDigit hex b = true)
    (h3 : xmlNumber (if hex then 16 else 10) d ≤ 0x10FFFF) :
    Reference ((if hex then b! "&#x" else b! "&#") ++ d ++ b! ";") (runeText (xmlNumber (if hex then 16 else 10) d)) := by
  cases hex with
  | false =>
    simp only [Bool.false_eq_true, if_false] at *
    have hd := (digits_iff decDigit_iff 10 d _).2 ⟨h1, h2, rfl⟩
    by_cases hs : 0xD800 ≤ xmlNumber 10 d ∧ xmlNumber 10 d ≤ 0xDFFF
    · rw [runeText_surrogate hs.1 hs.2]; exact .decSurrogate hd hs.1 hs.2
    · have : (Char.ofNat (xmlNumber 10 d)).toNat = xmlNumber 10 d := toNat_ofNat_valid _ (by omega)
      rw [← this] at hd ⊢
      rw [runeText_char]
      exact .dec hd
  | true =>
    simp only [if_true] at *
    have hd := (digits_iff hexDigit_iff 16 d _).2 ⟨h1, h2, rfl⟩
    by_cases hs : 0xD800 ≤ xmlNumber 16 d ∧ xmlNumber 16 d ≤ 0xDFFF
    · rw [runeText_surrogate hs.1 hs.2]; exact .hexSurrogate hd hs.1 hs.2
    · have : (Char.ofNat (xmlNumber 16 d)).toNat = xmlNumber 16 d := toNat_ofNat_valid _ (by omega)
      rw [← this] at hd ⊢
      rw [runeText_char]
      exact .hex hd

theorem xmlEntity_some {n t : Bytes} (h : xmlEntity n = some t) : Reference (38 :: n ++ [59]) t := by
  unfold xmlEntity at h
  split at h
  · rename_i e; subst e; cases h; exact .lt
  · split at h
    · rename_i e; subst e; cases h; exact .gt
    · split at h
      · rename_i e; subst e; cases h; exact .amp
      · split at h
        · rename_i e; subst e; cases h; exact .apos
        · split at h
          · rename_i e; subst e; cases h; exact .quot
          · cases h

theorem xmlReference_sound {s t r : Bytes} (h : xmlReference s = some (t, r)) : ∃ e, 38 :: s = e ++ r ∧ Reference e t := by
  unfold xmlReference at h
  split at h
  · rename_i s'
    obtain ⟨d, rfl, h1, h2, h3, rfl⟩ := (xmlCharRef_iff true _ _ _).1 h
    exact ⟨_, by simp, charRef_ref (hex := true) h1 h2 h3⟩
  · obtain ⟨d, rfl, h1, h2, h3, rfl⟩ := (xmlCharRef_iff false _ _ _).1 h
    exact ⟨_, by simp, charRef_ref (hex := false) h1 h2 h3⟩
  · split at h
    · rename_i r' hr
      split at h
      · rename_i t' ht
        simp only [Option.some.injEq, Prod.mk.injEq] at h
        obtain ⟨rfl, rfl⟩ := h
        refine ⟨_, ?_, xmlEntity_some ht⟩
        have : s = s.takeWhile xmlNameByte ++ 59 :: r' := by rw [← hr]; exact (List.takeWhile_append_dropWhile).symm
        simp only [List.cons_append, List.append_assoc, List.nil_append, List.cons.injEq, true_and]
        exact this
      · cases h
    · cases h

theorem xmlReference_complete {e t : Bytes} (h : Reference e t) (r : Bytes) : ∃ s, e ++ r = 38 :: s ∧ xmlReference s = some (t, r) := by
  have decCase : ∀ {d n}, Numeral 10 DecDigit d n → n ≤ 0x10FFFF → ∃ s, (b! "&#" ++ d ++ b! ";") ++ r = 38 :: s ∧ xmlReference s = some (runeText n, r) := by
    intro d n hd hn
    obtain ⟨h1, h2, rfl⟩ := (digits_iff decDigit_iff 10 d n).1 hd
    refine ⟨35 :: (d ++ 59 :: r), by simp, ?_⟩
    have hx := (xmlCharRef_iff false (d ++ 59 :: r) _ r).2 ⟨d, rfl, h1, h2, hn, rfl⟩
    cases d with
    | nil => exact absurd rfl h1
    | cons a d =>
      have ha : a ≠ 120 := by rintro rfl; exact absurd (h2 120 (by simp)) (by decide)
      unfold xmlReference
      split
      · rename_i s' heq
        simp only [List.cons_append, List.cons.injEq, true_and] at heq
        exact absurd heq.1 ha
      · rename_i heq
        simp only [List.cons.injEq, true_and] at heq
        rw [← heq]; exact hx
      · rename_i hno
        exact absurd rfl (hno _)
  have hexCase : ∀ {d n}, Numeral 16 HexDigit d n → n ≤ 0x10FFFF → ∃ s, (b! "&#x" ++ d ++ b! ";") ++ r = 38 :: s ∧ xmlReference s = some (runeText n, r) := by
    intro d n hd hn
    obtain ⟨h1, h2, rfl⟩ := (digits_iff hexDigit_iff 16 d n).1 hd
    refine ⟨35 :: 120 :: (d ++ 59 :: r), by simp, ?_⟩
    exact (xmlCharRef_iff true (d ++ 59 :: r) _ r).2 ⟨d, rfl, h1, h2, hn, rfl⟩
  cases h with
  | lt => exact ⟨_, rfl, rfl⟩
  | gt => exact ⟨_, rfl, rfl⟩
  | amp => exact ⟨_, rfl, rfl⟩
  | apos => exact ⟨_, rfl, rfl⟩
  | quot => exact ⟨_, rfl, rfl⟩
  | dec hd => rw [← runeText_char]; exact decCase hd (by have := char_range (by assumption); omega)
  | hex hd => rw [← runeText_char]; exact hexCase hd (by have := char_range (by assumption); omega)
  | decSurrogate hd h1 h2 => rw [← runeText_surrogate h1 h2]; exact decCase hd (by omega)
  | hexSurrogate hd h1 h2 => rw [← runeText_surrogate h1 h2]; exact hexCase hd (by omega)

/-- References contain no `]` and end with `;`. -/
theorem reference_shape {e t : Bytes} (h : Reference e t) : ∃ m, e = 38 :: m ++ [59] ∧ 93 ∉ m := by
  have digs : ∀ {hex base digit d n}, (∀ b d, digit b d ↔ isXmlDigit hex b = true ∧ d = xmlDigit b) → Numeral base digit d n → 93 ∉ d := by
    intro hex base digit d n hh hd hm
    have := ((digits_iff hh base d n).1 hd).2.1 93 hm
    revert this; cases hex <;> decide
  cases h with
  | lt => exact ⟨b! "lt", rfl, by decide⟩
  | gt => exact ⟨b! "gt", rfl, by decide⟩
  | amp => exact ⟨b! "amp", rfl, by decide⟩
  | apos => exact ⟨b! "apos", rfl, by decide⟩
  | quot => exact ⟨b! "quot", rfl, by decide⟩
  | @dec d _ hd => exact ⟨35 :: d, by simp, by simp [digs decDigit_iff hd]⟩
  | @hex d _ hd => exact ⟨35 :: 120 :: d, by simp, by simp [digs hexDigit_iff hd]⟩
  | @decSurrogate d _ hd => exact ⟨35 :: d, by simp, by simp [digs decDigit_iff hd]⟩
  | @hexSurrogate d _ hd => exact ⟨35 :: 120 :: d, by simp, by simp [digs hexDigit_iff hd]⟩

/-! ### Text -/

theorem occurs_cons (u : Bytes) (a : UInt8) (s : Bytes) : OccursIn u (a :: s) ↔ u <+: a :: s ∨ OccursIn u s := by
  constructor
  · rintro ⟨p, r, h⟩
    cases p with
    | nil => exact .inl ⟨r, h.symm⟩
    | cons c p =>
      simp only [List.cons_append, List.cons.injEq] at h
      exact .inr ⟨p, r, h.2⟩
  · rintro (⟨r, h⟩ | ⟨p, r, h⟩)
    · exact ⟨[], r, h.symm⟩
    · exact ⟨a :: p, r, by rw [h]; rfl⟩

theorem occurs_nil {u : Bytes} (h : u ≠ []) : ¬ OccursIn u [] := by
  rintro ⟨p, r, he⟩
  have := List.append_eq_nil_iff.1 he.symm
  exact h (List.append_eq_nil_iff.1 this.1).2

/-- `]]>` occurs. -/
abbrev Occ (s : Bytes) : Prop := OccursIn (b! "]]>") s

theorem occ_skip {a : UInt8} (h : a ≠ 93) (s : Bytes) : Occ (a :: s) ↔ Occ s := by
  rw [Occ, occurs_cons]
  constructor
  · rintro (⟨r, h'⟩ | h')
    · simp only [List.cons_append, List.cons.injEq] at h'
      exact absurd h'.1.symm h
    · exact h'
  · exact fun h' => .inr h'

theorem occ_three (a b c : UInt8) (s : Bytes) : Occ (a :: b :: c :: s) ↔ (a = 93 ∧ b = 93 ∧ c = 62) ∨ Occ (b :: c :: s) := by
  rw [Occ, occurs_cons]
  refine or_congr ?_ Iff.rfl
  constructor
  · rintro ⟨r, h⟩
    simp only [List.cons_append, List.cons.injEq] at h
    exact ⟨h.1.symm, h.2.1.symm, h.2.2.1.symm⟩
  · rintro ⟨rfl, rfl, rfl⟩; exact ⟨s, rfl⟩

theorem occ_mid {a b c : UInt8} (h : c ≠ 93) (h' : c ≠ 62) (s : Bytes) : Occ (a :: b :: c :: s) ↔ Occ s := by
  rw [occ_three]
  constructor
  · rintro (⟨_, _, h1⟩ | h1)
    · exact absurd h1 h'
    · rw [Occ, occurs_cons] at h1
      rcases h1 with ⟨r, hr⟩ | h1
      · simp only [List.cons_append, List.cons.injEq] at hr
        exact absurd hr.2.1.symm h
      · exact (occ_skip h s).1 h1
  · intro h1
    refine .inr ?_
    rw [Occ, occurs_cons]
    exact .inr ((occ_skip h s).2 h1)

theorem occ_app {m : Bytes} (h : 93 ∉ m) (s : Bytes) : Occ (m ++ s) ↔ Occ s := by
  induction m with
  | nil => exact Iff.rfl
  | cons a m ih =>
    rw [List.cons_append, occ_skip (fun e => h (by simp [e]))]
    exact ih (fun e => h (by simp [e]))

theorem occ_ref {e t : Bytes} (h : Reference e t) (b0 b1 : UInt8) (s : Bytes) : Occ (b0 :: b1 :: (e ++ s)) ↔ Occ (0 :: 0 :: s) := by
  obtain ⟨m, rfl, hm⟩ := reference_shape h
  have : (38 :: m ++ [59] ++ s : Bytes) = 38 :: (m ++ 59 :: s) := by simp
  rw [this, occ_mid (by decide) (by decide), occ_app hm, occ_skip (by decide), occ_skip (by decide), occ_skip (by decide)]

/-- Text with the byte before it: a line feed behind a carriage return does not count. -/
def CharsAfter (q : Option UInt8) (b1 : UInt8) (u v : Bytes) : Prop :=
  (b1 = 13 ∧ ∃ u', u = 10 :: u' ∧ Chars q u' v) ∨ ((b1 = 13 → u.head? ≠ some 10) ∧ Chars q u v)

theorem CharsAfter.cr {q : Option UInt8} {u v : Bytes} (h : CharsAfter q 13 u v) : Chars q (13 :: u) (10 :: v) := by
  rcases h with ⟨_, u', rfl, h⟩ | ⟨h1, h⟩
  · exact .crlf h
  · exact .cr (h1 rfl) h

theorem CharsAfter.other {q : Option UInt8} {b : UInt8} {u v : Bytes} (hb : b ≠ 13) (h : CharsAfter q b u v) : Chars q u v := by
  rcases h with ⟨h1, _⟩ | ⟨_, h⟩
  · exact absurd h1 hb
  · exact h

/-- How the text ends: with `<`, which stays, or with the quote, which is taken. -/
def TextEnd (q : Option UInt8) (r : Bytes) : Bytes := match q with
  | none => r
  | some c => c :: r

theorem textLoop_sound (q : Option UInt8) : ∀ f b0 b1 acc s t r, textLoop q false f b0 b1 acc s = some (t, r) →
    ∃ u v, s = u ++ TextEnd q r ∧ (q = none → r.head? = some 60) ∧ t = acc.reverse ++ v ∧ CharsAfter q b1 u v ∧ (q = none → ¬ Occ (b0 :: b1 :: u)) := by
  have noOcc : ∀ a b : UInt8, ¬ Occ [a, b] := by
    intro a b h
    rw [Occ, occurs_cons, occurs_cons] at h
    rcases h with ⟨r, h⟩ | ⟨r, h⟩ | h
    · simp at h
    · simp at h
    · exact occurs_nil (by simp) h
  intro f
  induction f with
  | zero => intro b0 b1 acc s t r h; cases h
  | succ f ih =>
    intro b0 b1 acc s t r h
    cases s with
    | nil => cases h
    | cons b s =>
      simp only [textLoop, Bool.not_false, and_true] at h
      by_cases c1 : q = none ∧ b0 = 93 ∧ b1 = 93 ∧ b = 62
      · rw [if_pos c1] at h; cases h
      rw [if_neg c1] at h
      by_cases c2 : b = 60
      · rw [if_pos c2] at h
        cases q with
        | some c => cases h
        | none =>
          simp only [Option.isSome_none, Bool.false_eq_true, if_false, Option.some.injEq, Prod.mk.injEq] at h
          obtain ⟨rfl, rfl⟩ := h
          exact ⟨[], [], rfl, fun _ => by rw [c2]; rfl, by simp, .inr ⟨by simp, .nil⟩, fun _ => noOcc _ _⟩
      rw [if_neg c2] at h
      by_cases c3 : q = some b
      · rw [if_pos c3] at h
        simp only [Option.some.injEq, Prod.mk.injEq] at h
        obtain ⟨rfl, rfl⟩ := h
        exact ⟨[], [], (by rw [c3]; rfl), (fun hq => absurd (c3.symm.trans hq) (by simp)), by simp, .inr ⟨by simp, .nil⟩, fun _ => noOcc _ _⟩
      rw [if_neg c3] at h
      by_cases c4 : b = 38
      · rw [if_pos c4] at h
        cases hx : xmlReference s with
        | none => rw [hx] at h; cases h
        | some tr =>
          obtain ⟨t', r'⟩ := tr
          rw [hx] at h
          obtain ⟨u, v, h1, h2, h3, h4, h5⟩ := ih _ _ _ _ _ _ h
          obtain ⟨e, he, href⟩ := xmlReference_sound hx
          refine ⟨e ++ u, t' ++ v, ?_, h2, ?_, .inr ⟨?_, .ref href (h4.other (by decide))⟩, fun hq => ?_⟩
          · rw [c4, he, h1]; simp
          · rw [h3]; simp
          · obtain ⟨m, rfl, _⟩ := reference_shape href
            intro _; simp
          · rw [occ_ref href]; exact h5 hq
      rw [if_neg c4] at h
      have occ : ∀ {u : Bytes}, (q = none → ¬ Occ (b1 :: b :: u)) → q = none → ¬ Occ (b0 :: b1 :: b :: u) := by
        intro u hu hq ho
        rw [occ_three] at ho
        rcases ho with ho | ho
        · exact c1 ⟨hq, ho⟩
        · exact hu hq ho
      by_cases c5 : b = 13
      · rw [if_pos c5] at h
        obtain ⟨u, v, h1, h2, h3, h4, h5⟩ := ih _ _ _ _ _ _ h
        refine ⟨b :: u, 10 :: v, by rw [h1]; rfl, h2, by rw [h3]; simp, .inr ⟨?_, ?_⟩, occ h5⟩
        · intro _; rw [c5]; simp
        · rw [c5] at h4 ⊢; exact h4.cr
      rw [if_neg c5] at h
      by_cases c6 : b1 = 13 ∧ b = 10
      · rw [if_pos c6] at h
        obtain ⟨u, v, h1, h2, h3, h4, h5⟩ := ih _ _ _ _ _ _ h
        refine ⟨b :: u, v, by rw [h1]; rfl, h2, h3, .inl ⟨c6.1, u, by rw [c6.2], ?_⟩, occ h5⟩
        exact h4.other c5
      rw [if_neg c6] at h
      obtain ⟨u, v, h1, h2, h3, h4, h5⟩ := ih _ _ _ _ _ _ h
      refine ⟨b :: u, b :: v, by rw [h1]; rfl, h2, by rw [h3]; simp, .inr ⟨?_, .byte c5 c2 c4 c3 (h4.other c5)⟩, occ h5⟩
      intro hb1 hb
      simp only [List.head?_cons, Option.some.injEq] at hb
      exact c6 ⟨hb1, hb⟩

theorem textLoop_complete {q : Option UInt8} (hq : q = none ∨ q = some 34 ∨ q = some 39) {u v : Bytes} (h : Chars q u v) (r : Bytes)
    (hr : q = none → r.head? = some 60) : ∀ f b0 b1 acc, u.length < f → (b1 = 13 → u.head? ≠ some 10) → (q = none → ¬ Occ (b0 :: b1 :: u)) →
    textLoop q false f b0 b1 acc (u ++ TextEnd q r) = some (acc.reverse ++ v, r) := by
  have noStop : ∀ {b0 b1 b : UInt8} {u : Bytes}, (q = none → ¬ Occ (b0 :: b1 :: b :: u)) → ¬ (q = none ∧ b0 = 93 ∧ b1 = 93 ∧ b = 62) ∧
      (q = none → ¬ Occ (b1 :: b :: u)) := by
    intro b0 b1 b u ho
    refine ⟨fun hc => ho hc.1 ((occ_three _ _ _ _).2 (.inl hc.2)), fun hn ho' => ho hn ((occ_three _ _ _ _).2 (.inr ho'))⟩
  have q13 : q ≠ some 13 := by rcases hq with rfl | rfl | rfl <;> decide
  have q38 : q ≠ some 38 := by rcases hq with rfl | rfl | rfl <;> decide
  have q10 : q ≠ some 10 := by rcases hq with rfl | rfl | rfl <;> decide
  induction h with
  | nil =>
    intro f b0 b1 acc hf _ ho
    obtain ⟨f, rfl⟩ : ∃ g, f = g + 1 := ⟨f - 1, by simp at hf; omega⟩
    rcases hq with rfl | hq
    · cases r with
      | nil => exact absurd (hr rfl) (by simp)
      | cons b r =>
        have := hr rfl
        simp only [List.head?_cons, Option.some.injEq] at this
        subst this
        simp [TextEnd, textLoop]
    · obtain ⟨c, rfl, hc⟩ : ∃ c, q = some c ∧ c ≠ 60 := by rcases hq with rfl | rfl <;> exact ⟨_, rfl, by decide⟩
      simp [TextEnd, textLoop, hc]
  | @byte b s t h1 h2 h3 h4 _ ih =>
    intro f b0 b1 acc hf hb ho
    obtain ⟨f, rfl⟩ : ∃ g, f = g + 1 := ⟨f - 1, by simp at hf; omega⟩
    obtain ⟨n1, n2⟩ := noStop ho
    have n6 : ¬ (b1 = 13 ∧ b = 10) := fun hh => hb hh.1 (by rw [hh.2]; rfl)
    rw [List.cons_append]
    simp only [textLoop, Bool.not_false, and_true]
    rw [if_neg n1, if_neg h2, if_neg h4, if_neg h3, if_neg h1, if_neg n6,
      ih f b1 b (b :: acc) (by simp at hf; omega) (fun e => absurd e h1) n2]
    simp
  | @cr s t h1 _ ih =>
    intro f b0 b1 acc hf hb ho
    obtain ⟨f, rfl⟩ : ∃ g, f = g + 1 := ⟨f - 1, by simp at hf; omega⟩
    obtain ⟨n1, n2⟩ := noStop ho
    rw [List.cons_append]
    simp only [textLoop, Bool.not_false, and_true]
    rw [if_neg n1, if_neg (by decide), if_neg q13, if_neg (by decide), if_pos trivial,
      ih f b1 13 (10 :: acc) (by simp at hf; omega) (fun _ => h1) n2]
    simp
  | @crlf s t _ ih =>
    intro f b0 b1 acc hf hb ho
    obtain ⟨f, rfl⟩ : ∃ g, f = g + 2 := ⟨f - 2, by simp at hf; omega⟩
    obtain ⟨n1, n2⟩ := noStop ho
    obtain ⟨m1, m2⟩ := noStop n2
    rw [List.cons_append, List.cons_append]
    simp only [textLoop, Bool.not_false, and_true]
    rw [if_neg n1, if_neg (by decide), if_neg q13, if_neg (by decide), if_pos trivial, if_neg m1, if_neg (by decide), if_neg q10, if_neg (by decide),
      if_neg (by decide), if_pos trivial, ih f 13 10 (10 :: acc) (by simp at hf; omega) (fun e => absurd e (by decide)) m2]
    simp
  | @ref e u' s t href _ ih =>
    intro f b0 b1 acc hf hb ho
    obtain ⟨f, rfl⟩ : ∃ g, f = g + 1 := ⟨f - 1, by omega⟩
    obtain ⟨m, hm, _⟩ := reference_shape href
    obtain ⟨s', hs', hx⟩ := xmlReference_complete href (s ++ TextEnd q r)
    have hlen : e.length = m.length + 2 := by rw [hm]; simp
    have n1 : ¬ (q = none ∧ b0 = 93 ∧ b1 = 93 ∧ (38 : UInt8) = 62) := fun hh => absurd hh.2.2.2 (by decide)
    rw [List.append_assoc, hs']
    simp only [textLoop, Bool.not_false, and_true]
    rw [if_neg n1, if_neg (by decide), if_neg q38, if_pos trivial, hx]
    simp only []
    rw [ih f 0 0 _ (by rw [List.length_append] at hf; omega) (fun e => absurd e (by decide))
      (fun hn ho' => ho hn ((occ_ref href _ _ _).2 ho'))]
    simp

end Texted
