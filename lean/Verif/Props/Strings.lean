import Verif.Spec.Regexp
import Verif.Lemmas.Utf8
import Verif.Lemmas.Call
import Verif.Lemmas.Scan
import Verif.Lemmas.Index
/- C47: case functions. C49: looking-at, looking-back. -/
namespace Texted
variable [Ext]

/-! ### C47 -/

/-- Upper case of an ASCII byte: a–z become A–Z, everything else stays. -/
def asciiUpper (x : UInt8) : UInt8 := if 97 ≤ x.toNat ∧ x.toNat ≤ 122 then UInt8.ofNat (x.toNat - 32) else x
/-- Lower case of an ASCII byte. -/
def asciiLower (x : UInt8) : UInt8 := if 65 ≤ x.toNat ∧ x.toNat ≤ 90 then UInt8.ofNat (x.toNat + 32) else x

theorem toUpper_ascii (s : Bytes) (h : Ascii s) : toUpper s = s.map asciiUpper := by
  rw [toUpper, decodeAll_ascii s h, List.map_map]
  induction s with
  | nil => rfl
  | cons x xs ih =>
    have hx := h x List.mem_cons_self
    have := ih (fun y hy => h y (List.mem_cons_of_mem _ hy))
    simp only [encodeAll, List.map_cons, List.flatMap_cons, Function.comp] at *
    rw [this]
    simp only [upperRune, toNat_ofNat_valid x.toNat (by omega), if_pos hx, asciiUpper]
    split
    · rw [encodeRune_ascii _ (by omega)]; rfl
    · rw [encodeRune_ascii _ hx]; simp

theorem toLower_ascii (s : Bytes) (h : Ascii s) : toLower s = s.map asciiLower := by
  rw [toLower, decodeAll_ascii s h, List.map_map]
  induction s with
  | nil => rfl
  | cons x xs ih =>
    have hx := h x List.mem_cons_self
    have := ih (fun y hy => h y (List.mem_cons_of_mem _ hy))
    simp only [encodeAll, List.map_cons, List.flatMap_cons, Function.comp] at *
    rw [this]
    simp only [lowerRune, toNat_ofNat_valid x.toNat (by omega), if_pos hx, asciiLower]
    split
    · rw [encodeRune_ascii _ (by omega)]; rfl
    · rw [encodeRune_ascii _ hx]; simp

/-- On ASCII text upcase replaces exactly the letters a–z by A–Z, byte for byte (so the length stays). -/
theorem C47_upcase_ascii (s : Bytes) (h : Ascii s) (b : Buffer) :
    call b! "upcase" [.str s] b = (.ok (.str (s.map asciiUpper)), b) := by
  simp only [call_upcase, builtinUpcase, oneStr, toUpper_ascii s h]; rfl

/-- On ASCII text downcase replaces exactly the letters A–Z by a–z, byte for byte. -/
theorem C47_downcase_ascii (s : Bytes) (h : Ascii s) (b : Buffer) :
    call b! "downcase" [.str s] b = (.ok (.str (s.map asciiLower)), b) := by
  simp only [call_downcase, builtinDowncase, oneStr, toLower_ascii s h]; rfl

omit [Ext] in
theorem asciiUpper_props (x : UInt8) (h : x.toNat < 128) :
    asciiUpper (asciiUpper x) = asciiUpper x ∧ asciiLower (asciiUpper x) = asciiLower x ∧ (asciiUpper x).toNat < 128 ∧
      asciiLower (asciiLower x) = asciiLower x ∧ asciiUpper (asciiLower x) = asciiUpper x ∧ (asciiLower x).toNat < 128 := by
  have key : ∀ n, n < 128 →
      let x := UInt8.ofNat n
      asciiUpper (asciiUpper x) = asciiUpper x ∧ asciiLower (asciiUpper x) = asciiLower x ∧ (asciiUpper x).toNat < 128 ∧
      asciiLower (asciiLower x) = asciiLower x ∧ asciiUpper (asciiLower x) = asciiUpper x ∧ (asciiLower x).toNat < 128 := by
    decide
  have := key x.toNat h
  simpa using this

/-- upcase and downcase are idempotent on ASCII text and forget each other. -/
theorem C47_case_laws_ascii (s : Bytes) (h : Ascii s) (b : Buffer) :
    (∀ r, call b! "upcase" [.str s] b = (.ok (.str r), b) →
      r.length = s.length ∧ call b! "upcase" [.str r] b = (.ok (.str r), b) ∧
      call b! "downcase" [.str r] b = call b! "downcase" [.str s] b) ∧
    (∀ r, call b! "downcase" [.str s] b = (.ok (.str r), b) →
      r.length = s.length ∧ call b! "downcase" [.str r] b = (.ok (.str r), b) ∧
      call b! "upcase" [.str r] b = call b! "upcase" [.str s] b) := by
  have hu : Ascii (s.map asciiUpper) := by
    intro x hx
    obtain ⟨y, hy, rfl⟩ := List.mem_map.1 hx
    exact (asciiUpper_props y (h y hy)).2.2.1
  have hl : Ascii (s.map asciiLower) := by
    intro x hx
    obtain ⟨y, hy, rfl⟩ := List.mem_map.1 hx
    exact (asciiUpper_props y (h y hy)).2.2.2.2.2
  constructor
  · intro r hr
    rw [C47_upcase_ascii s h] at hr
    simp only [Prod.mk.injEq, Res.ok.injEq, Value.str.injEq, and_true] at hr
    subst hr
    rw [C47_upcase_ascii _ hu, C47_downcase_ascii _ hu, C47_downcase_ascii s h, List.map_map, List.map_map]
    refine ⟨by simp, ?_, ?_⟩
    · congr 3
      exact List.map_congr_left fun x hx => (asciiUpper_props x (h x hx)).1
    · congr 3
      exact List.map_congr_left fun x hx => (asciiUpper_props x (h x hx)).2.1
  · intro r hr
    rw [C47_downcase_ascii s h] at hr
    simp only [Prod.mk.injEq, Res.ok.injEq, Value.str.injEq, and_true] at hr
    subst hr
    rw [C47_downcase_ascii _ hl, C47_upcase_ascii _ hl, C47_upcase_ascii s h, List.map_map, List.map_map]
    refine ⟨by simp, ?_, ?_⟩
    · congr 3
      exact List.map_congr_left fun x hx => (asciiUpper_props x (h x hx)).2.2.2.1
    · congr 3
      exact List.map_congr_left fun x hx => (asciiUpper_props x (h x hx)).2.2.2.2.1

/-- On texts of arbitrary runes upcase and downcase act rune by rune: the ASCII runes as above, the others by the
Unicode tables; in particular they are idempotent if the tables are. -/
theorem C47_upcase_runes (cs : List Char) (b : Buffer) :
    call b! "upcase" [.str (encodeAll cs)] b = (.ok (.str (encodeAll (cs.map upperRune))), b) ∧
    call b! "downcase" [.str (encodeAll cs)] b = (.ok (.str (encodeAll (cs.map lowerRune))), b) := by
  constructor
  · simp only [call_upcase, builtinUpcase, oneStr, toUpper, decodeAll_encodeAll]; rfl
  · simp only [call_downcase, builtinDowncase, oneStr, toLower, decodeAll_encodeAll]; rfl

/-- capitalize on ASCII text: first character upper-cased, the rest lower-cased; the empty string stays. -/
theorem C47_capitalize_ascii (x : UInt8) (xs : Bytes) (h : Ascii (x :: xs)) (b : Buffer) :
    call b! "capitalize" [.str (x :: xs)] b = (.ok (.str (asciiUpper x :: xs.map asciiLower)), b) ∧
    call b! "capitalize" [.str []] b = (.ok (.str []), b) := by
  refine ⟨?_, rfl⟩
  have hx := h x List.mem_cons_self
  simp only [call_capitalize, builtinCapitalize, oneStr, encodeRune_ascii _ hx]
  rw [toUpper_ascii, toLower_ascii xs (fun y hy => h y (List.mem_cons_of_mem _ hy))]
  · simp [ret]
  · simpa [Ascii] using hx

/-- What capitalize does to any non-empty string: the first *byte*, taken for a character, is upper-cased, and the remaining bytes
are lower-cased rune by rune (bytes that do not start a rune any more become U+FFFD). -/
theorem C47_capitalize_exact (x : UInt8) (xs : Bytes) (b : Buffer) :
    call b! "capitalize" [.str (x :: xs)] b =
      (.ok (.str (encodeAll (upperRune (Char.ofNat x.toNat) :: (decodeAll xs).map lowerRune))), b) := by
  have h := decodeAll_encodeAll [Char.ofNat x.toNat]
  simp only [encodeAll, List.flatMap_cons, List.flatMap_nil, List.append_nil] at h
  simp only [call_capitalize, builtinCapitalize, oneStr, toUpper, h, toLower, ret]
  simp [encodeAll]

/-- Counterexample: capitalize of "é" (one rune, two bytes) is neither "É" nor "é" but garbage of (at least) two
runes, whatever the Unicode tables say: the first *byte* is taken for a character and the second is ill-formed. -/
theorem C47_capitalize_false (b : Buffer) :
    call b! "capitalize" [.str b! "é"] b =
      (.ok (.str (encodeAll [Ext.upper (Char.ofNat 0xC3), Ext.lower (Char.ofNat 0xFFFD)])), b) := by
  have h1 : toUpper (encodeRune (Char.ofNat 0xC3)) = encodeRune (Ext.upper (Char.ofNat 0xC3)) := by
    have h := decodeAll_encodeAll [Char.ofNat 0xC3]
    simp only [encodeAll, List.flatMap_cons, List.flatMap_nil, List.append_nil] at h
    rw [toUpper, h]
    simp only [List.map_cons, List.map_nil, encodeAll, List.flatMap_cons, List.flatMap_nil, List.append_nil, upperRune,
      toNat_ofNat_valid 0xC3 (by omega)]
    rfl
  have h2 : toLower [(0xA9 : UInt8)] = encodeRune (Ext.lower (Char.ofNat 0xFFFD)) := by
    have h : decodeAll [(0xA9 : UInt8)] = [runeError] := by decide
    rw [toLower, h]
    simp only [List.map_cons, List.map_nil, encodeAll, List.flatMap_cons, List.flatMap_nil, List.append_nil, lowerRune, runeError,
      toNat_ofNat_valid 0xFFFD (by omega)]
    rfl
  show (Res.ok (Value.str (toUpper (encodeRune (Char.ofNat 0xC3)) ++ toLower [(0xA9 : UInt8)])), b) = _
  rw [h1, h2]
  simp [encodeAll]

example : Ascii b! "hello World" ∧ call b! "capitalize" [.str b! "hello World"] (newBuffer []) =
    (.ok (.str b! "Hello world"), newBuffer []) := ⟨by simp [Ascii], rfl⟩

/-! ### C49 -/

/-- looking-at returns t exactly when the pattern has a match in the text from point on that starts at point (and
nil otherwise), for every regexp engine that finds leftmost matches. -/
theorem C49_looking_at (b : Buffer) (p : Bytes) (re : Regex) (M : Bytes → Nat → Nat → Prop) (hc : Ext.compile p = .ok re)
    (hM : LeftmostFor re M) (h1 : 1 ≤ b.point) (h2 : b.point ≤ b.content.length) :
    ((∃ j, M b.after 0 j) → call b! "looking-at" [.str p] b = (.ok (.sym b! "t"), b)) ∧
    ((¬ ∃ j, M b.after 0 j) → call b! "looking-at" [.str p] b = (.ok (.sym b! "nil"), b)) := by
  obtain ⟨n, hn⟩ : ∃ n : Nat, b.point = n + 1 := ⟨(b.point - 1).toNat, by omega⟩
  have e : (b.point - 1).toNat = n := by omega
  simp only [call_looking_at, builtinLookingAt, oneStr, hn, dec64_succ, Buffer.after, hc]
  rw [if_neg (by omega), sliceFrom_eq _ _ (by omega)]
  have e2 : ((n : Int) + 1 - 1).toNat = n := by omega
  simp only [e2]
  cases hf : re.find (b.content.drop n) with
  | none => exact ⟨fun ⟨j, hj⟩ => absurd hj (hM.complete _ hf _ _), fun _ => rfl⟩
  | some ij =>
    obtain ⟨i, j⟩ := ij
    constructor
    · rintro ⟨j', hj'⟩
      have := hM.leftmost _ _ _ hf _ _ hj'
      have : i = 0 := by omega
      subst this; rfl
    · intro hno
      cases i with
      | zero => exact absurd ⟨j, hM.sound _ _ _ hf⟩ hno
      | succ i => rfl

/-- At the end of the buffer looking-at always answers nil, even for patterns that match the empty string. -/
theorem C49_looking_at_end (b : Buffer) (p : Bytes) (h : b.point = b.content.length + 1) :
    call b! "looking-at" [.str p] b = (.ok (.sym b! "nil"), b) := by
  simp only [call_looking_at, builtinLookingAt, oneStr, h, dec64_succ]
  rw [if_pos (by omega)]; rfl

/-- A pattern that does not compile is taken literally by looking-at. -/
theorem C49_looking_at_literal_fallback (b : Buffer) (p e : Bytes) (hc : Ext.compile p = .error e) (h1 : 1 ≤ b.point)
    (h2 : b.point ≤ b.content.length) :
    call b! "looking-at" [.str p] b = (.ok (if p <+: b.after then .sym b! "t" else .sym b! "nil"), b) := by
  obtain ⟨n, hn⟩ : ∃ n : Nat, b.point = n + 1 := ⟨(b.point - 1).toNat, by omega⟩
  simp only [call_looking_at, builtinLookingAt, oneStr, hn, dec64_succ, Buffer.after, hc]
  rw [if_neg (by omega), sliceFrom_eq _ _ (by omega)]
  have e2 : ((n : Int) + 1 - 1).toNat = n := by omega
  simp only [e2, hasPrefix, ← List.isPrefixOf_iff_prefix]
  split
  · rename_i h; simp [h, ret, symT]
  · rename_i h; simp [h, ret, symNil]

/-- looking-back answers t exactly if point is not at the beginning and the match that the engine finds first in the text before point
ends at point. -/
theorem C49_looking_back_exact (b : Buffer) (p : Bytes) (re : Regex) (hc : Ext.compile p = .ok re) (h : InRange b) :
    ((1 < b.point ∧ ∃ i, re.find b.before = some (i, b.before.length)) → call b! "looking-back" [.str p] b = (.ok (.sym b! "t"), b)) ∧
    (¬ (1 < b.point ∧ ∃ i, re.find b.before = some (i, b.before.length)) → call b! "looking-back" [.str p] b = (.ok (.sym b! "nil"), b)) := by
  obtain ⟨n, hn, hle⟩ := h.exists
  have e : (b.point - 1).toNat = n := by omega
  simp only [call_looking_back, builtinLookingBack, oneStr, hn, dec64_succ, hc, Buffer.before]
  rw [show ((n : Int) + 1 - 1).toNat = n by omega]
  by_cases h0 : n = 0
  · rw [if_pos (by omega)]
    exact ⟨fun hh => absurd hh.1 (by omega), fun _ => rfl⟩
  · rw [if_neg (by omega), sliceTo_eq _ _ hle]
    simp only
    rcases hf : re.find (b.content.take n) with _ | ⟨i, j⟩
    · exact ⟨fun ⟨_, i, hi⟩ => (nomatch hi), fun _ => rfl⟩
    · simp only
      constructor
      · rintro ⟨_, i', hi⟩
        cases hi
        rw [if_pos rfl]; rfl
      · intro hno
        rw [if_neg (by rintro rfl; exact hno ⟨by omega, i, rfl⟩)]; rfl

/-- A pattern that does not compile is taken literally by looking-back. -/
theorem C49_looking_back_literal_fallback (b : Buffer) (p e : Bytes) (hc : Ext.compile p = .error e) (h : InRange b) (h1 : 1 < b.point) :
    call b! "looking-back" [.str p] b = (.ok (if p <:+ b.before then .sym b! "t" else .sym b! "nil"), b) := by
  obtain ⟨n, hn, hle⟩ := h.exists
  simp only [call_looking_back, builtinLookingBack, oneStr, hn, dec64_succ, hc, Buffer.before]
  rw [if_neg (by omega), show ((n : Int) + 1 - 1).toNat = n by omega]
  by_cases hl : (p.length : Int) ≤ n
  · rw [if_pos hl, sliceTo_eq _ _ hle]
    simp only [hasSuffix, ← List.isSuffixOf_iff_suffix]
    split
    · rename_i h; simp [h, ret, symT]
    · rename_i h; simp [h, ret, symNil]
  · rw [if_neg hl, if_neg]
    · rfl
    · intro hs
      have := hs.length_le
      rw [List.length_take] at this
      omega

/-- looking-back never answers t wrongly: then some match does end at point. (The converse is false, see below.) -/
theorem C49_looking_back_sound (b : Buffer) (p : Bytes) (re : Regex) (M : Bytes → Nat → Nat → Prop)
    (hc : Ext.compile p = .ok re) (hM : LeftmostFor re M) (h : InRange b)
    (ht : call b! "looking-back" [.str p] b = (.ok (.sym b! "t"), b)) : ∃ i, M b.before i b.before.length := by
  obtain ⟨n, hn, hle⟩ := h.exists
  have e : (b.point - 1).toNat = n := by omega
  simp only [call_looking_back, builtinLookingBack, oneStr, hn, dec64_succ, hc] at ht
  split at ht
  · simp [ret, symNil] at ht
  · rw [sliceTo_eq _ _ hle] at ht
    simp only at ht
    simp only [Buffer.before, e]
    split at ht
    · rename_i i j hf
      split at ht
      · rename_i hj
        subst hj
        exact ⟨_, hM.sound _ _ _ hf⟩
      · simp [ret, symNil] at ht
    · simp [ret, symNil] at ht

/-- Counterexample to the converse: for every engine that compiles "a" to the leftmost search for the letter a,
looking-back "a" answers nil at the end of "aa", although an "a" ends at point. -/
theorem C49_looking_back_false (re : Regex) (hc : Ext.compile b! "a" = .ok re)
    (hre : ∀ s, re.find s = (indexOf b! "a" s).map fun i => (i, i + 1)) :
    call b! "looking-back" [.str b! "a"] { newBuffer b! "aa" with point := 3 } =
      (.ok (.sym b! "nil"), { newBuffer b! "aa" with point := 3 }) := by
  rw [call_looking_back]
  show (match Ext.compile b! "a" with
      | .error _ => _
      | .ok re => match re.find b! "aa" with
        | some (_, j) => if j = 2 then ret symT _ else ret symNil _
        | none => ret symNil _) = _
  rw [hc]
  simp only [hre]
  rfl

/-- The contract is met by a literal search, so it is not vacuous. -/
example : LeftmostFor { find := fun s => (indexOf b! "a" s).map fun i => (i, i + 1), findAll := fun _ => [] }
    (fun s i j => OccursAt b! "a" s i ∧ j = i + 1) := by
  constructor
  · intro s i j h
    simp only [Option.map_eq_some_iff, Prod.mk.injEq] at h
    obtain ⟨k, h1, rfl, rfl⟩ := h
    exact ⟨(indexOf_some h1).1, rfl⟩
  · intro s i j h i' j' h'
    simp only [Option.map_eq_some_iff, Prod.mk.injEq] at h
    obtain ⟨k, h1, rfl, rfl⟩ := h
    exact Nat.le_of_not_lt fun hlt => (indexOf_some h1).2 _ hlt h'.1
  · intro s h i j h'
    simp only [Option.map_eq_none_iff] at h
    exact indexOf_none h _ h'.1

end Texted
