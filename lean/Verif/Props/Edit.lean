import Verif.Lemmas.Scan
import Verif.Lemmas.Call
/-
C03 insert, C04 delete-region, C05 replace-region, C51 delete-char / delete-backward-char.
-/
namespace Texted
variable [Ext]

/-! ### C03 -/

/-- insert splices the text at point, advances point, and touches nothing else. -/
theorem C03_insert_splices (b : Buffer) (s : Bytes) (h : InRange b) :
    call b! "insert" [.str s] b =
      (okEmpty, { b with content := b.before ++ s ++ b.after, point := b.point + s.length }) := by
  obtain ⟨h1, h2⟩ := h
  simp only [call_insert, builtinInsert, oneStr, done, okEmpty, Buffer.insert, Buffer.before, Buffer.after]
  rw [if_pos h2]
  congr 2
  split
  · have e : b.point = 1 := by omega
    simp [e]
  · rw [if_neg (by omega)]

/-- Two inserts in a row are one insert of the concatenation. -/
theorem C03_insert_insert (b : Buffer) (s t : Bytes) (h : InRange b) :
    call b! "insert" [.str t] (call b! "insert" [.str s] b).2 = call b! "insert" [.str (s ++ t)] b := by
  obtain ⟨p, hp, hle⟩ := h.exists
  rw [C03_insert_splices b s h, C03_insert_splices b (s ++ t) h, C03_insert_splices]
  · have e1 : (b.point - 1).toNat = p := by omega
    have e2 : (b.point + (s.length : Int) - 1).toNat = p + s.length := by omega
    have e3 : (b.content.take p).length = p := by simp; omega
    simp only [Buffer.before, Buffer.after, e1, e2, okEmpty, List.length_append]
    congr 2
    · have hl : (b.content.take p ++ s).length = p + s.length := by simp [e3]
      rw [← hl, List.take_left', List.drop_left'] <;> simp
    · push_cast; omega
  · simp only [InRange, Buffer.before, Buffer.after, List.length_append, List.length_take, List.length_drop]
    omega

/-- A point at or before the first position prepends. -/
theorem C03_insert_prepends (b : Buffer) (s : Bytes) (h : b.point ≤ 1) :
    (call b! "insert" [.str s] b).1 = okEmpty ∧ (call b! "insert" [.str s] b).2.content = s ++ b.content := by
  simp [call_insert, builtinInsert, oneStr, done, okEmpty, Buffer.insert, h]

/-- A point beyond the end appends. -/
theorem C03_insert_appends (b : Buffer) (s : Bytes) (h : (b.content.length : Int) + 1 < b.point) :
    (call b! "insert" [.str s] b).1 = okEmpty ∧ (call b! "insert" [.str s] b).2.content = b.content ++ s := by
  have h1 : ¬ b.point ≤ 1 := by omega
  have h2 : b.point > (b.content.length : Int) + 1 := h
  simp [call_insert, builtinInsert, oneStr, done, okEmpty, Buffer.insert, h1, h2]

/-- Non-vacuity: a buffer with point in the middle. -/
example : InRange { newBuffer b! "Hello world" with point := 6 } ∧
    call b! "insert" [.str b! ","] { newBuffer b! "Hello world" with point := 6 } =
      (okEmpty, { newBuffer b! "Hello, world" with point := 7 }) := by
  refine ⟨by simp [InRange, newBuffer], rfl⟩

/-! ### C04 -/

/-- The 0-based bounds of the region, clamped to the text: a specification independent of the code. -/
def regionLo (b : Buffer) : Nat := (min b.mark b.point - 1).toNat
@[inherit_doc regionLo] def regionHi (b : Buffer) : Nat := min (max b.mark b.point - 1).toNat b.content.length

omit [Ext] in
theorem regionBounds_eq (b : Buffer) (hm : minInt < b.mark) (hp : minInt < b.point) :
    (regionLo b < regionHi b → regionBounds b = ((regionLo b : Int), (regionHi b : Int))) ∧
    (¬ regionLo b < regionHi b → (regionBounds b).2 ≤ (regionBounds b).1) := by
  have e1 : dec64 (if b.mark > b.point then b.point else b.mark) = min b.mark b.point - 1 := by
    rw [dec64_of] <;> split <;> omega
  have e2 : dec64 (if b.mark > b.point then b.mark else b.point) = max b.mark b.point - 1 := by
    rw [dec64_of] <;> split <;> omega
  simp only [regionBounds, regionLo, regionHi, e1, e2]
  constructor
  · intro h
    ext <;> simp only [atLeast0_eq, atMost_eq] <;> omega
  · intro h
    simp only [atLeast0_eq, atMost_eq]; omega

omit [Ext] in
theorem spliceOr_eq (b : Buffer) (i j : Nat) (text : Bytes) (p : Int) (hi : i ≤ b.content.length)
    (hj : j ≤ b.content.length) :
    spliceOr b i text j p = (okEmpty, { b with content := b.content.take i ++ text ++ b.content.drop j, point := p }) := by
  simp [spliceOr, sliceTo_eq _ _ hi, sliceFrom_eq _ _ hj, done, okEmpty]

omit [Ext] in
theorem regionLo_hi (b : Buffer) (h : regionLo b < regionHi b) :
    regionLo b ≤ b.content.length ∧ regionHi b ≤ b.content.length := by
  simp only [regionHi] at *; omega

/-- delete-region removes exactly the text between mark and point (clamped to the buffer, in either order) and
moves point to its start; an empty region changes nothing. -/
theorem C04_delete_region (b : Buffer) (hm : minInt < b.mark) (hp : minInt < b.point) :
    call b! "delete-region" [] b =
      (okEmpty, if regionLo b < regionHi b then
          { b with content := b.content.take (regionLo b) ++ b.content.drop (regionHi b), point := regionLo b + 1 }
        else b) := by
  obtain ⟨h1, h2⟩ := regionBounds_eq b hm hp
  simp only [call_delete_region, builtinDeleteRegion, noArgs]
  by_cases hlt : regionLo b < regionHi b
  · have := regionLo_hi b hlt
    simp only [h1 hlt]
    rw [if_neg (by omega), if_pos hlt, spliceOr_eq _ _ _ _ _ this.1 this.2]
    simp
  · have := h2 hlt
    rw [if_pos (by omega), if_neg hlt]; rfl

/-- Swapping point and mark first gives the same text and the same point. -/
theorem C04_delete_region_symmetric (b : Buffer) (hm : minInt < b.mark) (hp : minInt < b.point)
    (hne : regionLo b < regionHi b) :
    (call b! "delete-region" [] { b with point := b.mark, mark := b.point }).2.content =
      (call b! "delete-region" [] b).2.content ∧
    (call b! "delete-region" [] { b with point := b.mark, mark := b.point }).2.point =
      (call b! "delete-region" [] b).2.point := by
  have e1 : regionLo { b with point := b.mark, mark := b.point } = regionLo b := by
    simp [regionLo, Int.min_comm]
  have e2 : regionHi { b with point := b.mark, mark := b.point } = regionHi b := by
    simp [regionHi, Int.max_comm]
  rw [C04_delete_region b hm hp, C04_delete_region _ (by simpa using hp) (by simpa using hm)]
  simp only [e1, e2, hne, if_true, and_self]

/-- The text is the deleted region put back between what is left: nothing else is lost. -/
theorem C04_delete_region_complement (b : Buffer) (hm : minInt < b.mark) (hp : minInt < b.point)
    (hne : regionLo b < regionHi b) :
    ∃ pre del post, b.content = pre ++ del ++ post ∧ pre.length = regionLo b ∧
      del.length = regionHi b - regionLo b ∧ (call b! "delete-region" [] b).2.content = pre ++ post := by
  have := regionLo_hi b hne
  refine ⟨b.content.take (regionLo b), (b.content.drop (regionLo b)).take (regionHi b - regionLo b),
    b.content.drop (regionHi b), ?_, by simp; omega, by simp; omega, ?_⟩
  · rw [List.append_assoc]
    conv => lhs; rw [← List.take_append_drop (regionLo b) b.content]
    congr 1
    conv => lhs; rw [← List.take_append_drop (regionHi b - regionLo b) (b.content.drop (regionLo b))]
    rw [List.drop_drop]
    congr 2; omega
  · rw [C04_delete_region b hm hp]; simp [hne]

/-- Non-vacuity: a proper region, mark after point. -/
example : regionLo { newBuffer b! "Hello world" with point := 3, mark := 6 } = 2 ∧
    regionHi { newBuffer b! "Hello world" with point := 3, mark := 6 } = 5 ∧
    (call b! "delete-region" [] { newBuffer b! "Hello world" with point := 3, mark := 6 }).2.content = b! "He world" := by
  refine ⟨rfl, rfl, rfl⟩

/-- The hypothesis on the smallest int is needed: `start--` wraps around and the region is taken to be empty. -/
theorem C04_min_int_counterexample :
    (call b! "delete-region" [] { newBuffer b! "Hello" with mark := minInt, point := 3 }).2.content = b! "Hello" := rfl

/-! ### C05 -/

/-- replace-region on a non-empty region is delete-region followed by insert. -/
theorem C05_replace_region (b : Buffer) (s : Bytes) (hm : minInt < b.mark) (hp : minInt < b.point)
    (hne : regionLo b < regionHi b) :
    call b! "replace-region" [.str s] b = call b! "insert" [.str s] (call b! "delete-region" [] b).2 := by
  have hb := (regionBounds_eq b hm hp).1 hne
  have hl := regionLo_hi b hne
  rw [C04_delete_region b hm hp, C03_insert_splices]
  · have hl' : (b.content.take (regionLo b)).length = regionLo b := by simp; omega
    have e : ((regionLo b : Int) + 1 - 1).toNat = regionLo b := by omega
    simp only [call_replace_region, builtinReplaceRegion, oneStr, hb]
    rw [if_neg (by simp; omega), spliceOr_eq _ _ _ _ _ hl.1 hl.2]
    simp only [hne, if_true, Buffer.before, Buffer.after, e]
    congr 2
    · rw [List.take_left' hl', List.drop_left' hl']
    · omega
  · simp only [hne, if_true, InRange, List.length_append, List.length_take, List.length_drop]
    omega

/-- On an empty region replace-region changes nothing (it does not insert). -/
theorem C05_replace_region_empty (b : Buffer) (s : Bytes) (hm : minInt < b.mark) (hp : minInt < b.point)
    (he : ¬ regionLo b < regionHi b) : call b! "replace-region" [.str s] b = (okEmpty, b) := by
  have hb := (regionBounds_eq b hm hp).2 he
  simp only [call_replace_region, builtinReplaceRegion, oneStr]
  rw [if_pos (by omega)]; rfl

example : regionLo { newBuffer b! "Hello world" with point := 6 } < regionHi { newBuffer b! "Hello world" with point := 6 } ∧
    (call b! "replace-region" [.str b! "Bye"] { newBuffer b! "Hello world" with point := 6 }).2.content = b! "Bye world" := by
  refine ⟨by decide, rfl⟩

/-! ### C51 -/

/-- delete-char n (n ≥ 0) removes the next `min n rest` bytes and keeps point. -/
theorem C51_delete_char (b : Buffer) (args : List Value) (n : Nat) (hn : CountArg args n) (h : InRange b)
    (hb : (b.content.length : Int) + n ≤ maxInt) :
    call b! "delete-char" args b = (okEmpty, { b with content := b.before ++ b.after.drop n }) := by
  obtain ⟨p, hp, hle⟩ := h.exists
  have e : (b.point - 1).toNat = p := by omega
  simp only [call_delete_char, builtinDeleteChar, withCount_of hn, Buffer.before, Buffer.after, e]
  split
  · have hpe : p = b.content.length := by omega
    simp [done, okEmpty, hpe]
  · have e1 : b.point - 1 = (p : Int) := by omega
    rw [e1, wrap64_eq (by omega) (by omega), atMost]
    split
    · rename_i hgt
      rw [spliceOr_eq _ _ _ _ _ (by omega) (Nat.le_refl _)]
      simp only [okEmpty, List.append_nil, List.drop_drop]
      rw [List.drop_eq_nil_of_le (Nat.le_refl _), List.drop_eq_nil_of_le (by omega)]
    · rename_i hle'
      have e2 : (p : Int) + (n : Int) = ((p + n : Nat) : Int) := by omega
      rw [e2, spliceOr_eq _ _ _ _ _ (by omega) (by omega)]
      simp [okEmpty, List.drop_drop]

/-- delete-backward-char n (n ≥ 0) removes the last `min n available` bytes before point and moves point back by
that many. -/
theorem C51_delete_backward_char (b : Buffer) (args : List Value) (n : Nat) (hn : CountArg args n) (h : InRange b)
    (hb : (b.content.length : Int) ≤ maxInt) (hn' : (n : Int) ≤ maxInt) :
    call b! "delete-backward-char" args b =
      (okEmpty, { b with content := b.before.take (b.before.length - n) ++ b.after,
                         point := b.point - min n b.before.length }) := by
  obtain ⟨p, hp, hle⟩ := h.exists
  have hlen : (b.content.take p).length = p := by simp; omega
  obtain ⟨c, pt, mk, lm, ls, le⟩ := b
  simp only at hp hle hb hlen
  subst hp
  have e : ((p : Int) + 1 - 1).toNat = p := by omega
  simp only [call_delete_backward_char, builtinDeleteBackwardChar, withCount_of hn, Buffer.before, Buffer.after, e,
    hlen, dec64_succ]
  rw [wrap64_eq (by omega) (by omega)]
  have e2 : (c.take p).take (p - n) = c.take (p - n) := by
    rw [List.take_take]; congr 1; omega
  by_cases hz : n = 0 ∨ p = 0
  · rw [if_pos (by rw [atLeast0_eq]; omega)]
    have e3 : p - n = p := by omega
    have e4 : min n p = 0 := by omega
    rw [e3] at e2
    simp only [done, okEmpty, e3, e2, e4, List.take_append_drop, Int.ofNat_zero, Int.sub_zero]
  · rw [if_neg (by rw [atLeast0_eq]; omega)]
    have e3 : atLeast0 ((p : Int) - (n : Int)) = ((p - n : Nat) : Int) := by
      rw [atLeast0_eq]; omega
    rw [e3, spliceOr_eq _ _ _ _ _ (by simp only; omega) hle, e2]
    simp only [List.append_nil]
    congr 2
    omega

/-- Moving forward over n bytes and deleting them backward is deleting them forward. -/
theorem C51_forward_then_delete_backward (b : Buffer) (args : List Value) (n : Nat) (hn : CountArg args n)
    (h : InRange b) (hrest : b.point + n ≤ b.content.length + 1) (hb : (b.content.length : Int) + n < maxInt) :
    (call b! "delete-backward-char" args (call b! "forward-char" args b).2) = call b! "delete-char" args b := by
  have hmove : (call b! "forward-char" args b).2 = { b with point := b.point + n } := by
    have := h.1
    simp only [call_forward_char, builtinForwardChar, withCount_of hn, done]
    rw [wrap64_eq (by omega) (by omega), if_neg (by omega), if_neg (by omega)]
  rw [hmove, C51_delete_char b args n hn h (by omega), C51_delete_backward_char _ args n hn _ (by simp; omega) (by omega)]
  · obtain ⟨p, hp, hle⟩ := h.exists
    have e : (b.point - 1).toNat = p := by omega
    have e2 : (b.point + (n : Int) - 1).toNat = p + n := by omega
    have hlen : (b.content.take (p + n)).length = p + n := by simp; omega
    simp only [Buffer.before, Buffer.after, e, e2, hlen, okEmpty]
    have e4 : min n (p + n) = n := Nat.min_eq_left (by omega)
    congr 2
    · simp [List.take_take, List.drop_drop]
    · rw [e4]; omega
  · have := h.1; exact ⟨by simp; omega, by simpa using hrest⟩

/-- A negative count makes delete-char duplicate text … -/
theorem C51_negative_duplicates :
    (call b! "delete-char" [numV (-2)] { newBuffer b! "abcdef" with point := 4 }).2.content = b! "abcbcdef" := rfl

/-- … or panic. -/
theorem C51_negative_panics : (call b! "delete-char" [numV (-1)] (newBuffer b! "abcdef")).1 = .panic := rfl

example : CountArg [numV 2] 2 ∧ InRange { newBuffer b! "abcdef" with point := 3 } ∧
    (call b! "delete-char" [numV 2] { newBuffer b! "abcdef" with point := 3 }).2.content = b! "abef" ∧
    (call b! "delete-backward-char" [numV 2] { newBuffer b! "abcdef" with point := 3 }).2.content = b! "cdef" := by
  refine ⟨countArg_numV 2 (by decide), by simp [InRange, newBuffer], rfl, rfl⟩

end Texted
