import Verif.Lemmas.PgFormat
/-
A script has at most two values for each byte of its text.
-/
set_option linter.unusedSectionVars false
namespace Texted
open Spec

theorem partsAll_append : ∀ p q : List Value, Value.partsAll (p ++ q) = Value.partsAll p + Value.partsAll q
  | [], q => by simp [Value.partsAll]
  | v :: p, q => by rw [List.cons_append, Value.partsAll, Value.partsAll, partsAll_append p q]; omega

theorem atom_parts {w : List Char} {v : Value} (h : AtomReads w v) : v.parts = 1 := by
  cases h <;> rfl

theorem readsAll_parts {ts : List (List Char)} {vs : List Value} (h : ReadsAll ts vs) : Value.partsAll vs ≤ ts.length := by
  induction h with
  | nil => simp [Value.partsAll]
  | atom t v ts vs _ _ ha _ ih => rw [Value.partsAll, atom_parts ha, List.length_cons]; omega
  | list inner l ts vs _ _ ih ih' =>
    rw [Value.partsAll, Value.parts]
    simp only [List.length_cons, List.length_append]
    omega

theorem tokens_count {cs : List Char} {ts : List (List Char)} (h : Tokens cs ts) : ts.length ≤ cs.length := by
  induction h with
  | nil => simp
  | blank c r ts _ _ ih => simp only [List.length_cons]; omega
  | paren c r ts _ _ ih => simp only [List.length_cons]; omega
  | word w r ts _ hw _ _ ih =>
    have := List.length_pos_iff.mpr hw
    simp only [List.length_cons, List.length_append]; omega

theorem command_parts {cs : List Char} {v : Value} (h : CommandReads cs v) : v.parts ≤ cs.length + 1 := by
  unfold CommandReads at h
  split at h
  · obtain ⟨used, ignored, ht, hr⟩ := h
    have h₁ := tokens_count ht
    have h₂ := readsAll_parts hr
    rw [List.length_append] at h₁
    simp only [Value.partsAll] at h₂
    omega
  · obtain ⟨ts, vs, ht, hr, rfl⟩ := h
    have h₁ := tokens_count ht
    have h₂ := readsAll_parts hr
    rw [Value.parts]; omega

theorem trimmed_length (cs : List Char) : (trimmed cs).length ≤ cs.length := by
  unfold trimmed
  have h₁ := (List.dropWhile_suffix isSpace (l := cs)).length_le
  have h₂ := (List.dropWhile_suffix isSpace (l := (cs.dropWhile isSpace).reverse)).length_le
  rw [List.length_reverse] at h₂ ⊢
  omega

theorem segment_parts {seg : List Char} {p : List Value} (h : SegmentReads seg p) : Value.partsAll p ≤ 2 * seg.length := by
  obtain ⟨_, ⟨_, rfl⟩ | ⟨hn, v, hv, rfl⟩⟩ := h
  · simp [Value.partsAll]
  · have h₁ := command_parts hv
    have h₂ := trimmed_length seg
    have h₃ := List.length_pos_iff.mpr hn
    simp only [Value.partsAll]; omega

theorem line_parts {cs : List Char} {p : List Value} (h : LineReads cs p) : Value.partsAll p ≤ 2 * cs.length := by
  induction h with
  | last seg p h => exact segment_parts h
  | more seg rest p q h _ ih =>
    have := segment_parts h
    rw [partsAll_append]
    simp only [List.length_cons, List.length_append]; omega

theorem lines_parts [Ext] {ls : List Bytes} {p : List Value} (h : LinesRead ls p) : Value.partsAll p ≤ 2 * (ls.map List.length).sum := by
  induction h with
  | nil => simp [Value.partsAll]
  | cons l ls p q _ hl _ ih =>
    have h₁ := line_parts hl
    have h₂ := decodeAll_length (dropCR l)
    have h₃ : (dropCR l).length ≤ l.length := by
      unfold dropCR
      split
      · simp
      · omega
    rw [partsAll_append, List.map_cons, List.sum_cons]; omega

theorem splitByte_sum (c : UInt8) (s : Bytes) : ((splitByte c s).map List.length).sum ≤ s.length := by
  induction s with
  | nil => simp [splitByte]
  | cons x xs ih =>
    rw [splitByte]
    split
    · simp only [List.map_cons, List.sum_cons, List.length_nil, List.length_cons]; omega
    · cases h : splitByte c xs with
      | nil => simp
      | cons l ls =>
        rw [h] at ih
        simp only [List.map_cons, List.sum_cons, List.length_cons] at ih ⊢
        omega

theorem script_parts [Ext] {s : Bytes} {p : List Value} (h : ScriptReads s p) : Value.partsAll p ≤ 2 * s.length := by
  have h₁ := lines_parts h
  have h₂ := splitByte_sum nl s
  omega

end Texted
