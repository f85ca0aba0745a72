import Verif.Props.Frame
/- C65: the buffer boundary and mark commands, by themselves and in the ways they are combined. -/
namespace Texted
variable [Ext]

/-- What `(point)`, `(mark)`, … answer, read as an integer. -/
def Answers (name : Bytes) (b : Buffer) (n : Int) : Prop := ∃ x : F64, call name [] b = (.ok (.num x), b) ∧ x.toInt = n

theorem answers_numV {name : Bytes} {b : Buffer} {n : Int} (h : call name [] b = (.ok (numV n), b)) (hn : n.natAbs ≤ 9007199254740992) :
    Answers name b n := ⟨F64.ofInt n, h, F64.toInt_ofInt n hn⟩

/-- The six commands, each exactly: which of point and mark they set, and that they touch nothing else. -/
theorem C65_effects (b : Buffer) (x : F64) :
    call b! "beginning-of-buffer" [] b = (okEmpty, { b with point := 1 }) ∧
    call b! "end-of-buffer" [] b = (okEmpty, { b with point := b.content.length + 1 }) ∧
    call b! "mark-whole-buffer" [] b = (okEmpty, { b with mark := 1, point := b.content.length + 1 }) ∧
    call b! "set-mark" [] b = (okEmpty, { b with mark := b.point }) ∧
    call b! "set-mark-command" [] b = (okEmpty, { b with mark := b.point }) ∧
    call b! "set-mark-command" [.num x] b = (okEmpty, { b with mark := x.toInt }) := ⟨rfl, rfl, rfl, rfl, rfl, rfl⟩

/-- point and mark report the two positions exactly, as long as they are below 2^53 in size. -/
theorem C65_point_and_mark (b : Buffer) (hp : b.point.natAbs ≤ 9007199254740992) (hm : b.mark.natAbs ≤ 9007199254740992) :
    Answers b! "point" b b.point ∧ Answers b! "mark" b b.mark := ⟨answers_numV rfl hp, answers_numV rfl hm⟩

/-- A position survives being stored by set-mark-command and read by mark, even one outside the text: nothing clamps it. -/
theorem C65_set_mark_command_reads_back (b : Buffer) (n : Int) (hn : n.natAbs ≤ 9007199254740992) :
    Answers b! "mark" (call b! "set-mark-command" [numV n] b).2 n := by
  have e : (call b! "set-mark-command" [numV n] b).2 = { b with mark := n } := by
    simp only [numV, (C65_effects b _).2.2.2.2.2, F64.toInt_ofInt n hn]
  rw [e]
  exact answers_numV rfl hn

/-- mark-whole-buffer is beginning-of-buffer, set-mark, end-of-buffer. -/
theorem C65_mark_whole_buffer_in_steps (b : Buffer) :
    call b! "mark-whole-buffer" [] b =
      call b! "end-of-buffer" [] (call b! "set-mark" [] (call b! "beginning-of-buffer" [] b).2).2 := rfl

/-- mark-whole-buffer selects exactly the whole text, whatever point and mark were: the region runs from point-min to
point-max and its text is the buffer's. -/
theorem C65_region_is_whole_buffer (b : Buffer) (hb : b.content.length < 9007199254740992) :
    let b' := (call b! "mark-whole-buffer" [] b).2
    Answers b! "region-beginning" b' 1 ∧ Answers b! "point-min" b' 1 ∧
    Answers b! "region-end" b' (b.content.length + 1) ∧ Answers b! "point-max" b' (b.content.length + 1) ∧
    eval defaultEnv [.list [.sym b! "buffer-substring", .list [.sym b! "region-beginning"], .list [.sym b! "region-end"]]] b' =
      (.ok (.str b.content), b') := by
  intro b'
  have e : b' = { b with mark := 1, point := b.content.length + 1 } := rfl
  have e1 : call b! "region-beginning" [] b' = (.ok (numV 1), b') := by
    rw [e]; simp only [call_region_beginning, builtinRegionBeginning, noArgs, ret]
    first | rfl | (split <;> first | rfl | (exfalso; omega)) | (congr 3; omega)
  have e2 : call b! "region-end" [] b' = (.ok (numV (b.content.length + 1)), b') := by
    rw [e]; simp only [call_region_end, builtinRegionEnd, noArgs, ret]
    first | rfl | (split <;> first | rfl | (exfalso; omega)) | (congr 3; omega)
  refine ⟨answers_numV e1 (by omega), answers_numV rfl (by omega), answers_numV e2 (by omega),
    answers_numV (by rfl) (by omega), ?_⟩
  have hs := C21_buffer_substring b' (F64.ofInt 1) (F64.ofInt (b.content.length + 1)) 1 (b.content.length + 1)
    (F64.toInt_ofInt 1 (by decide)) (F64.toInt_ofInt _ (by omega)) (by decide) (by omega) (by omega)
  obtain ⟨r, hr, hc⟩ := hs
  have hr' : r = b.content := C21_slice_unique hr ⟨[], [], by simp [e], by simp, by simp [e]⟩
  subst hr'
  have h1 : (defaultEnv b! "region-beginning" : Option Builtin) = some builtinRegionBeginning := rfl
  have h2 : (defaultEnv b! "region-end" : Option Builtin) = some builtinRegionEnd := rfl
  have h3 : (defaultEnv b! "buffer-substring" : Option Builtin) = some builtinBufferSubstring := rfl
  rw [call_region_beginning] at e1
  rw [call_region_end] at e2
  rw [call_buffer_substring] at hc
  simp only [numV] at e1 e2
  simp only [eval, evalLoopNoTrace, evalExpr, h1, h2, h3, evalArgs, e1, e2, hc]

/-- Deleting the selected whole buffer empties it. -/
theorem C65_delete_whole_buffer (b : Buffer) :
    let b' := (call b! "delete-region" [] (call b! "mark-whole-buffer" [] b).2).2
    b'.content = [] ∧ b'.point = 1 := by
  intro b'
  have e : b' = (call b! "delete-region" [] { b with mark := 1, point := b.content.length + 1 }).2 := rfl
  rw [e, C04_delete_region _ (by dsimp only; omega) (by dsimp only; omega)]
  have h1 : regionLo { b with mark := 1, point := (b.content.length : Int) + 1 } = 0 := by simp only [regionLo]; omega
  have h2 : regionHi { b with mark := 1, point := (b.content.length : Int) + 1 } = b.content.length := by simp only [regionHi]; omega
  simp only [h1, h2]
  split
  · simp
  · rename_i h; have : b.content.length = 0 := by omega
    exact ⟨List.eq_nil_of_length_eq_zero this, by simp [this]⟩

/-- Replacing the selected whole buffer leaves exactly the new text, with point behind it. -/
theorem C65_replace_whole_buffer (b : Buffer) (s : Bytes) (hne : b.content ≠ []) :
    let r := call b! "replace-region" [.str s] (call b! "mark-whole-buffer" [] b).2
    r.1 = okEmpty ∧ r.2.content = s ∧ r.2.point = s.length + 1 := by
  intro r
  have e : r = call b! "replace-region" [.str s] { b with mark := 1, point := b.content.length + 1 } := rfl
  have hl : 0 < b.content.length := List.length_pos_iff.2 hne
  have h1 : regionLo { b with mark := 1, point := (b.content.length : Int) + 1 } = 0 := by simp only [regionLo]; omega
  have h2 : regionHi { b with mark := 1, point := (b.content.length : Int) + 1 } = b.content.length := by simp only [regionHi]; omega
  rw [e, C05_replace_region _ s (by dsimp only; omega) (by dsimp only; omega) (by rw [h1, h2]; exact hl),
    C04_delete_region _ (by dsimp only; omega) (by dsimp only; omega), if_pos (by rw [h1, h2]; exact hl), h1, h2]
  rw [C03_insert_splices _ s (by simp [InRange])]
  simp [Buffer.before, Buffer.after]
  omega

/-- FINDING: in an empty buffer, replacing the selected whole buffer does nothing: the new text is lost without an error. -/
theorem C65_false_replace_empty_buffer (s : Bytes) :
    call b! "replace-region" [.str s] (call b! "mark-whole-buffer" [] (newBuffer [])).2 = (okEmpty, newBuffer []) := rfl

/-- After set-mark and end-of-buffer the region is the text after point; after beginning-of-buffer it is the text before. -/
theorem C65_region_to_boundary (b : Buffer) (h : InRange b) :
    (call b! "delete-region" [] (call b! "end-of-buffer" [] (call b! "set-mark" [] b).2).2).2.content = b.before ∧
    (call b! "delete-region" [] (call b! "beginning-of-buffer" [] (call b! "set-mark" [] b).2).2).2.content = b.after := by
  obtain ⟨p, hp, hle⟩ := h.exists
  have hpt : b.point = p + 1 := by omega
  constructor
  · have e : (call b! "delete-region" [] (call b! "end-of-buffer" [] (call b! "set-mark" [] b).2).2) =
      call b! "delete-region" [] { b with mark := b.point, point := b.content.length + 1 } := rfl
    have h1 : regionLo { b with mark := b.point, point := (b.content.length : Int) + 1 } = p := by simp only [regionLo, hpt]; omega
    have h2 : regionHi { b with mark := b.point, point := (b.content.length : Int) + 1 } = b.content.length := by simp only [regionHi, hpt]; omega
    rw [e, C04_delete_region _ (by dsimp only; omega) (by dsimp only; omega), h1, h2]
    have hb : b.before = b.content.take p := by simp [Buffer.before, hpt]
    split
    · simp [hb]
    · rw [hb, List.take_of_length_le (by omega)]
  · have e : (call b! "delete-region" [] (call b! "beginning-of-buffer" [] (call b! "set-mark" [] b).2).2) =
      call b! "delete-region" [] { b with mark := b.point, point := 1 } := rfl
    have h1 : regionLo { b with mark := b.point, point := 1 } = 0 := by simp only [regionLo, hpt]; omega
    have h2 : regionHi { b with mark := b.point, point := 1 } = p := by simp only [regionHi, hpt]; omega
    rw [e, C04_delete_region _ (by dsimp only; omega) (by dsimp only; omega), h1, h2]
    have hb : b.after = b.content.drop p := by simp [Buffer.after, hpt]
    split
    · simp [hb]
    · have : p = 0 := by omega
      simp [hb, this]

/-- FINDING: the mark is a number, not a place in the text: inserting before it moves the text away from under it. -/
theorem C65_false_mark_follows_text :
    let b := (call b! "set-mark-command" [numV 5] (newBuffer b! "abc def")).2
    b.content.drop (b.mark - 1).toNat = b! "def" ∧
    let b' := (call b! "insert" [.str b! "xy "] b).2
    b'.content = b! "xy abc def" ∧ b'.content.drop (b'.mark - 1).toNat = b! "bc def" := ⟨rfl, rfl, rfl⟩

/-- A buffer with point and mark in the middle, for all of the above. -/
example : InRange { newBuffer b! "one two" with point := 4, mark := 2 } ∧ (newBuffer b! "one two").content ≠ [] ∧
    (call b! "replace-region" [.str b! "X"] (call b! "mark-whole-buffer" [] { newBuffer b! "one two" with point := 4, mark := 2 }).2).2.content = b! "X" := by
  refine ⟨by simp [InRange, newBuffer], by decide, rfl⟩

end Texted
