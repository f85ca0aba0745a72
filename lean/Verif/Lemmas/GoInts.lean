import Verif.Lemmas.GoMotion
import Verif.Lemmas.Lines
/-
The numbers of a buffer stay Go ints.
-/
namespace Texted
open Spec
variable [Ext] {args : List Value} {b : Buffer}

omit [Ext] in
theorem ints_noArgs {name : Bytes} {k : Res Bytes Value × Buffer} (h : Ints b) (hk : Ints k.2) : Ints (noArgs name args b k).2 := by
  unfold noArgs; split
  · exact hk
  · exact h

omit [Ext] in
theorem ints_oneStr {name : Bytes} {k : Bytes → Res Bytes Value × Buffer} (h : Ints b) (hk : ∀ s, args = [.str s] → Ints (k s).2) :
    Ints (oneStr name args b k).2 := by
  unfold oneStr; split
  · exact hk _ rfl
  · exact h
  · exact h

theorem ints_oneNum {name : Bytes} {k : Int → Res Bytes Value × Buffer} (h : Ints b) (hk : ∀ c, minInt ≤ c → c ≤ maxInt → Ints (k c).2) :
    Ints (oneNum name args b k).2 := by
  unfold oneNum; split
  · exact hk _ (F64.toInt_range _).1 (F64.toInt_range _).2
  · exact h
  · exact h

theorem ints_withCount {name : Bytes} {k : Int → Res Bytes Value × Buffer} (h : Ints b) (hk : ∀ c, minInt ≤ c → c ≤ maxInt → Ints (k c).2) :
    Ints (withCount name args b k).2 := by
  unfold withCount
  match args with
  | [] => exact hk 1 (by omega) (by omega)
  | [.num x] => exact hk _ (F64.toInt_range _).1 (F64.toInt_range _).2
  | [.str _] => exact h
  | [.sym _] => exact h
  | [.list _] => exact h
  | _ :: _ :: _ => simp only [optCount]; exact h

omit [Ext] in
theorem ints_splice {i j p : Int} {t : Bytes} (h : Ints b) (hp : 0 ≤ i → i ≤ b.content.length → minInt ≤ p ∧ p ≤ maxInt) : Ints (spliceOr b i t j p).2 := by
  unfold spliceOr
  split
  · rename_i pre post h₁ h₂
    have hi : 0 ≤ i ∧ i ≤ b.content.length := by unfold sliceTo at h₁; split at h₁ <;> first | omega | cases h₁
    exact ⟨hp hi.1 hi.2, h.mark, h.lastStart, h.lastEnd⟩
  · exact h

omit [Ext] in
theorem ints_point {p : Int} (h : Ints b) (hp : minInt ≤ p ∧ p ≤ maxInt) : Ints { b with point := p } := ⟨hp, h.mark, h.lastStart, h.lastEnd⟩

omit [Ext] in
theorem incPos_range {c : Bytes} {p : Int} (hl : c.length < 4611686018427387904) (h : minInt ≤ p) : minInt ≤ incPos c p ∧ incPos c p ≤ maxInt := by
  unfold incPos
  split
  · omega
  · exact wrap64_range _

omit [Ext] in
theorem clamp_range {m p : Int} (h : 0 ≤ m) (h' : m < 4611686018427387905) :
    minInt ≤ (if p < 1 then 1 else if p > m then m else p) ∧ (if p < 1 then 1 else if p > m then m else p) ≤ maxInt := by
  split
  · omega
  · split <;> omega

omit [Ext] in
theorem ints_insert {t : Bytes} (h : Ints b) (hl : b.content.length < 4611686018427387904) (ht : t.length < 4611686018427387904) : Ints (b.insert t) := by
  have hp := h.point
  refine ⟨?_, h.mark, h.lastStart, h.lastEnd⟩
  by_cases hc : b.point ≤ (b.content.length : Int) + 1
  · have e : (b.insert t).point = b.point + t.length := if_pos hc
    rw [e]; omega
  · have e : (b.insert t).point = wrap64 (b.point + t.length) := if_neg hc
    rw [e]; exact wrap64_range _

omit [Ext] in
theorem indexOf_range {p s : Bytes} {k : Nat} (h : indexOf p s = some k) : k + p.length ≤ s.length := by
  obtain ⟨u, v, e, hu⟩ := (indexOf_some h).1
  rw [e]; simp; omega

omit [Ext] in
theorem lastIndexOf_range {p s : Bytes} {k : Nat} (h : lastIndexOf p s = some k) : k + p.length ≤ s.length := by
  obtain ⟨u, v, e, hu⟩ := (lastIndexOf_some h).1
  rw [e]; simp; omega

/-- Go on until the buffer is the old one. -/
macro "ints_read" : tactic => `(tactic| (repeat' first | assumption | refine ints_noArgs ‹Ints _› ?_ | refine ints_oneStr ‹Ints _› fun _ _ => ?_ | dsimp only | split))

/-- Each function leaves numbers that are Go ints. -/
theorem ints_call [LawfulExt] (h : Machine args b) {name : Bytes} {f : Builtin} (hf : (name, f) ∈ builtinTable) : Ints (f args b).2 := by
  have hi : Ints b := ⟨h.point, h.mark, h.lastStart, h.lastEnd⟩
  have hc := h.content
  have hd := dec64_range h.point.1 h.point.2
  have hd' := dec64_range h.mark.1 h.mark.2
  have h0 := atLeast0_range hd.2
  have hm0 := atMost_range (m := b.content.length) (x := dec64 b.point) hd.1 (by omega)
  unfold builtinTable at hf
  simp only [List.mem_cons, List.not_mem_nil, or_false, Prod.mk.injEq] at hf
  rcases hf with ⟨-, rfl⟩ | hf
  · exact ints_oneStr hi fun s hs => ints_insert hi hc (h.strings s (by simp [hs]))
  rcases hf with ⟨-, rfl⟩ | hf
  · exact ints_oneNum hi fun c _ _ => ints_point hi (clamp_range (by omega) (by omega))
  rcases hf with ⟨-, rfl⟩ | hf
  · refine ints_oneNum hi fun c _ _ => ?_
    try dsimp only
    have hlen := splitByte_length b.content
    generalize hk : (if c < 1 then (1 : Int) else if c > (splitByte nl b.content).length then ((splitByte nl b.content).length : Int) else c) = m
    have hm : 1 ≤ m ∧ m ≤ (splitByte nl b.content).length := by
      rw [← hk]; split
      · omega
      · split <;> omega
    obtain ⟨p, e, hp, _⟩ := lineOffset_spec b.content (m - 1).toNat (by omega)
    rw [e]
    exact ints_point hi (by omega)
  rcases hf with ⟨-, rfl⟩ | hf
  · refine ints_oneStr hi fun s hs => ?_
    have hl := h.strings s (by simp [hs])
    try dsimp only
    split
    · exact hi
    · rw [sliceFrom_some (by omega)]
      try dsimp only
      split
      · exact hi
      · rename_i k hk
        have := indexOf_range hk
        rw [List.length_drop] at this
        exact ⟨by show _ ≤ _ + _ + _ + _ ∧ _ + _ + _ + _ ≤ _; omega, hi.mark, by show _ ≤ _ + _ + _ ∧ _ + _ + _ ≤ _; omega, by show _ ≤ _ + _ + _ + _ ∧ _ + _ + _ + _ ≤ _; omega⟩
  rcases hf with ⟨-, rfl⟩ | hf
  · refine ints_oneStr hi fun s hs => ?_
    have hl := h.strings s (by simp [hs])
    try dsimp only
    split
    · exact hi
    · rw [sliceTo_some (by omega)]
      try dsimp only
      split
      · exact hi
      · rename_i k hk
        have := lastIndexOf_range hk
        rw [List.length_take] at this
        exact ⟨by show _ ≤ _ + _ + _ ∧ _ + _ + _ ≤ _; omega, hi.mark, by show _ ≤ _ + _ ∧ _ + _ ≤ _; omega, by show _ ≤ _ + _ + _ ∧ _ + _ + _ ≤ _; omega⟩
  rcases hf with ⟨-, rfl⟩ | hf
  · refine ints_oneStr hi fun s hs => ?_
    try dsimp only
    split
    · exact hi
    · split
      · exact hi
      · rename_i re hre
        rw [sliceFrom_some (by omega)]
        try dsimp only
        split
        · exact hi
        · rename_i i j hij
          have hb := LawfulExt.find_bounds s re _ i j hre hij
          rw [List.length_drop] at hb
          split
          · exact hi
          · exact ⟨by show _ ≤ _ + _ + _ ∧ _ + _ + _ ≤ _; omega, hi.mark, by show _ ≤ _ + _ + _ ∧ _ + _ + _ ≤ _; omega, by show _ ≤ _ + _ + _ ∧ _ + _ + _ ≤ _; omega⟩
  rcases hf with ⟨-, rfl⟩ | hf
  · exact ints_noArgs hi (ints_point hi (by omega))
  rcases hf with ⟨-, rfl⟩ | hf
  · exact ints_noArgs hi ⟨hi.point, hi.point, hi.lastStart, hi.lastEnd⟩
  rcases hf with ⟨-, rfl⟩ | hf
  · exact ints_noArgs hi hi
  rcases hf with ⟨-, rfl⟩ | hf
  · exact ints_noArgs hi hi
  rcases hf with ⟨-, rfl⟩ | hf
  · exact ints_noArgs hi hi
  rcases hf with ⟨-, rfl⟩ | hf -- replace-match
  · refine ints_oneStr hi fun s hs => ?_
    have hl := h.strings s (by simp [hs])
    split
    · exact hi
    · dsimp only
      split
      · exact hi
      · exact ints_splice hi (by omega)
  rcases hf with ⟨-, rfl⟩ | hf -- delete-region
  · refine ints_noArgs hi ?_
    try dsimp only
    split
    · exact hi
    · exact ints_splice hi (by omega)
  rcases hf with ⟨-, rfl⟩ | hf -- buffer-substring
  · unfold builtinBufferSubstring; ints_read
  rcases hf with ⟨-, rfl⟩ | hf -- mark-word
  · refine ints_noArgs hi ?_
    try dsimp only
    split
    · exact hi
    · split
      · rename_i s e hs he
        have h₁ := scanBack_range hs
        have h₂ := scanFwd_range he
        exact ⟨by show _ ≤ e + 1 ∧ e + 1 ≤ _; omega, by show _ ≤ s + 1 ∧ s + 1 ≤ _; omega, hi.lastStart, hi.lastEnd⟩
      · exact hi
  rcases hf with ⟨-, rfl⟩ | hf -- replace-region
  · refine ints_oneStr hi fun s hs => ?_
    have hl := h.strings s (by simp [hs])
    try dsimp only
    split
    · exact hi
    · exact ints_splice hi (by omega)
  rcases hf with ⟨-, rfl⟩ | hf
  · exact ints_noArgs hi hi
  rcases hf with ⟨-, rfl⟩ | hf
  · exact ints_noArgs hi hi
  rcases hf with ⟨-, rfl⟩ | hf -- forward-char
  · exact ints_withCount hi fun c _ _ => ints_point hi (clamp_range (by omega) (by omega))
  rcases hf with ⟨-, rfl⟩ | hf
  · unfold builtinLength; ints_read
  rcases hf with ⟨-, rfl⟩ | hf
  · unfold builtinSubstring substringCore; dsimp only; ints_read
  rcases hf with ⟨-, rfl⟩ | hf
  · unfold builtinStringMatch; ints_read
  rcases hf with ⟨-, rfl⟩ | hf -- backward-char
  · refine ints_withCount hi fun c _ _ => ints_point hi ?_
    have := wrap64_range (b.point - c)
    try dsimp only
    split <;> omega
  rcases hf with ⟨-, rfl⟩ | hf
  · exact ints_noArgs hi (ints_point hi (by omega))
  rcases hf with ⟨-, rfl⟩ | hf -- beginning-of-line
  · refine ints_noArgs hi ?_
    try dsimp only
    split
    · exact ints_point hi (by omega)
    · split
      · exact hi
      · rename_i p hp
        have := scanBack_range hp
        refine ints_point hi ?_
        split at this <;> omega
  rcases hf with ⟨-, rfl⟩ | hf -- end-of-line
  · refine ints_noArgs hi ?_
    try dsimp only
    split
    · exact ints_point hi (by omega)
    · split
      · exact hi
      · rename_i p hp
        have := scanFwd_range hp
        exact ints_point hi (by omega)
  rcases hf with ⟨-, rfl⟩ | hf
  · exact ints_noArgs hi hi
  rcases hf with ⟨-, rfl⟩ | hf
  · exact ints_noArgs hi hi
  rcases hf with ⟨-, rfl⟩ | hf
  · exact ints_noArgs hi hi
  rcases hf with ⟨-, rfl⟩ | hf
  · unfold builtinCurrentColumn; ints_read
  rcases hf with ⟨-, rfl⟩ | hf
  · unfold builtinUpcase; ints_read
  rcases hf with ⟨-, rfl⟩ | hf
  · unfold builtinDowncase; ints_read
  rcases hf with ⟨-, rfl⟩ | hf
  · unfold builtinCapitalize; ints_read
  rcases hf with ⟨-, rfl⟩ | hf
  · unfold builtinConcat; ints_read
  rcases hf with ⟨-, rfl⟩ | hf -- set-mark-command
  · unfold builtinSetMarkCommand
    split
    · exact ⟨hi.point, hi.point, hi.lastStart, hi.lastEnd⟩
    · exact ⟨hi.point, F64.toInt_range _, hi.lastStart, hi.lastEnd⟩
    · exact hi
    · exact hi
  rcases hf with ⟨-, rfl⟩ | hf
  · exact ints_noArgs hi ⟨hi.mark, hi.point, hi.lastStart, hi.lastEnd⟩
  rcases hf with ⟨-, rfl⟩ | hf
  · exact ints_noArgs hi ⟨by show _ ≤ (b.content.length : Int) + 1 ∧ (b.content.length : Int) + 1 ≤ _; omega, by show _ ≤ (1 : Int) ∧ (1 : Int) ≤ _; omega, hi.lastStart, hi.lastEnd⟩
  rcases hf with ⟨-, rfl⟩ | hf -- delete-char
  · refine ints_withCount hi fun c _ _ => ?_
    try dsimp only
    split
    · exact hi
    · exact ints_splice hi fun _ _ => hi.point
  rcases hf with ⟨-, rfl⟩ | hf
  · refine ints_withCount hi fun c _ _ => ?_
    try dsimp only
    split
    · exact hi
    · exact ints_splice hi (by omega)
  rcases hf with ⟨-, rfl⟩ | hf -- forward-word
  · refine ints_withCount hi fun c _ _ => ?_
    try dsimp only
    split
    · exact hi
    · rename_i p hp
      have := fwdWords_range hp
      exact ints_point hi (incPos_range hc (by omega))
  rcases hf with ⟨-, rfl⟩ | hf
  · refine ints_withCount hi fun c _ _ => ?_
    try dsimp only
    split
    · exact hi
    · rename_i p hp
      have := bwdWords_range hp
      exact ints_point hi (incPos_range hc (by omega))
  rcases hf with ⟨-, rfl⟩ | hf
  · unfold builtinLookingAt; ints_read
  rcases hf with ⟨-, rfl⟩ | hf
  · unfold builtinLookingBack; ints_read
  rcases hf with ⟨-, rfl⟩ | hf -- mark-line
  · refine ints_withCount hi fun c _ _ => ?_
    try dsimp only
    split
    · rename_i s e hs he
      have h₁ := scanBack_range hs
      have h₂ := fwdLines_range he
      exact ⟨incPos_range hc (by omega), incPos_range hc (by omega), hi.lastStart, hi.lastEnd⟩
    · exact hi
  rcases hf with ⟨-, rfl⟩ | hf -- delete-line
  · refine ints_withCount hi fun c _ _ => ?_
    try dsimp only
    split
    · exact ints_splice hi (by omega)
    · exact hi
  rcases hf with ⟨-, rfl⟩ | hf -- kill-line
  · refine ints_withCount hi fun c _ _ => ?_
    try dsimp only
    split
    · exact hi
    · split
      · split
        · exact hi
        · exact ints_splice hi fun _ _ => hi.point
      · split
        · exact hi
        · exact ints_splice hi fun _ _ => hi.point
  rcases hf with ⟨-, rfl⟩ | hf -- kill-word
  · refine ints_withCount hi fun c _ _ => ?_
    try dsimp only
    split
    · exact hi
    · exact ints_splice hi fun _ _ => hi.point
  rcases hf with ⟨-, rfl⟩ | hf
  · refine ints_withCount hi fun c _ _ => ?_
    try dsimp only
    split
    · exact hi
    · exact ints_splice hi (by omega)
  rcases hf with ⟨-, rfl⟩ | ⟨-, rfl⟩ -- re-search-backward
  · refine ints_oneStr hi fun s hs => ?_
    try dsimp only
    split
    · exact hi
    · split
      · exact hi
      · rename_i re hre
        rw [sliceTo_some (by omega)]
        try dsimp only
        split
        · exact hi
        · rename_i i j hij
          have hb := LawfulExt.findAll_bounds s re _ i j hre (List.mem_of_getLast? hij)
          rw [List.length_take] at hb
          split
          · exact hi
          · exact ⟨by show _ ≤ (j : Int) + 1 ∧ (j : Int) + 1 ≤ _; omega, hi.mark, by show _ ≤ (i : Int) + 1 ∧ (i : Int) + 1 ≤ _; omega, by show _ ≤ (j : Int) + 1 ∧ (j : Int) + 1 ≤ _; omega⟩
  · unfold builtinReplaceRegexpInString; ints_read

end Texted
