import Verif.Props.Motion
/- C21, C48, C50, C60: slices, sizes, concatenation, mark and region queries. -/
namespace Texted
variable [Ext]

/-! ### C21 -/

/-- `r` is the part of `c` at 1-based positions `x, …, y - 1` that exist: `c` splits into the bytes before position
`x` (all of them if `x` is beyond the end), then `r`, then the bytes from position `y` on. -/
def IsSlice (c : Bytes) (x y : Int) (r : Bytes) : Prop :=
  ∃ pre post, c = pre ++ r ++ post ∧ pre.length = min (x - 1).toNat c.length ∧
    pre.length + r.length = max pre.length (min (y - 1).toNat c.length)

omit [Ext] in
/-- A text has only one slice between two given positions. -/
theorem C21_slice_unique {c : Bytes} {x y : Int} {r r' : Bytes} (h : IsSlice c x y r) (h' : IsSlice c x y r') : r = r' := by
  obtain ⟨u, v, e, h1, h2⟩ := h
  obtain ⟨u', v', e', h1', h2'⟩ := h'
  have hu : u.length = u'.length := by omega
  have hr : r.length = r'.length := by omega
  rw [e, List.append_assoc, List.append_assoc] at e'
  have := (List.append_inj e' hu).2
  exact (List.append_inj this hr).1

omit [Ext] in
theorem isSlice_take_drop (c : Bytes) (i j : Nat) (x y : Int) (hx : (x - 1).toNat = i) (hj : min (y - 1).toNat c.length = j)
    (hij : i ≤ j) : IsSlice c x y ((c.drop i).take (j - i)) := by
  refine ⟨c.take i, c.drop j, ?_, ?_, ?_⟩
  · have : c.drop i = (c.drop i).take (j - i) ++ c.drop j := by
      conv => lhs; rw [← List.take_append_drop (j - i) (c.drop i)]
      rw [List.drop_drop]; congr 2; omega
    rw [List.append_assoc, ← this, List.take_append_drop]
  · simp [hx]
  · simp; omega

omit [Ext] in
theorem isSlice_nil (c : Bytes) (x y : Int) (h : min (y - 1).toNat c.length ≤ (x - 1).toNat) : IsSlice c x y [] := by
  refine ⟨c.take (x - 1).toNat, c.drop (x - 1).toNat, by simp, by simp, ?_⟩
  simp; omega

/-- buffer-substring returns exactly the bytes at positions `x..y-1` that exist, and changes nothing. (`y = -1`
stands for point-max; below. The smallest int is excluded: `x - 1` overflows.) -/
theorem C21_buffer_substring (b : Buffer) (fx fy : F64) (x y : Int) (hx : fx.toInt = x) (hy : fy.toInt = y)
    (hx' : minInt < x) (hy' : minInt < y) (hne : y ≠ -1) :
    ∃ r, IsSlice b.content x y r ∧ call b! "buffer-substring" [.num fx, .num fy] b = (.ok (.str r), b) := by
  simp only [call_buffer_substring, builtinBufferSubstring, hx, hy, if_neg hne, dec64_of hx', dec64_of hy',
    atLeast0_eq, atMost_eq]
  by_cases h : (((x - 1).toNat : Nat) : Int) ≥ min (y - 1) (b.content.length : Int)
  · rw [if_pos h]
    exact ⟨[], isSlice_nil _ _ _ (by omega), rfl⟩
  · rw [if_neg h]
    rw [show min (y - 1) (b.content.length : Int) = ((min (y - 1).toNat b.content.length : Nat) : Int) by omega]
    rw [slice_eq _ _ _ (by omega) (by omega)]
    exact ⟨_, isSlice_take_drop _ _ _ _ _ rfl rfl (by omega), rfl⟩

/-- `buffer-substring x -1` runs to the end of the buffer. -/
theorem C21_buffer_substring_to_end (b : Buffer) (fx fy : F64) (x : Int) (hx : fx.toInt = x) (hy : fy.toInt = -1)
    (hx' : minInt < x) :
    call b! "buffer-substring" [.num fx, .num fy] b = (.ok (.str (b.content.drop (x - 1).toNat)), b) := by
  have e : dec64 ((b.content.length : Int) + 1) = b.content.length := dec64_succ _
  simp only [call_buffer_substring, builtinBufferSubstring, hx, hy, if_true, dec64_of hx', e, atLeast0_eq, atMost_eq]
  by_cases h : (((x - 1).toNat : Nat) : Int) ≥ min (b.content.length : Int) (b.content.length : Int)
  · rw [if_pos h, List.drop_eq_nil_of_le (by omega)]; rfl
  · rw [if_neg h]
    rw [show min (b.content.length : Int) (b.content.length : Int) = ((b.content.length : Nat) : Int) by omega]
    rw [slice_eq _ _ _ (by omega) (by omega)]
    simp only [ret]
    rw [List.take_of_length_le (by simp)]

/-- `buffer-substring 1 -1` is the whole buffer. -/
theorem C21_whole_buffer (b : Buffer) :
    call b! "buffer-substring" [numV 1, numV (-1)] b = (.ok (.str b.content), b) := by
  have := C21_buffer_substring_to_end b (F64.ofInt 1) (F64.ofInt (-1)) 1 (F64.toInt_ofInt 1 (by decide))
    (F64.toInt_ofInt (-1) (by decide)) (by decide)
  simpa [numV] using this

omit [Ext] in
/-- Adjacent slices concatenate. -/
theorem C21_adjacent_slices {c : Bytes} {x y z : Int} (hxy : x ≤ y) (hyz : y ≤ z) {r s t : Bytes}
    (h1 : IsSlice c x y r) (h2 : IsSlice c y z s) (h3 : IsSlice c x z t) : r ++ s = t := by
  refine C21_slice_unique ?_ h3
  obtain ⟨u, v, e, e1, e2⟩ := h1
  obtain ⟨u', v', e', e1', e2'⟩ := h2
  have hu : (u ++ r).length = u'.length := by simp only [List.length_append]; omega
  have hh : u ++ r ++ v = u' ++ (s ++ v') := by rw [← e, e', List.append_assoc]
  have h4 := List.append_inj hh hu
  refine ⟨u, v', ?_, e1, ?_⟩
  · rw [e, h4.2]; simp [List.append_assoc]
  · simp only [List.length_append]; omega

/-- substring with two arguments: from position `x` to the end of the string. -/
theorem C21_substring2 (b : Buffer) (s : Bytes) (fx : F64) (x : Int) (hx : fx.toInt = x) (hx' : minInt < x) :
    call b! "substring" [.str s, .num fx] b = (.ok (.str (s.drop (x - 1).toNat)), b) := by
  simp only [call_substring, builtinSubstring, substringCore, hx, dec64_of hx', atLeast0_eq, atMost_eq]
  by_cases h : (((x - 1).toNat : Nat) : Int) > min (s.length : Int) (s.length : Int)
  · rw [if_pos h, List.drop_eq_nil_of_le (by omega)]; rfl
  · rw [if_neg h]
    rw [show min (s.length : Int) (s.length : Int) = ((s.length : Nat) : Int) by omega]
    rw [slice_eq _ _ _ (by omega) (by omega)]
    simp only [ret]
    rw [List.take_of_length_le (by simp)]

/-- substring with three arguments: the bytes at positions `x..y-1` of the string. -/
theorem C21_substring3 (b : Buffer) (s : Bytes) (fx fy : F64) (x y : Int) (hx : fx.toInt = x) (hy : fy.toInt = y)
    (hx' : minInt < x) (hy' : minInt < y) :
    ∃ r, IsSlice s x y r ∧ call b! "substring" [.str s, .num fx, .num fy] b = (.ok (.str r), b) := by
  simp only [call_substring, builtinSubstring, substringCore, hx, hy, dec64_of hx', dec64_of hy', atLeast0_eq, atMost_eq]
  by_cases h : (((x - 1).toNat : Nat) : Int) > min (y - 1) (s.length : Int)
  · rw [if_pos h]
    exact ⟨[], isSlice_nil _ _ _ (by omega), rfl⟩
  · rw [if_neg h]
    rw [show min (y - 1) (s.length : Int) = ((min (y - 1).toNat s.length : Nat) : Int) by omega]
    rw [slice_eq _ _ _ (by omega) (by omega)]
    exact ⟨_, isSlice_take_drop _ _ _ _ _ rfl rfl (by omega), rfl⟩

omit [Ext] in
theorem slice_some (c : Bytes) (i j : Int) (h1 : 0 ≤ i) (h2 : i ≤ j) (h3 : j ≤ c.length) :
    slice c i j = some ((c.drop i.toNat).take (j - i).toNat) := by
  simp [slice, h1, h2, h3]

/-- Neither function ever panics, whatever the arguments, the buffer and the numbers (also NaN, infinities and
numbers beyond the int range). -/
theorem C21_never_panics (name : Bytes) (hn : name = b! "buffer-substring" ∨ name = b! "substring")
    (args : List Value) (b : Buffer) : (call name args b).1 ≠ .panic := by
  have key : ∀ s x y, (substringCore s x y b).1 ≠ .panic := by
    intro s x y
    simp only [substringCore]
    split
    · simp [ret]
    · rename_i hh
      rw [slice_some _ _ _ (by rw [atLeast0_eq]; omega) (by omega) (by rw [atMost_eq]; omega)]
      simp [ret]
  rcases hn with rfl | rfl
  · simp only [call_buffer_substring, builtinBufferSubstring]
    split
    · rename_i fx fy
      generalize dec64 (if fy.toInt = -1 then (b.content.length : Int) + 1 else fy.toInt) = y
      split
      · simp [ret]
      · rename_i hh
        rw [slice_some _ _ _ (by rw [atLeast0_eq]; omega) (by omega) (by rw [atMost_eq]; omega)]
        simp [ret]
    · simp [fail]
    · simp [fail]
  · simp only [call_substring, builtinSubstring]
    (repeat' split) <;> first | exact key _ _ _ | simp [fail]

/-- Because of the smallest int, the bound is needed: with `x = -2^63` the start overflows and nothing is returned. -/
theorem C21_min_int_counterexample :
    call b! "buffer-substring" [.num (F64.fin true 1 63), numV 3] (newBuffer b! "abc") =
      (.ok (.str []), newBuffer b! "abc") := rfl

example : IsSlice b! "hello" 2 4 b! "el" ∧
    call b! "buffer-substring" [numV 2, numV 4] (newBuffer b! "hello") = (.ok (.str b! "el"), newBuffer b! "hello") ∧
    call b! "substring" [.str b! "hello", numV 2, numV 4] (newBuffer []) = (.ok (.str b! "el"), newBuffer []) ∧
    call b! "substring" [.str b! "hello", numV 2] (newBuffer []) = (.ok (.str b! "ello"), newBuffer []) :=
  ⟨⟨b! "h", b! "lo", rfl, rfl, rfl⟩, rfl, rfl, rfl⟩

/-! ### C60 -/

/-- point-min is 1; point-max is one more than buffer-size; buffer-size is the length of the whole-buffer
substring, computed by the script itself. -/
theorem C60_sizes (b : Buffer) :
    ∃ n : Nat, n = b.content.length ∧
      call b! "buffer-size" [] b = (.ok (numV n), b) ∧
      call b! "point-max" [] b = (.ok (numV (n + 1)), b) ∧
      call b! "point-min" [] b = (.ok (numV 1), b) ∧
      eval defaultEnv [.list [.sym b! "length", .list [.sym b! "buffer-substring", numV 1, numV (-1)]]] b =
        (.ok (numV n), b) := by
  refine ⟨b.content.length, rfl, rfl, rfl, rfl, ?_⟩
  have h1 : (defaultEnv b! "length" : Option Builtin) = some builtinLength := rfl
  have h2 : (defaultEnv b! "buffer-substring" : Option Builtin) = some builtinBufferSubstring := rfl
  have h3 := C21_whole_buffer b
  rw [call_buffer_substring] at h3
  simp only [numV] at h3 ⊢
  simp only [eval, evalLoopNoTrace, evalExpr, h1, h2, evalArgs, h3]
  rfl

/-- Up to 2^53 bytes the reported numbers are exact. -/
theorem C60_exact (n : Nat) (h : n ≤ 9007199254740992) : ∃ x, numV n = .num x ∧ x.toInt = n :=
  ⟨_, rfl, F64.toInt_ofInt n (by omega)⟩

/-! ### C48 -/

/-- concat joins its arguments in order, for any number of string arguments. -/
theorem C48_concat (ss : List Bytes) (b : Buffer) :
    call b! "concat" (ss.map .str) b = (.ok (.str ss.flatten), b) := by
  have key : ∀ i, concatLoop i (ss.map .str) = .ok ss.flatten := by
    induction ss with
    | nil => intro i; rfl
    | cons s ss ih => intro i; simp [concatLoop, ih (i + 1)]
  simp only [call_concat, builtinConcat, key 0]; rfl

/-- Any non-string argument makes concat fail, without changing anything. -/
theorem C48_concat_rejects (args : List Value) (b : Buffer) (h : ∃ v ∈ args, ∀ s, v ≠ .str s) :
    ∃ msg, call b! "concat" args b = (.err msg, b) := by
  have key : ∀ i, ∃ msg, concatLoop i args = .error msg := by
    induction args with
    | nil => simp at h
    | cons a as ih =>
      intro i
      cases a with
      | str s =>
        have : ∃ v ∈ as, ∀ s, v ≠ .str s := by
          obtain ⟨v, hv, hv'⟩ := h
          rcases List.mem_cons.1 hv with rfl | hv
          · exact absurd rfl (hv' s)
          · exact ⟨v, hv, hv'⟩
        obtain ⟨msg, hm⟩ := ih this (i + 1)
        exact ⟨msg, by simp [concatLoop, hm]⟩
      | sym s => exact ⟨_, rfl⟩
      | num s => exact ⟨_, rfl⟩
      | list s => exact ⟨_, rfl⟩
  obtain ⟨msg, hm⟩ := key 0
  exact ⟨msg, by simp only [call_concat, builtinConcat, hm]; rfl⟩

/-- length counts bytes, and is additive over concatenation. -/
theorem C48_length_concat (s t : Bytes) (b : Buffer) :
    call b! "length" [.str (s ++ t)] b = (.ok (numV ((s.length : Int) + t.length)), b) ∧
    call b! "length" [.str s] b = (.ok (numV s.length), b) ∧ call b! "length" [.str t] b = (.ok (numV t.length), b) := by
  refine ⟨?_, rfl, rfl⟩
  simp only [call_length, builtinLength, oneStr, ret, List.length_append]
  congr 3

/-- substring recovers both parts of a concatenation. -/
theorem C48_substring_recovers (s t : Bytes) (b : Buffer) (h : s.length < 9007199254740992) :
    call b! "substring" [.str (s ++ t), numV 1, numV (s.length + 1)] b = (.ok (.str s), b) ∧
    call b! "substring" [.str (s ++ t), numV (s.length + 1)] b = (.ok (.str t), b) := by
  have e := F64.toInt_ofInt ((s.length : Int) + 1) (by omega)
  have e1 := F64.toInt_ofInt 1 (by decide)
  constructor
  · obtain ⟨r, hr, hc⟩ := C21_substring3 b (s ++ t) (F64.ofInt 1) (F64.ofInt (s.length + 1)) 1 (s.length + 1) e1 e
      (by omega) (by omega)
    rw [numV, numV, hc]
    have : IsSlice (s ++ t) 1 (s.length + 1) s := ⟨[], t, by simp, by simp, by simp⟩
    rw [C21_slice_unique hr this]
  · have := C21_substring2 b (s ++ t) (F64.ofInt (s.length + 1)) (s.length + 1) e (by omega)
    rw [numV, this]
    rw [show ((s.length : Int) + 1 - 1).toNat = s.length by omega, List.drop_left]

example : call b! "concat" [.str b! "a", .str b! "bc"] (newBuffer []) = (.ok (.str b! "abc"), newBuffer []) := rfl

/-! ### C50 -/

/-- exchange-point-and-mark swaps point and mark and nothing else; twice is the identity. -/
theorem C50_exchange_involution (b : Buffer) :
    call b! "exchange-point-and-mark" [] b = (okEmpty, { b with point := b.mark, mark := b.point }) ∧
    call b! "exchange-point-and-mark" [] (call b! "exchange-point-and-mark" [] b).2 = (okEmpty, b) := ⟨rfl, rfl⟩

/-- region-beginning and region-end are the smaller and the larger of point and mark. -/
theorem C50_region_bounds (b : Buffer) :
    ∃ lo hi : Int, call b! "region-beginning" [] b = (.ok (numV lo), b) ∧ call b! "region-end" [] b = (.ok (numV hi), b) ∧
      lo ≤ hi ∧ ((lo = b.mark ∧ hi = b.point) ∨ (lo = b.point ∧ hi = b.mark)) := by
  refine ⟨_, _, rfl, rfl, ?_, ?_⟩ <;> split <;> omega

end Texted
