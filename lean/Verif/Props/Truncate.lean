import Verif.Spec.Truncate
import Verif.Props.Frame
import Verif.Props.Evaluator
import Mathlib.Tactic.Ring
import Mathlib.Tactic.Linarith
import Mathlib.Tactic.Positivity
import Mathlib.Tactic.NormNum
/- C82: numbers as arguments count by their integer part. -/
namespace Texted
open Spec
variable [Ext]

omit [Ext] in
theorem truncAbs_spec (m : Nat) (e : Int) : ((F64.truncAbs m e : Nat) : ℚ) ≤ (m : ℚ) * 2 ^ e ∧ (m : ℚ) * 2 ^ e < (F64.truncAbs m e : Nat) + 1 := by
  unfold F64.truncAbs
  by_cases he : 0 ≤ e
  · rw [if_pos he]
    obtain ⟨k, rfl⟩ := Int.eq_ofNat_of_zero_le he
    simp only [Int.toNat_natCast, zpow_natCast]
    push_cast
    exact ⟨le_refl _, lt_add_one _⟩
  · rw [if_neg he]
    obtain ⟨k, hk⟩ := Int.eq_ofNat_of_zero_le (show 0 ≤ -e by omega)
    have he' : e = -(k : Int) := by have : -e = (k : Int) := hk; omega
    subst he'
    have hpos : (0 : ℚ) < 2 ^ k := by positivity
    simp only [neg_neg, Int.toNat_natCast, zpow_neg, zpow_natCast]
    have h1 : 2 ^ k * (m / 2 ^ k) ≤ m := Nat.mul_div_le m (2 ^ k)
    have h2 : m < 2 ^ k * (m / 2 ^ k + 1) := Nat.lt_mul_div_succ m (Nat.two_pow_pos k)
    have h1' : (2 : ℚ) ^ k * ((m / 2 ^ k : Nat) : ℚ) ≤ m := by exact_mod_cast h1
    have h2' : (m : ℚ) < (2 : ℚ) ^ k * (((m / 2 ^ k : Nat) : ℚ) + 1) := by exact_mod_cast h2
    rw [← div_eq_mul_inv, le_div_iff₀ hpos, div_lt_iff₀ hpos]
    exact ⟨by rw [mul_comm]; exact h1', by rw [mul_comm]; exact h2'⟩

/-- C82. Go's conversion of a number gives its integer part, whenever that is a 64-bit integer. -/
theorem C82_integer_part (x : F64) (n : Int) (h : IntegerPart x n) : x.toInt = n := by
  obtain ⟨hf, ha, hb, hl, hh⟩ := h
  cases x with
  | nan => exact absurd hf id
  | inf _ => exact absurd hf id
  | fin neg m e =>
    obtain ⟨t1, t2⟩ := truncAbs_spec m e
    have hv : value (.fin neg m e) = (if neg then -1 else 1) * (m : ℚ) * 2 ^ e := rfl
    have hnn : (0 : ℚ) ≤ (m : ℚ) * 2 ^ e := by positivity
    generalize hq : (m : ℚ) * 2 ^ e = q at *
    generalize ht : F64.truncAbs m e = t at *
    have key : (if neg then -(t : Int) else t) = n := by
      cases neg with
      | false =>
        simp only [Bool.false_eq_true, if_false, one_mul] at hv ⊢
        rw [hq] at hv
        rw [hv] at ha
        obtain ⟨a1, a2⟩ := ha hnn
        have b1 : (n : ℚ) < t + 1 := lt_of_le_of_lt a1 t2
        have b2 : (t : ℚ) < n + 1 := lt_of_le_of_lt t1 a2
        have b1' : n < (t : Int) + 1 := by exact_mod_cast b1
        have b2' : (t : Int) < n + 1 := by exact_mod_cast b2
        omega
      | true =>
        simp only [if_true] at hv ⊢
        have hv' : value (.fin true m e) = -q := by rw [hv, ← hq]; ring
        rw [hv'] at hb
        obtain ⟨a1, a2⟩ := hb (by linarith)
        have b1 : (n : ℚ) < -(t : ℚ) + 1 := by linarith
        have b2 : -(t : ℚ) < n + 1 := by linarith
        have b1' : n < -(t : Int) + 1 := by exact_mod_cast b1
        have b2' : -(t : Int) < n + 1 := by exact_mod_cast b2
        omega
    show (if minInt ≤ (if neg then -((F64.truncAbs m e : Nat) : Int) else (F64.truncAbs m e : Nat)) ∧ _ then _ else _) = n
    rw [ht, key, if_pos ⟨hl, hh⟩]

omit [Ext] in
/-- C82. And every finite number has at most one integer part; it has one unless it is too great for 64 bits. -/
theorem C82_has_integer_part (x : F64) (hf : Finite x) (h1 : -(2 : ℚ) ^ 63 - 1 < value x) (h2 : value x < 2 ^ 63) : ∃ n, IntegerPart x n := by
  cases x with
  | nan => exact absurd hf id
  | inf _ => exact absurd hf id
  | fin neg m e =>
    obtain ⟨t1, t2⟩ := truncAbs_spec m e
    have hv : value (.fin neg m e) = (if neg then -1 else 1) * (m : ℚ) * 2 ^ e := rfl
    have hnn : (0 : ℚ) ≤ (m : ℚ) * 2 ^ e := by positivity
    generalize hq : (m : ℚ) * 2 ^ e = q at *
    generalize ht : F64.truncAbs m e = t at *
    have h0 : q = 0 → t = 0 := by
      intro h0
      have : (t : ℚ) ≤ 0 := h0 ▸ t1
      exact_mod_cast le_antisymm this (by positivity)
    cases neg with
    | false =>
      simp only [Bool.false_eq_true, if_false, one_mul] at hv
      rw [hq] at hv
      have hlt : (t : ℚ) < 2 ^ 63 := lt_of_le_of_lt t1 (hv ▸ h2)
      have hlt' : t < 2 ^ 63 := by exact_mod_cast hlt
      refine ⟨t, trivial, fun _ => ?_, fun hle => ?_, by omega, by omega⟩
      · rw [hv]; push_cast; exact ⟨t1, t2⟩
      · rw [hv] at hle ⊢
        have hq0 : q = 0 := le_antisymm hle hnn
        rw [h0 hq0, hq0]; norm_num
    | true =>
      have hv' : value (.fin true m e) = -q := by rw [hv, ← hq]; simp
      have hlt : (t : ℚ) < 2 ^ 63 + 1 := by linarith
      have hlt' : t < 2 ^ 63 + 1 := by exact_mod_cast hlt
      refine ⟨-(t : Int), trivial, fun hle => ?_, fun _ => ?_, by omega, by omega⟩
      · rw [hv'] at hle ⊢
        have hq0 : q = 0 := by linarith
        rw [h0 hq0, hq0]; norm_num
      · rw [hv']; push_cast; constructor <;> linarith

omit [Ext] in
/-- 1.5 counts as 1. -/
theorem integerPart_3_2 : IntegerPart (.fin false 3 (-1)) 1 := ⟨trivial, by norm_num [value], by norm_num [value], by norm_num, by norm_num⟩
omit [Ext] in
/-- -2.5 counts as -2. -/
theorem integerPart_neg : IntegerPart (.fin true 5 (-1)) (-2) := ⟨trivial, by norm_num [value], by norm_num [value], by norm_num, by norm_num⟩
omit [Ext] in
theorem integerPart_1 : IntegerPart (.fin false 1 0) 1 := ⟨trivial, by norm_num [value], by norm_num [value], by norm_num, by norm_num⟩
omit [Ext] in
theorem integerPart_2 : IntegerPart (.fin false 2 0) 2 := ⟨trivial, by norm_num [value], by norm_num [value], by norm_num, by norm_num⟩

/-! ### Calls -/

/-- The same, or numbers with the same conversion to an integer. -/
inductive NearInt : Value → Value → Prop
  | same (v : Value) : NearInt v v
  | num {x y : F64} : x.toInt = y.toInt → NearInt (.num x) (.num y)

theorem nearInt_of_near {v w : Value} (h : Near v w) : NearInt v w := by
  cases h with
  | same => exact .same _
  | num hx hy => exact .num ((C82_integer_part _ _ hx).trans (C82_integer_part _ _ hy).symm)

theorem near_optCount (name : Bytes) {args args' : List Value} (h : List.Forall₂ NearInt args args') : optCount name args = optCount name args' := by
  have hl := h.length_eq
  cases h with
  | nil => rfl
  | cons h1 h2 =>
    cases h2 with
    | nil =>
      cases h1 with
      | same => rfl
      | num h1' => simp only [optCount, h1']
    | cons => simp only [optCount, hl]

theorem near_noArgs (name : Bytes) {args args' : List Value} (h : List.Forall₂ NearInt args args') (b : Buffer) (k : Res Bytes Value × Buffer) :
    noArgs name args b k = noArgs name args' b k := by
  have hl := h.length_eq
  cases h with
  | nil => rfl
  | cons => simp only [noArgs, hl]

theorem near_oneStr (name : Bytes) {args args' : List Value} (h : List.Forall₂ NearInt args args') (b : Buffer) (k : Bytes → Res Bytes Value × Buffer) :
    oneStr name args b k = oneStr name args' b k := by
  have hl := h.length_eq
  cases h with
  | nil => rfl
  | cons h1 h2 =>
    cases h2 with
    | nil =>
      cases h1 with
      | same => rfl
      | num h1' => rfl
    | cons => simp only [oneStr, hl]

theorem near_oneNum (name : Bytes) {args args' : List Value} (h : List.Forall₂ NearInt args args') (b : Buffer) (k : Int → Res Bytes Value × Buffer) :
    oneNum name args b k = oneNum name args' b k := by
  have hl := h.length_eq
  cases h with
  | nil => rfl
  | cons h1 h2 =>
    cases h2 with
    | nil =>
      cases h1 with
      | same => rfl
      | num h1' => simp only [oneNum, h1']
    | cons => simp only [oneNum, hl]

theorem near_withCount (name : Bytes) {args args' : List Value} (h : List.Forall₂ NearInt args args') (b : Buffer) (k : Int → Res Bytes Value × Buffer) :
    withCount name args b k = withCount name args' b k := by
  rw [withCount, withCount, near_optCount name h]

theorem near_concat {args args' : List Value} (h : List.Forall₂ NearInt args args') : ∀ i, concatLoop i args = concatLoop i args' := by
  induction h with
  | nil => intro i; rfl
  | @cons v w _ _ h1 _ ih =>
    intro i
    cases h1 with
    | same => cases v <;> simp only [concatLoop, ih]
    | num => simp only [concatLoop]

theorem near_bufferSubstring {args args' : List Value} (h : List.Forall₂ NearInt args args') (b : Buffer) :
    builtinBufferSubstring args b = builtinBufferSubstring args' b := by
  have hl := h.length_eq
  match h with
  | .nil => rfl
  | .cons _ .nil => simp [builtinBufferSubstring]
  | .cons (.same _) (.cons (.same _) .nil) => rfl
  | .cons (.same v) (.cons (.num h1') .nil) => cases v <;> first | rfl | simp only [builtinBufferSubstring, h1']
  | .cons (.num h1') (.cons (.same v) .nil) => cases v <;> first | rfl | simp only [builtinBufferSubstring, h1']
  | .cons (.num h1') (.cons (.num h2') .nil) => simp only [builtinBufferSubstring, h1', h2']
  | .cons _ (.cons _ (.cons _ _)) => simp only [builtinBufferSubstring, hl]

theorem near_substring_two {v v' w w' : Value} (h1 : NearInt v v') (h2 : NearInt w w') (b : Buffer) :
    builtinSubstring [v, w] b = builtinSubstring [v', w'] b := by
  cases h1 with
  | num => rfl
  | same =>
    cases h2 with
    | same => rfl
    | num h => cases v <;> simp [builtinSubstring, h]

theorem near_substring_three {v v' w w' u u' : Value} (h1 : NearInt v v') (h2 : NearInt w w') (h3 : NearInt u u') (b : Buffer) :
    builtinSubstring [v, w, u] b = builtinSubstring [v', w', u'] b := by
  cases h1 with
  | num => rfl
  | same =>
    cases h2 with
    | same =>
      cases h3 with
      | same => rfl
      | num h => cases v <;> cases w <;> simp [builtinSubstring, h]
    | num h =>
      cases h3 with
      | same => cases v <;> cases u <;> simp [builtinSubstring, h]
      | num h' => cases v <;> simp [builtinSubstring, h, h']

theorem substring_many (v w u t : Value) (r : List Value) (b : Buffer) :
    builtinSubstring (v :: w :: u :: t :: r) b = fail (arity b! "substring" b! "2 or 3 arguments" (r.length + 4)) b := by
  cases v <;> simp [builtinSubstring]

theorem near_substring {args args' : List Value} (h : List.Forall₂ NearInt args args') (b : Buffer) :
    builtinSubstring args b = builtinSubstring args' b := by
  cases h with
  | nil => rfl
  | cons h1 h =>
    cases h with
    | nil => simp [builtinSubstring]
    | cons h2 h =>
      cases h with
      | nil => exact near_substring_two h1 h2 b
      | cons h3 h =>
        cases h with
        | nil => exact near_substring_three h1 h2 h3 b
        | cons h4 h => rw [substring_many, substring_many, h.length_eq]

theorem near_stringMatch {args args' : List Value} (h : List.Forall₂ NearInt args args') (b : Buffer) :
    builtinStringMatch args b = builtinStringMatch args' b := by
  have hl := h.length_eq
  match h with
  | .nil => rfl
  | .cons _ .nil => simp [builtinStringMatch]
  | .cons (.same _) (.cons (.same _) .nil) => rfl
  | .cons (.same v) (.cons (.num h1') .nil) => cases v <;> rfl
  | .cons (.num h1') (.cons _ .nil) => rfl
  | .cons _ (.cons _ (.cons _ _)) => simp only [builtinStringMatch, hl]

theorem near_replaceRegexp {args args' : List Value} (h : List.Forall₂ NearInt args args') (b : Buffer) :
    builtinReplaceRegexpInString args b = builtinReplaceRegexpInString args' b := by
  have hl := h.length_eq
  match h with
  | .nil => rfl
  | .cons _ .nil => simp [builtinReplaceRegexpInString]
  | .cons _ (.cons _ .nil) => simp [builtinReplaceRegexpInString]
  | .cons (.same _) (.cons (.same _) (.cons (.same _) .nil)) => rfl
  | .cons (.num _) (.cons _ (.cons _ .nil)) => rfl
  | .cons (.same v) (.cons (.num _) (.cons _ .nil)) => cases v <;> rfl
  | .cons (.same v) (.cons (.same w) (.cons (.num _) .nil)) => cases v <;> cases w <;> rfl
  | .cons _ (.cons _ (.cons _ (.cons _ _))) => simp only [builtinReplaceRegexpInString, hl]

theorem near_setMarkCommand {args args' : List Value} (h : List.Forall₂ NearInt args args') (b : Buffer) :
    builtinSetMarkCommand args b = builtinSetMarkCommand args' b := by
  have hl := h.length_eq
  match h with
  | .nil => rfl
  | .cons (.same v) .nil => rfl
  | .cons (.num h1') .nil => simp only [builtinSetMarkCommand, h1']
  | .cons _ (.cons _ _) => simp only [builtinSetMarkCommand, hl]

/-- C82. Calls: no function looks at the fraction of a number. For every function (known or not), arguments that agree up to the fractions of
numbers have the same effect and the same result, or fail with the same message. -/
theorem C82_call (name : Bytes) {args args' : List Value} (h : List.Forall₂ Near args args') (b : Buffer) : call name args b = call name args' b := by
  replace h : List.Forall₂ NearInt args args' := h.imp fun _ _ => nearInt_of_near
  by_cases hn : name ∈ allNames
  · each_name hn
    all_goals simp only [
      call_insert, call_goto_char, call_goto_line, call_search_forward, call_search_backward, call_re_search_forward,
      call_end_of_buffer, call_set_mark, call_mark, call_point, call_line_number_at_pos, call_replace_match,
      call_delete_region, call_buffer_substring, call_mark_word, call_replace_region, call_region_beginning,
      call_region_end, call_forward_char, call_length, call_substring, call_string_match, call_backward_char,
      call_beginning_of_buffer, call_beginning_of_line, call_end_of_line, call_buffer_size, call_point_max,
      call_point_min, call_current_column, call_upcase, call_downcase, call_capitalize, call_concat,
      call_set_mark_command, call_exchange_point_and_mark, call_mark_whole_buffer, call_delete_char,
      call_delete_backward_char, call_forward_word, call_backward_word, call_looking_at, call_looking_back, call_mark_line,
      call_delete_line, call_kill_line, call_kill_word, call_backward_kill_word, call_re_search_backward, call_replace_regexp_in_string]
    all_goals first
      | (simp only [builtinInsert, builtinSearchForward, builtinSearchBackward, builtinReSearchForward, builtinReSearchBackward, builtinReplaceMatch,
          builtinLookingAt, builtinLookingBack, builtinReplaceRegion, builtinLength, builtinUpcase, builtinDowncase, builtinCapitalize,
          near_oneStr _ h]; done)
      | (simp only [builtinBeginningOfBuffer, builtinEndOfBuffer, builtinBeginningOfLine, builtinEndOfLine, builtinSetMark, builtinExchangePointAndMark,
          builtinMarkWholeBuffer, builtinMarkWord, builtinRegionBeginning, builtinRegionEnd, builtinDeleteRegion, builtinPoint, builtinMark,
          builtinPointMax, builtinPointMin, builtinBufferSize, builtinLineNumberAtPos, builtinCurrentColumn, near_noArgs _ h]; done)
      | exact near_oneNum _ h b _
      | exact near_withCount _ h b _
      | exact near_bufferSubstring h b
      | exact near_substring h b
      | exact near_stringMatch h b
      | exact near_replaceRegexp h b
      | exact near_setMarkCommand h b
      | (unfold builtinConcat; rw [near_concat h])
  · rw [call_unknown name hn, call_unknown name hn]

example (b : Buffer) (x : F64) (h : IntegerPart x 2) : call b! "goto-char" [.num x] b = call b! "goto-char" [.num (.fin false 2 0)] b :=
  C82_call _ (.cons (.num h integerPart_2) .nil) b

/-! ### Scripts -/

omit [Ext] in
theorem near_refl : ∀ vs : List Value, List.Forall₂ Near vs vs
  | [] => .nil
  | v :: vs => .cons (.same v) (near_refl vs)

/-- Results that are near, with the same buffer. -/
inductive NearResult : Res Bytes Value × Buffer → Res Bytes Value × Buffer → Prop
  | ok {v w : Value} (b : Buffer) : Near v w → NearResult (.ok v, b) (.ok w, b)
  | same (r : Res Bytes Value × Buffer) : NearResult r r

/-- The same for the values of the arguments. -/
inductive NearResults : Res Bytes (List Value) × Buffer → Res Bytes (List Value) × Buffer → Prop
  | ok {v w : List Value} (b : Buffer) : List.Forall₂ Near v w → NearResults (.ok v, b) (.ok w, b)
  | err (e : Bytes) (b : Buffer) : NearResults (.err e, b) (.err e, b)
  | panic (b : Buffer) : NearResults (.panic, b) (.panic, b)

omit [Ext] in
theorem nearResults_refl (r : Res Bytes (List Value) × Buffer) : NearResults r r := by
  rcases r with ⟨r, b⟩
  cases r with
  | ok v => exact .ok b (near_refl v)
  | err e => exact .err e b
  | panic => exact .panic b

omit [Ext] in
theorem nearResult_cases {r r' : Res Bytes Value × Buffer} (h : NearResult r r') :
    (∃ v w b, r = (.ok v, b) ∧ r' = (.ok w, b) ∧ Near v w) ∨ (∃ e b, r = (.err e, b) ∧ r' = (.err e, b)) ∨ (∃ b, r = (.panic, b) ∧ r' = (.panic, b)) := by
  cases h with
  | ok b h => exact .inl ⟨_, _, b, rfl, rfl, h⟩
  | same =>
    rcases r with ⟨r, b⟩
    cases r with
    | ok v => exact .inl ⟨v, v, b, rfl, rfl, .same v⟩
    | err e => exact .inr (.inl ⟨e, b, rfl, rfl⟩)
    | panic => exact .inr (.inr ⟨b, rfl, rfl⟩)

/-- A call with near results of the arguments. -/
theorem near_apply (f : Value) {args args' : List Value} {b : Buffer} (h : NearResults (evalArgs defaultEnv args b) (evalArgs defaultEnv args' b)) :
    evalExpr defaultEnv (.list (f :: args)) b = evalExpr defaultEnv (.list (f :: args')) b := by
  cases f with
  | str _ => rw [evalExpr, evalExpr] <;> simp
  | num _ => rw [evalExpr, evalExpr] <;> simp
  | list _ => rw [evalExpr, evalExpr] <;> simp
  | sym f =>
    rw [evalExpr, evalExpr]
    rcases hf : defaultEnv f with _ | fn
    · rfl
    · dsimp only
      rcases hr : evalArgs defaultEnv args b with ⟨r, b1⟩
      rcases hr' : evalArgs defaultEnv args' b with ⟨r', b2⟩
      rw [hr, hr'] at h
      cases h with
      | ok _ h =>
        have := C82_call f h b1
        simp only [call, hf] at this
        exact this
      | err => rfl
      | panic => rfl

mutual
theorem alike_expr (v w : Value) (b : Buffer) (h : Alike v w) : NearResult (evalExpr defaultEnv v b) (evalExpr defaultEnv w b) := by
  match v, w, h with
  | _, _, .same v => exact .same _
  | _, _, .num hx hy => rw [evalExpr, evalExpr]; exact .ok b (.num hx hy)
  | _, _, @Alike.call f args args' h =>
    rw [near_apply f (alike_args args args' b h)]
    exact .same _
termination_by sizeOf v
theorem alike_args (args args' : List Value) (b : Buffer) (h : List.Forall₂ Alike args args') :
    NearResults (evalArgs defaultEnv args b) (evalArgs defaultEnv args' b) := by
  match args, args', h with
  | [], [], .nil => exact nearResults_refl _
  | v :: vs, w :: ws, .cons h1 h2 =>
    rw [evalArgs, evalArgs]
    rcases nearResult_cases (alike_expr v w b h1) with ⟨v', w', b', e1, e2, hn⟩ | ⟨e, b', e1, e2⟩ | ⟨b', e1, e2⟩
    · rw [e1, e2]
      dsimp only
      have ih := alike_args vs ws b' h2
      rcases hr : evalArgs defaultEnv vs b' with ⟨r, b1⟩
      rcases hr' : evalArgs defaultEnv ws b' with ⟨r', b2⟩
      rw [hr, hr'] at ih
      cases ih with
      | ok _ h => exact .ok _ (.cons hn h)
      | err => exact .err _ _
      | panic => exact .panic _
    · rw [e1, e2]; exact .err _ _
    · rw [e1, e2]; exact .panic _
termination_by sizeOf args
end

theorem alike_instr {v w : Value} (h : AlikeInstr v w) (b : Buffer) : evalExpr defaultEnv v b = evalExpr defaultEnv w b := by
  cases h with
  | same => rfl
  | call h => exact near_apply _ (alike_args _ _ b h)

theorem alike_loop (p p' : List Value) {es es' : List Value} (h : List.Forall₂ AlikeInstr es es') : ∀ (i : Nat) (v : Value) (b : Buffer),
    SameOutcome (evalLoopNoTrace defaultEnv p i v es b).1 (evalLoopNoTrace defaultEnv p' i v es' b).1 ∧
      (evalLoopNoTrace defaultEnv p i v es b).2 = (evalLoopNoTrace defaultEnv p' i v es' b).2 := by
  induction h with
  | nil => intro i v b; exact ⟨.ok _, rfl⟩
  | @cons e e' es es' h1 _ ih =>
    intro i v b
    rw [evalLoopNoTrace, evalLoopNoTrace, ← alike_instr h1 b]
    rcases evalExpr defaultEnv e b with ⟨r, b1⟩
    cases r with
    | ok v => exact ih (i + 1) v b1
    | err m => exact ⟨.err rfl rfl rfl rfl rfl h1, rfl⟩
    | panic => exact ⟨.panic, rfl⟩

/-- C82. Scripts: what a script does to a buffer, and what comes of it, does not depend on the fractions of the numbers used as arguments, however
deeply they are nested. -/
theorem C82_script {p p' : List Value} (h : List.Forall₂ AlikeInstr p p') (b : Buffer) :
    SameOutcome (eval defaultEnv p b).1 (eval defaultEnv p' b).1 ∧ (eval defaultEnv p b).2 = (eval defaultEnv p' b).2 :=
  alike_loop p p' h 0 (.str []) b

example (b : Buffer) : (eval defaultEnv [.list [.sym b! "insert", .list [.sym b! "buffer-substring", .num (.fin false 3 (-1)), .num (.fin false 7 0)]]] b).2 =
    (eval defaultEnv [.list [.sym b! "insert", .list [.sym b! "buffer-substring", .num (.fin false 1 0), .num (.fin false 7 0)]]] b).2 :=
  (C82_script (.cons (.call (.cons (.call (.cons (.num integerPart_3_2 integerPart_1)
    (.cons (.same _) .nil))) .nil)) .nil) b).2

end Texted
