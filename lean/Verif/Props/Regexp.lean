import Verif.Lemmas.ReExt
import Verif.Lemmas.Expand
import Verif.Lemmas.Scan
import Verif.Props.Search
import Verif.Props.Strings
/- C66: the regular expression functions, for every engine that meets the documented contract. -/
namespace Texted
variable [Ext]

/-! ### string-match -/

/-- string-match returns the 0-based offset of the first place where the pattern matches, or nil if it matches nowhere. -/
theorem C66_string_match (p s : Bytes) (b : Buffer) (re : Regex) (M : Bytes → Nat → Nat → Prop) (hc : Ext.compile p = .ok re)
    (hM : EngineFor re M) :
    (∀ i, (∃ j, M s i j) → (∀ a c, M s a c → i ≤ a) → call b! "string-match" [.str p, .str s] b = (.ok (numV i), b)) ∧
    ((∀ i j, ¬ M s i j) → call b! "string-match" [.str p, .str s] b = (.ok (.sym b! "nil"), b)) := by
  simp only [call_string_match, builtinStringMatch, hc]
  cases hf : re.find s with
  | none =>
    exact ⟨fun i ⟨j, hj⟩ _ => absurd hj (hM.first.complete s hf i j), fun _ => rfl⟩
  | some ij =>
    obtain ⟨i', j'⟩ := ij
    have h1 := hM.first.sound s i' j' hf
    constructor
    · intro i ⟨j, hj⟩ hmin
      have e1 := hM.first.leftmost s i' j' hf i j hj
      have e2 := hmin i' j' h1
      obtain rfl : i = i' := by omega
      rfl
    · intro hno; exact absurd h1 (hno i' j')

/-- If the pattern is not a regular expression, string-match looks for its literal text. -/
theorem C66_string_match_literal_fallback (p s e : Bytes) (b : Buffer) (hc : Ext.compile p = .error e) :
    (∀ i, OccursAt p s i → (∀ a, OccursAt p s a → i ≤ a) → call b! "string-match" [.str p, .str s] b = (.ok (numV i), b)) ∧
    ((∀ i, ¬ OccursAt p s i) → call b! "string-match" [.str p, .str s] b = (.ok (.sym b! "nil"), b)) := by
  simp only [call_string_match, builtinStringMatch, hc]
  constructor
  · intro i hi hmin
    rw [indexOf_eq_some hi fun j hj h => absurd (hmin j h) (by omega)]
    rfl
  · intro hno
    rw [indexOf_eq_none hno]
    rfl

/-! ### re-search-forward -/

/-- re-search-forward succeeds exactly when the text from point to the end of the buffer, taken by itself, has a match (and is not
empty). Point moves to the end of a match that begins leftmost; the match is recorded; nothing else changes. -/
theorem C66_re_search_forward (b : Buffer) (p : Bytes) (re : Regex) (M : Bytes → Nat → Nat → Prop) (hc : Ext.compile p = .ok re)
    (hM : EngineFor re M) (h : InRange b) :
    (b.after ≠ [] → (∃ i j, M b.after i j) → ∃ i j, M b.after i j ∧ (∀ a c, M b.after a c → i ≤ a) ∧
      call b! "re-search-forward" [.str p] b =
        (okEmpty, b.matched ((b.point - 1).toNat + i) ((b.after.drop i).take (j - i)))) ∧
    ((b.after = [] ∨ ∀ i j, ¬ M b.after i j) → call b! "re-search-forward" [.str p] b = (.err b! "search failed", b)) := by
  obtain ⟨n, hn, hle⟩ := h.exists
  have e : (b.point - 1).toNat = n := by omega
  have e2 : ((n : Int) + 1 - 1).toNat = n := by omega
  simp only [call_re_search_forward, builtinReSearchForward, oneStr, hn, dec64_succ, hc, Buffer.after, atLeast0_eq, e2]
  simp only [show ((n : Int)).toNat = n from rfl]
  constructor
  · intro hne ⟨a, c, hac⟩
    have hlt : n < b.content.length := by
      refine Nat.lt_of_le_of_ne hle fun h0 => hne (List.drop_eq_nil_of_le (by omega))
    rw [if_neg (by omega), sliceFrom_eq _ _ hle]
    cases hf : re.find (b.content.drop n) with
    | none => exact absurd hac (hM.first.complete _ hf a c)
    | some ij =>
      obtain ⟨i, j⟩ := ij
      have h1 := hM.first.sound _ i j hf
      have h2 := hM.inside _ i j h1
      rw [List.length_drop] at h2
      refine ⟨i, j, h1, hM.first.leftmost _ i j hf, ?_⟩
      simp only [hf, show (n : Int) + i = ((n + i : Nat) : Int) by omega, show (n : Int) + j = ((n + j : Nat) : Int) by omega]
      rw [slice_eq _ _ _ (by omega) (by omega)]
      have hm : (b.content.drop (n + i)).take (n + j - (n + i)) = ((b.content.drop n).drop i).take (j - i) := by
        rw [List.drop_drop]; congr 1; omega
      have hlen : (((b.content.drop n).drop i).take (j - i)).length = j - i := by
        rw [List.length_take, List.length_drop, List.length_drop]; omega
      simp only [done, okEmpty, Buffer.matched, hm, hlen]
      congr 2 <;> omega
  · intro hno
    rcases hno with hno | hno
    · have := List.drop_eq_nil_iff.1 hno
      rw [if_pos (by omega)]; rfl
    · split
      · rfl
      · rw [sliceFrom_eq _ _ hle]
        cases hf : re.find (b.content.drop n) with
        | none => simp only [hf]; rfl
        | some ij => exact absurd (hM.first.sound _ ij.1 ij.2 hf) (hno _ _)

/-- re-search-backward succeeds exactly when the text before point, taken by itself, has a match. Point moves to the end of a match in
that text behind which no further match begins; the match is recorded; nothing else changes. -/
theorem C66_re_search_backward (b : Buffer) (p : Bytes) (re : Regex) (M : Bytes → Nat → Nat → Prop) (hc : Ext.compile p = .ok re)
    (hM : EngineFor re M) (h : InRange b) :
    ((∃ i j, M b.before i j) → ∃ i j, M b.before i j ∧ (∀ a c, j < a → ¬ M b.before a c) ∧
      (re.findAll b.before).getLast? = some (i, j) ∧
      call b! "re-search-backward" [.str p] b = (okEmpty, b.matched i ((b.before.drop i).take (j - i)))) ∧
    ((∀ i j, ¬ M b.before i j) → call b! "re-search-backward" [.str p] b = (.err b! "search failed", b)) := by
  obtain ⟨n, hn, hle⟩ := h.exists
  have e : (b.point - 1).toNat = n := by omega
  have e2 : ((n : Int) + 1 - 1).toNat = n := by omega
  have emin : atMost (b.content.length : Int) (n : Int) = (n : Int) := by rw [atMost_eq]; omega
  simp only [call_re_search_backward, builtinReSearchBackward, oneStr, hn, dec64_succ, hc, Buffer.before, emin, e2]
  rw [if_neg (by omega), sliceTo_eq _ _ hle]
  have hall := hM.all (b.content.take n)
  constructor
  · intro ⟨a, c, hac⟩
    have key : ∀ (prev : Option Nat) (l : List (Nat × Nat)), Successive (M (b.content.take n)) prev l →
        (∃ a c, Behind prev a ∧ M (b.content.take n) a c) → ∃ i j, l.getLast? = some (i, j) ∧ M (b.content.take n) i j ∧
          ∀ a c, j < a → ¬ M (b.content.take n) a c := by
      intro prev l hs
      induction hs with
      | nil prev hno => rintro ⟨a, c, h1, h2⟩; exact absurd h2 (hno a c h1)
      | cons prev i j l hm hp hl ht ih =>
        intro _
        by_cases hex : ∃ a c, Behind (some j) a ∧ M (b.content.take n) a c
        · obtain ⟨i', j', h1, h2⟩ := ih hex
          refine ⟨i', j', ?_, h2⟩
          rw [List.getLast?_cons, h1]; rfl
        · cases ht with
          | nil _ hno => exact ⟨i, j, rfl, hm, fun a c ha hac => hex ⟨a, c, ha, hac⟩⟩
          | cons _ i' j' l' hm' hp' hl' ht' =>
            obtain ⟨i2, j2, h1, h2⟩ : ∃ i2 j2, (((i', j') :: l').getLast? = some (i2, j2)) ∧ (i2, j2) ∈ (i', j') :: l' := by
              have hne : ((i', j') :: l') ≠ [] := by simp
              exact ⟨_, _, List.getLast?_eq_some_getLast hne, List.getLast_mem hne⟩
            have hsucc : Successive (M (b.content.take n)) (some j) ((i', j') :: l') := .cons _ _ _ _ hm' hp' hl' ht'
            have hmem := hsucc.mem _ h2
            refine ⟨i2, j2, by rw [List.getLast?_cons, h1]; rfl, hmem, fun a c ha hac => ?_⟩
            -- a match behind `j2` is also behind `j`, as the listed matches follow one another
            have hord : ∀ (e : Nat) (l : List (Nat × Nat)), Successive (M (b.content.take n)) (some e) l →
                ∀ x ∈ l, e ≤ x.2 := by
              intro e l hs
              generalize hq : some e = q at hs
              induction hs generalizing e with
              | nil => intro x hx; cases hx
              | cons _ i j l hm hp _ _ ih =>
                intro x hx
                have hij := hM.inside _ _ _ hm
                have : e ≤ j := by rcases hp e hq.symm with h | h <;> omega
                rcases List.mem_cons.1 hx with rfl | hx
                · exact this
                · exact Nat.le_trans this (ih j rfl x hx)
            have := hord j _ hsucc _ h2
            exact hex ⟨a, c, Nat.lt_of_le_of_lt this ha, hac⟩
    obtain ⟨i, j, h1, h2, h3⟩ := key none _ hall ⟨a, c, trivial, hac⟩
    have hij := hM.inside _ i j h2
    rw [List.length_take] at hij
    refine ⟨i, j, h2, h3, h1, ?_⟩
    simp only [h1]
    rw [slice_eq _ _ _ (by omega) (by omega)]
    have hm : (b.content.drop i).take (j - i) = ((b.content.take n).drop i).take (j - i) := by
      rw [List.drop_take, List.take_take, Nat.min_eq_left (by omega)]
    simp only [done, okEmpty, Buffer.matched, hm]
    have hlen : (((b.content.take n).drop i).take (j - i)).length = j - i := by
      rw [List.length_take, List.length_drop, List.length_take]; omega
    rw [hlen]
    congr 2 <;> omega
  · intro hno
    cases hf : (re.findAll (b.content.take n)).getLast? with
    | none => simp only [hf]; rfl
    | some ij => exact absurd (hall.mem ij (List.mem_of_getLast? hf)) (hno _ _)

/-- An invalid pattern makes the searches and the replacement fail with the compiler's message, without any effect. (Without text to
search, re-search-forward reports a failed search instead.) -/
theorem C66_invalid_pattern (b : Buffer) (p e r s : Bytes) (hc : Ext.compile p = .error e) (h : InRange b) :
    (b.after ≠ [] → call b! "re-search-forward" [.str p] b = (.err (b! "invalid regexp: " ++ e), b)) ∧
    (b.after = [] → call b! "re-search-forward" [.str p] b = (.err b! "search failed", b)) ∧
    call b! "re-search-backward" [.str p] b = (.err (b! "invalid regexp: " ++ e), b) ∧
    call b! "replace-regexp-in-string" [.str p, .str r, .str s] b = (.err (b! "invalid regexp: " ++ e), b) := by
  obtain ⟨n, hn, hle⟩ := h.exists
  have e2 : ((n : Int) + 1 - 1).toNat = n := by omega
  refine ⟨?_, ?_, ?_, ?_⟩
  · intro hne
    simp only [call_re_search_forward, builtinReSearchForward, oneStr, hn, dec64_succ, hc, atLeast0_eq]
    simp only [Buffer.after, hn, e2] at hne
    have hlt : n < b.content.length := by
      refine Nat.lt_of_le_of_ne hle fun h0 => hne (List.drop_eq_nil_of_le (by omega))
    rw [if_neg (by omega)]; rfl
  · intro hne
    simp only [call_re_search_forward, builtinReSearchForward, oneStr, hn, dec64_succ, hc, atLeast0_eq]
    simp only [Buffer.after, hn, e2] at hne
    have := List.drop_eq_nil_iff.1 hne
    rw [if_pos (by omega)]; rfl
  · simp only [call_re_search_backward, builtinReSearchBackward, oneStr, hn, dec64_succ, hc, atMost_eq]
    rw [if_neg (by omega)]; rfl
  · simp only [call_replace_regexp_in_string, builtinReplaceRegexpInString, hc]; rfl

/-! ### replace-regexp-in-string -/

theorem replaceLoop_eq (re : Regex) (s t : Bytes) : ∀ l p, replaceLoop re s t p l = substitute s (fun m => expand re s m t) p l := by
  intro l
  induction l with
  | nil => intro p; rfl
  | cons x l ih => intro p; obtain ⟨i, j⟩ := x; rw [replaceLoop, substitute, ih]

theorem call_replace_of_expand (b : Buffer) (p r s : Bytes) (re : Regex) (hc : Ext.compile p = .ok re) (f : Nat × Nat → Bytes)
    (hf : ∀ m, expand re s m r = f m) :
    call b! "replace-regexp-in-string" [.str p, .str r, .str s] b = (.ok (.str (substitute s f 0 (re.findAll s))), b) := by
  have : (fun m => expand re s m r) = f := funext hf
  simp only [call_replace_regexp_in_string, builtinReplaceRegexpInString, hc, Regex.replaceAll, replaceLoop_eq, this]; rfl

/-- replace-regexp-in-string with a replacement without `$` returns the string with successive, non-overlapping, leftmost matches
replaced and everything else kept. -/
theorem C66_replace_regexp_in_string (b : Buffer) (p r s : Bytes) (re : Regex) (M : Bytes → Nat → Nat → Prop)
    (hc : Ext.compile p = .ok re) (hM : EngineFor re M) (hr : 0x24 ∉ r) :
    ∃ l, Successive (M s) none l ∧
      call b! "replace-regexp-in-string" [.str p, .str r, .str s] b = (.ok (.str (substitute s (fun _ => r) 0 l)), b) :=
  ⟨re.findAll s, hM.all s, call_replace_of_expand b p r s re hc _ fun m => expand_literal re s m r hr⟩

/-- With any ASCII replacement each match is replaced by what the replacement's references stand for at that match. -/
theorem C66_replace_with_references (b : Buffer) (p r s : Bytes) (re : Regex) (M : Bytes → Nat → Nat → Prop)
    (hc : Ext.compile p = .ok re) (hM : EngineFor re M) (hr : ∀ c ∈ r, c.toNat < 128) (f : Nat × Nat → Bytes)
    (hf : ∀ m, Expands re s m r (f m)) :
    ∃ l, Successive (M s) none l ∧
      call b! "replace-regexp-in-string" [.str p, .str r, .str s] b = (.ok (.str (substitute s f 0 l)), b) :=
  ⟨re.findAll s, hM.all s, call_replace_of_expand b p r s re hc _ fun m => ((expand_expands re s m r hr _).1 (hf m)).symm⟩

omit [Ext] in
/-- Every replacement stands for something at every match, and for only one thing. -/
theorem C66_references_total (re : Regex) (s : Bytes) (m : Nat × Nat) (r : Bytes) :
    ∃ o, Expands re s m r o ∧ ((∀ c ∈ r, c.toNat < 128) → ∀ o', Expands re s m r o' → o' = o) := by
  obtain ⟨o, ho⟩ := expands_total re s m r
  refine ⟨o, ho, fun hr o' ho' => ?_⟩
  letI := reExt
  rw [(expand_expands re s m r hr o).1 ho, (expand_expands re s m r hr o').1 ho']

/-- With every `$` doubled, any text (ASCII or not) can be inserted as it is. -/
theorem C66_dollar_doubled (b : Buffer) (p r s : Bytes) (re : Regex) (M : Bytes → Nat → Nat → Prop)
    (hc : Ext.compile p = .ok re) (hM : EngineFor re M) :
    ∃ l, Successive (M s) none l ∧
      call b! "replace-regexp-in-string" [.str p, .str (r.flatMap fun c => if c = 0x24 then [0x24, 0x24] else [c]), .str s] b =
        (.ok (.str (substitute s (fun _ => r) 0 l)), b) :=
  ⟨re.findAll s, hM.all s, call_replace_of_expand b p _ s re hc _ fun m => expand_doubled re s m r⟩

/-- Nothing is replaced in a string without a match, whatever the replacement. -/
theorem C66_replace_nothing (b : Buffer) (p r s : Bytes) (re : Regex) (M : Bytes → Nat → Nat → Prop)
    (hc : Ext.compile p = .ok re) (hM : EngineFor re M) (hno : ∀ i j, ¬ M s i j) :
    call b! "replace-regexp-in-string" [.str p, .str r, .str s] b = (.ok (.str s), b) := by
  rw [call_replace_of_expand b p r s re hc _ fun m => rfl]
  have h := hM.all s
  generalize re.findAll s = l at h
  cases h with
  | nil => simp [substitute]
  | cons _ i j _ hm => exact absurd hm (hno i j)

end Texted

namespace Texted

/-! ### Concrete cases (with the engine of Lemmas/ReExt.lean) and refuted expectations -/

/-- The contract is met by an engine for real patterns; here the hypotheses of the theorems above for `[a-z]+[0-9]+`. -/
example : ∃ re M, reExt.compile (b! "[a-z]+[0-9]+") = .ok re ∧ EngineFor re M ∧
    re.find (b! "The function foo123 is") = some (13, 19) ∧ re.findAll (b! "a1 b2, c") = [(0, 2), (3, 5)] := by
  refine ⟨_, _, rfl, rxRegex_contract _, by decide +kernel, by decide +kernel⟩

example : letI := reExt
    call b! "replace-regexp-in-string" [.str b! "[0-9]+", .str b! "NUM", .str b! "Hello 123 world 456"] (newBuffer b! "x") =
      (.ok (.str b! "Hello NUM world NUM"), newBuffer b! "x") ∧
    call b! "string-match" [.str b! "[0-9]+", .str b! "Hello 123 world"] (newBuffer []) = (.ok (numV 6), newBuffer []) ∧
    call b! "string-match" [.str b! "wor(", .str b! "Hello wor(ld"] (newBuffer []) = (.ok (numV 6), newBuffer []) := by
  decide +kernel

/-- Refuted expectation: re-search-backward does not find the match closest to point. With point after "aaa" the match of "aa" that ends
at point is missed. -/
theorem C66_false_closest_match : letI := reExt
    (call b! "re-search-backward" [.str b! "aa"] { newBuffer b! "aaa" with point := 4 }).2.point = 3 ∧
    (call b! "search-backward" [.str b! "aa"] { newBuffer b! "aaa" with point := 4 }).2.point = 4 := by
  decide +kernel

/-- Refuted expectation: `^` is not the beginning of a line. It matches at point, wherever point is, and nowhere else. -/
theorem C66_false_line_anchor : letI := reExt
    (call b! "re-search-forward" [.str b! "^b"] { newBuffer b! "ab" with point := 2 }).2.point = 3 ∧
    (call b! "re-search-forward" [.str b! "^b"] (newBuffer b! "a\nb")).1 = .err b! "search failed" := by
  decide +kernel

/-- A compiled expression with groups, as `(?P<k>[a-z])=([0-9])?` has them, on one text. -/
def groupedRegex : Regex where
  find _ := some (0, 3)
  findAll _ := [(0, 3), (4, 6)]
  groups _ m := if m = (0, 3) then [some (0, 1), some (2, 3)] else [some (4, 5), none]
  names := [b! "k", []]

example : Expands groupedRegex b! "a=1 b=" (0, 3) b! "$2$$${k}:$kx$" b! "1$a:$" := by
  refine .bare b! "2" b! "1" b! "$$${k}:$kx$" _ ⟨by decide, by unfold nameByte; decide⟩ (by unfold nameByte; decide) (.inl ⟨2, by decide, by decide, by decide⟩) ?_
  refine .dollar _ _ ?_
  refine .braced b! "k" b! "a" b! ":$kx$" _ ⟨by decide, by unfold nameByte; decide⟩ (.inr ⟨fun n _ he => ?_, by decide⟩) ?_
  · have := natDec_dig n 107 (by rw [← he]; decide)
    revert this; unfold IsDig; decide
  refine .char _ _ _ (by decide) ?_
  refine .bare b! "kx" [] b! "$" _ ⟨by decide, by unfold nameByte; decide⟩ (by unfold nameByte; decide) (.inr ⟨fun n _ he => ?_, by decide⟩) ?_
  · have := natDec_dig n 107 (by rw [← he]; decide)
    revert this; unfold IsDig; decide
  refine .lone _ _ (by decide) (fun name r hn => ⟨fun he => ?_, fun he => nomatch he⟩) .nil
  exact hn.1 (List.append_eq_nil_iff.1 he.symm).1

example : letI := reExt
    groupedRegex.replaceAll b! "a=1 b=" b! "$2$$${k}:$kx$" = b! "1$a:$ $b:$" := by decide +kernel

/-- Refuted expectation: the replacement text is not inserted as it is. A price loses its digits, and a reference directly followed by a
letter is a reference to something else. -/
theorem C66_false_literal_replacement : letI := reExt
    call b! "replace-regexp-in-string" [.str b! "[0-9]+", .str b! "$5.00", .str b! "costs 7 now"] (newBuffer []) =
      (.ok (.str b! "costs .00 now"), newBuffer []) ∧
    call b! "replace-regexp-in-string" [.str b! "[0-9]+", .str b! "$0px", .str b! "costs 7 now"] (newBuffer []) =
      (.ok (.str b! "costs  now"), newBuffer []) ∧
    call b! "replace-regexp-in-string" [.str b! "[0-9]+", .str b! "${0}px", .str b! "costs 7 now"] (newBuffer []) =
      (.ok (.str b! "costs 7px now"), newBuffer []) := by
  decide +kernel

end Texted
