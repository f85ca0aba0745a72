import Verif.Props.Grammar
import Verif.Props.JsonText
import Verif.Props.Errors
import Verif.Props.Files
import Verif.Lemmas.LitExt
/- C83: scripts in JSON are not scripts in the default syntax. -/
namespace Texted
open Spec

/-- The name or number a command starts with: it starts with the byte `x`. -/
def HeadOf (x : UInt8) (v : Value) : Prop := ∃ h vs, v = .list (h :: vs) ∧ ((∃ n, h = .sym (x :: n)) ∨ ∃ y, h = .num y)

theorem decodeAll_asciiCons (x : UInt8) (s : Bytes) (h : x.toNat < 128) : decodeAll (x :: s) = Char.ofNat x.toNat :: decodeAll s := by
  rw [decodeAll_cons, decodeRune_ascii x s h]; rfl

/-- A character that starts a word. -/
structure WordStart (x : UInt8) : Prop where
  ascii : x.toNat < 128
  space : isSpace (Char.ofNat x.toNat) = false
  semi : Char.ofNat x.toNat ≠ ';'
  quoteMark : Char.ofNat x.toNat ≠ '"'
  paren : ¬ parenthesis (Char.ofNat x.toNat)
  round : encodeRune (Char.ofNat x.toNat) = [x]

theorem wordStart_not_blank {x : UInt8} (h : WordStart x) : ¬ blank (Char.ofNat x.toNat) := by
  intro hb
  have : isSpace (Char.ofNat x.toNat) = true := by
    rcases hb with hb | hb | hb | hb <;> rw [hb] <;> rfl
  rw [h.space] at this; cases this

theorem dropWhile_none {l : List Char} (h : l.dropWhile isSpace = []) : ∀ y ∈ l, isSpace y = true := by
  induction l with
  | nil => simp
  | cons a l ih =>
    rw [List.dropWhile_cons] at h
    split at h
    · rename_i ha
      intro y hy
      rcases List.mem_cons.1 hy with rfl | hy
      · exact ha
      · exact ih h y hy
    · cases h

theorem dropWhile_spaces {l : List Char} (h : ∀ y ∈ l, isSpace y = true) : l.dropWhile isSpace = [] := by
  induction l with
  | nil => rfl
  | cons a l ih => rw [List.dropWhile_cons, if_pos (h a (by simp))]; exact ih fun y hy => h y (by simp [hy])

theorem trimmed_start {c : Char} {r : List Char} (h : isSpace c = false) (w : List Char) (hw : ∀ y ∈ w, isSpace y = true) :
    ∃ r', trimmed (w ++ c :: r) = c :: r' := by
  have hd : (w ++ c :: r).dropWhile isSpace = c :: r := by
    induction w with
    | nil => rw [List.nil_append, List.dropWhile_cons, h]; rfl
    | cons y w ih => rw [List.cons_append, List.dropWhile_cons, hw y (by simp)]; exact ih fun z hz => hw z (by simp [hz])
  unfold trimmed
  rw [hd]
  generalize hz : ((c :: r).reverse.dropWhile isSpace) = z
  have hsuf : z <:+ (c :: r).reverse := hz ▸ List.dropWhile_suffix _
  obtain ⟨t, ht⟩ := hsuf
  have hr : z.reverse ++ t.reverse = c :: r := by
    have := congrArg List.reverse ht
    simpa using this
  cases hzr : z.reverse with
  | nil =>
    exfalso
    have hz0 : z = [] := List.reverse_eq_nil_iff.1 hzr
    have := dropWhile_none (hz.trans hz0) c (by simp)
    rw [h] at this; cases this
  | cons y z' =>
    rw [hzr] at hr
    simp only [List.cons_append, List.cons.injEq] at hr
    exact ⟨z', by rw [hr.1]⟩

theorem command_head {x : UInt8} (hx : WordStart x) {r : List Char} {v : Value} (h : CommandReads (Char.ofNat x.toNat :: r) v) : HeadOf x v := by
  unfold CommandReads at h
  have hp : Char.ofNat x.toNat ≠ '(' := fun e => hx.paren (.inl e)
  rw [if_neg (by simpa using hp)] at h
  obtain ⟨ts, vs, h1, h2, rfl⟩ := h
  have : ∃ w ts', ts = (Char.ofNat x.toNat :: w) :: ts' := by
    generalize hcs : Char.ofNat x.toNat :: r = cs at h1
    cases h1 with
    | nil => cases hcs
    | blank c r ts hb _ => cases hcs; exact absurd hb (wordStart_not_blank hx)
    | paren c r ts hb _ => cases hcs; exact absurd hb hx.paren
    | word w r ts hw hne _ _ =>
      cases w with
      | nil => exact absurd rfl hne
      | cons c w => simp only [List.cons_append, List.cons.injEq] at hcs; exact ⟨w, ts, by rw [hcs.1]⟩
  obtain ⟨w, ts', rfl⟩ := this
  generalize hts : (Char.ofNat x.toNat :: w) :: ts' = ts at h2
  cases h2 with
  | nil => cases hts
  | atom t v ts vs _ _ ha _ =>
    cases hts
    cases ha with
    | str s hs =>
      obtain ⟨body, hb, _⟩ := hs
      simp only [List.cons.injEq] at hb
      exact absurd hb.1 hx.quoteMark
    | num y _ _ => exact ⟨_, _, rfl, .inr ⟨y, rfl⟩⟩
    | sym _ _ => exact ⟨_, _, rfl, .inl ⟨encodeAll w, by rw [encodeAll_cons, hx.round]; rfl⟩⟩
  | list inner l ts vs _ _ =>
    simp only [List.cons.injEq] at hts
    exact absurd hts.1.1 hp

theorem line_head {x : UInt8} (hx : WordStart x) {w r : List Char} (hw : ∀ y ∈ w, blank y) {p : List Value}
    (h : LineReads (w ++ Char.ofNat x.toNat :: r) p) : ∃ v p', p = v :: p' ∧ HeadOf x v := by
  have hsp : ∀ y ∈ w, isSpace y = true := by
    intro y hy
    rcases hw y hy with hb | hb | hb | hb <;> rw [hb] <;> rfl
  have seg : ∀ {s : List Char} {p : List Value}, (∃ r', s = w ++ Char.ofNat x.toNat :: r') → SegmentReads s p → ∃ v, p = [v] ∧ HeadOf x v := by
    rintro s p ⟨r', rfl⟩ ⟨_, h⟩
    obtain ⟨r'', ht⟩ := trimmed_start (r := r') hx.space w hsp
    rw [ht] at h
    rcases h with ⟨h, _⟩ | ⟨_, v, h1, rfl⟩
    · cases h
    · exact ⟨v, rfl, command_head hx h1⟩
  generalize hcs : w ++ Char.ofNat x.toNat :: r = cs at h
  cases h with
  | last _ _ h =>
    obtain ⟨v, rfl, hv⟩ := seg ⟨r, hcs.symm⟩ h
    exact ⟨v, [], rfl, hv⟩
  | more s rest p q h _ =>
    have : ∃ r', s = w ++ Char.ofNat x.toNat :: r' := by
      clear h seg
      induction w generalizing s with
      | nil =>
        cases s with
        | nil => simp only [List.nil_append, List.cons.injEq] at hcs; exact absurd hcs.1 hx.semi
        | cons c s => simp only [List.nil_append, List.cons_append, List.cons.injEq] at hcs; exact ⟨s, by rw [List.nil_append, hcs.1]⟩
      | cons y w ih =>
        cases s with
        | nil =>
          simp only [List.nil_append, List.cons_append, List.cons.injEq] at hcs
          have := hw y (by simp)
          rw [hcs.1] at this
          rcases this with h | h | h | h <;> exact absurd h (by decide)
        | cons c s =>
          simp only [List.cons_append, List.cons.injEq] at hcs
          obtain ⟨r', e⟩ := ih (fun z hz => hw z (by simp [hz])) (fun z hz => hsp z (by simp [hz])) s hcs.2
          exact ⟨r', by rw [List.cons_append, ← hcs.1, e]⟩
    obtain ⟨v, rfl, hv⟩ := seg this h
    exact ⟨v, q, rfl, hv⟩

theorem line_blanks {cs : List Char} {p : List Value} (hw : ∀ y ∈ cs, blank y) (h : LineReads cs p) : p = [] := by
  have hsp : ∀ y ∈ cs, isSpace y = true := by
    intro y hy
    rcases hw y hy with hb | hb | hb | hb <;> rw [hb] <;> rfl
  cases h with
  | last _ _ h =>
    rcases h.2 with ⟨_, h⟩ | ⟨h, _⟩
    · exact h
    · exfalso
      apply h
      unfold trimmed
      rw [dropWhile_spaces hsp]
      rfl
  | more s rest p q h _ =>
    have := hw ';' (by simp)
    rcases this with h | h | h | h <;> exact absurd h (by decide)

theorem blanks_chars {w : Bytes} (hw : Spaces w) (s : Bytes) : decodeAll (w ++ s) = w.map (fun y => Char.ofNat y.toNat) ++ decodeAll s ∧
    ∀ y ∈ w.map (fun y => Char.ofNat y.toNat), blank y := by
  induction w with
  | nil => exact ⟨rfl, by simp⟩
  | cons y w ih =>
    obtain ⟨h1, h2⟩ := ih fun z hz => hw z (by simp [hz])
    have hy := hw y (by simp)
    have hlt : y.toNat < 128 := by
      simp only [List.mem_cons, List.not_mem_nil, or_false] at hy
      rcases hy with rfl | rfl | rfl | rfl <;> decide
    refine ⟨by rw [List.cons_append, decodeAll_asciiCons _ _ hlt, h1]; rfl, ?_⟩
    intro z hz
    rw [List.map_cons, List.mem_cons] at hz
    rcases hz with rfl | hz
    · simp only [List.mem_cons, List.not_mem_nil, or_false] at hy
      unfold blank
      rcases hy with rfl | rfl | rfl | rfl <;> decide
    · exact h2 z hz

theorem dropCR_cons (w : Bytes) (x : UInt8) (s : Bytes) (hx : x ≠ 13) : ∃ s', dropCR (w ++ x :: s) = w ++ x :: s' := by
  unfold dropCR
  split
  · rename_i h
    rcases List.eq_nil_or_concat s with rfl | ⟨s', z, rfl⟩
    · rw [List.getLast?_append] at h; simp at h; exact absurd h hx
    · refine ⟨s', ?_⟩
      rw [List.concat_eq_append, ← List.cons_append, ← List.append_assoc, List.dropLast_concat]
  · exact ⟨s, rfl⟩

theorem dropCR_spaces {w : Bytes} (hw : Spaces w) : Spaces (dropCR w) := by
  unfold dropCR
  split
  · exact fun y hy => hw y (List.dropLast_subset _ hy)
  · exact hw

/-- The first command of a script. -/
theorem script_head {x : UInt8} (hx : WordStart x) (w : Bytes) (hw : Spaces w) (s : Bytes) {p : List Value} (h : ScriptReads (w ++ x :: s) p) :
    ∃ v p', p = v :: p' ∧ HeadOf x v := by
  have hxn : x ≠ nl := by rintro rfl; exact absurd hx.space (by decide)
  have hxr : x ≠ 13 := by rintro rfl; exact absurd hx.space (by decide)
  unfold ScriptReads at h
  by_cases hn : nl ∈ w
  · obtain ⟨w1, w2, rfl, hw1⟩ := List.eq_append_cons_of_mem hn
    rw [List.append_assoc, List.cons_append, splitByte_line nl _ _ fun y hy e => hw1 (e ▸ hy)] at h
    generalize hl : splitByte nl (w2 ++ x :: s) = ls at h
    cases h with
    | cons l ls p q _ h1 h2 =>
      have hs1 : Spaces w1 := fun y hy => hw y (by simp [hy])
      have := blanks_chars (dropCR_spaces hs1) []
      rw [List.append_nil] at this
      have hp : p = [] := line_blanks (by rw [this.1, show decodeAll [] = [] from rfl, List.append_nil]; exact this.2) h1
      subst hp
      rw [List.nil_append]
      exact script_head hx w2 (fun y hy => hw y (by simp [hy])) s (by unfold ScriptReads; rw [hl]; exact h2)
  · obtain ⟨l, ls, h1, h2⟩ : ∃ l ls, splitByte nl (w ++ x :: s) = (w ++ x :: l) :: ls ∧ True := by
      by_cases hsn : nl ∈ s
      · obtain ⟨s1, s2, rfl, hs1⟩ := List.eq_append_cons_of_mem hsn
        refine ⟨s1, splitByte nl s2, ?_, trivial⟩
        rw [show w ++ x :: (s1 ++ nl :: s2) = (w ++ x :: s1) ++ nl :: s2 by simp]
        refine splitByte_line nl _ _ ?_
        intro y hy e
        subst e
        simp only [List.mem_append, List.mem_cons] at hy
        rcases hy with hy | hy | hy
        · exact hn hy
        · exact hxn hy.symm
        · exact hs1 hy
      · refine ⟨s, [], splitByte_last nl _ ?_, trivial⟩
        intro y hy e
        subst e
        simp only [List.mem_append, List.mem_cons] at hy
        rcases hy with hy | hy | hy
        · exact hn hy
        · exact hxn hy.symm
        · exact hsn hy
    rw [h1] at h
    cases h with
    | cons l' ls p q _ g1 g2 =>
      obtain ⟨s', hs'⟩ := dropCR_cons w x l hxr
      rw [hs', (blanks_chars hw _).1, decodeAll_asciiCons _ _ hx.ascii] at g1
      obtain ⟨v, p', rfl, hv⟩ := line_head hx (blanks_chars hw []).2 g1
      exact ⟨v, p' ++ q, rfl, hv⟩
termination_by w.length
decreasing_by
  subst_vars
  simp only [List.length_append, List.length_cons]
  omega

variable [Ext]

/-- A command that starts so cannot be executed if no function's name does. -/
theorem head_fails {x : UInt8} (hn : ∀ n, defaultEnv (x :: n) = none) {v : Value} (h : HeadOf x v) (b : Buffer) : ∃ m b', evalExpr defaultEnv v b = (.err m, b') := by
  obtain ⟨h, vs, rfl, ⟨n, rfl⟩ | ⟨y, rfl⟩⟩ := h
  · exact ⟨_, _, by rw [evalExpr, hn]⟩
  · exact ⟨_, _, by rw [evalExpr]; simp⟩

theorem start_never_runs {x : UInt8} (hx : WordStart x) (hn : ∀ n, defaultEnv (x :: n) = none) (w : Bytes) (hw : Spaces w) (s c t : Bytes) :
    executeScript c (w ++ x :: s) ≠ .ok t := by
  intro h
  rw [executeScript] at h
  cases hp : parseString (w ++ x :: s) with
  | err e => rw [hp] at h; cases h
  | panic => rw [hp] at h; cases h
  | ok p =>
    obtain ⟨v, p', rfl, hv⟩ := script_head hx w hw s ((C42_parser_is_grammar _ _).1 hp)
    obtain ⟨m, b', he⟩ := head_fails hn hv (newBuffer c)
    rw [hp, executeParsed, evalOn, eval, evalLoopNoTrace, he] at h
    cases h

omit [Ext] in
theorem bracket_start : WordStart 91 := ⟨by decide, by decide, by decide, by decide, by unfold parenthesis; decide, by decide⟩
omit [Ext] in
theorem n_start : WordStart 110 := ⟨by decide, by decide, by decide, by decide, by unfold parenthesis; decide, by decide⟩

/-- No function's name starts with `[` or `n`. -/
theorem no_such_name (x : UInt8) (hx : x = 91 ∨ x = 110) (n : Bytes) : defaultEnv (x :: n) = none := by
  rcases hx with rfl | rfl <;> simp [defaultEnv, builtinTable, tableLookup]

/-- **C83**: a script that starts with a bracket, as scripts in JSON do, never succeeds where the default syntax is expected; that is, with edit_file,
texted_eval and without --json. -/
theorem C83_bracket_never_runs (blanks rest c t : Bytes) (hb : Spaces blanks) : executeScript c (blanks ++ ch '[' :: rest) ≠ .ok t :=
  start_never_runs bracket_start (no_such_name _ (.inl rfl)) blanks hb rest c t

/-- **C83**: no text is a script in JSON and also a script that can succeed in the default syntax. -/
theorem C83_json_never_runs (script : Bytes) (program : List Value) (hp : parseJsonString script = .ok program) (c t : Bytes) :
    executeScript c script ≠ .ok t := by
  rcases (C43_text script program).1 hp with ⟨⟨w, b, v, rfl, hw, hs, _, _⟩, _⟩ | ⟨l, ⟨w, b, v, rfl, hw, hs, _, _⟩, _⟩
  · cases hs
    exact start_never_runs n_start (no_such_name _ (.inr rfl)) w hw _ c t
  · cases hs with
    | empty _ => exact start_never_runs bracket_start (no_such_name _ (.inl rfl)) w hw _ c t
    | arr _ => exact start_never_runs bracket_start (no_such_name _ (.inl rfl)) w hw _ c t

/-- The result is an error that starts with `pre`. -/
def failsWithPrefix (pre : Bytes) : Res Bytes Bytes → Bool
  | .err e => hasPrefix e pre
  | _ => false

omit [Ext] in
theorem fails_prefix {pre : Bytes} {r : Res Bytes Bytes} (h : failsWithPrefix pre r = true) : ∃ e, r = .err (pre ++ e) := by
  cases r with
  | ok _ => cases h
  | panic => cases h
  | err e =>
    obtain ⟨t, ht⟩ := List.isPrefixOf_iff_prefix.1 h
    exact ⟨t, by rw [ht]⟩

/-- The JSON of the tool descriptions, and what comes of it. -/
theorem C83_false_json :
    @executeScriptWithFormat litExt (b! "a pattern") (b! "[[\"search-forward\", \"pattern\"], [\"replace-match\", \"replacement\"]]") (b! "json") =
      .ok (b! "a replacement") ∧
    (∃ e, @executeScript litExt (b! "a pattern") (b! "[[\"search-forward\", \"pattern\"], [\"replace-match\", \"replacement\"]]") =
      .err (b! "script execution failed: undefined-function " ++ e)) ∧
    (∃ e, @executeScript litExt (b! "a pattern") (b! "[\"search-forward\", \"pattern\"]\n[\"replace-match\", \"replacement\"]") =
      .err (b! "script execution failed: undefined-function " ++ e)) :=
  ⟨by decide +kernel, fails_prefix (by decide +kernel), fails_prefix (by decide +kernel)⟩

end Texted
