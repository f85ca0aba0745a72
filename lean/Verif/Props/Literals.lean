import Verif.Props.Grammar
import Verif.Lemmas.Spelled
/-
C40 (string literals, exactly) and C69 (which words are numbers, and which numbers).
-/
namespace Texted
open Spec

/-! ### One word as an argument -/

theorem tokens_unique {cs : List Char} {a b : List (List Char)} (ha : Tokens cs a) (hb : Tokens cs b) : a = b := by
  have h1 := (tokenize_ok_iff (encodeAll cs) (a.map encodeAll)).2 ⟨a, rfl, by rwa [decodeAll_encodeAll]⟩
  have h2 := (tokenize_ok_iff (encodeAll cs) (b.map encodeAll)).2 ⟨b, rfl, by rwa [decodeAll_encodeAll]⟩
  rw [h1] at h2
  exact map_encodeAll_inj (Except.ok.inj h2)

/-- A script of a single command. -/
theorem parse_one_command {cs : List Char} (h1 : OneCommand cs) (h2 : '\n' ∉ cs) (hne : cs ≠ []) (hhead : ∀ c ∈ cs.head?, isSpace c = false)
    (hlast : ∀ c ∈ cs.getLast?, isSpace c = false) (hlen : (encodeAll cs).length < 65536) (v : Value) :
    parseString (encodeAll cs) = .ok [v] ↔ CommandReads cs v := by
  have hnl : ∀ x ∈ encodeAll cs, x ≠ nl := by
    intro x hx e
    subst e
    obtain ⟨c, hc, hm⟩ := List.mem_flatMap.1 (show nl ∈ cs.flatMap encodeRune from hx)
    have := mem_encodeRune hm (by decide)
    have : c = '\n' := char_eq_of_toNat this
    exact h2 (this ▸ hc)
  have htrim : trimmed cs = cs := by
    unfold trimmed
    have e1 : cs.dropWhile isSpace = cs := by
      cases cs with
      | nil => rfl
      | cons c r => rw [List.dropWhile_cons, if_neg (by rw [hhead c (by simp)]; decide)]
    have e2 : cs.reverse.dropWhile isSpace = cs.reverse := by
      cases hr : cs.reverse with
      | nil => rfl
      | cons c r =>
        have : cs.getLast? = some c := by rw [← List.head?_reverse, hr]; rfl
        rw [List.dropWhile_cons, if_neg (by rw [hlast c this]; decide)]
    rw [e1, e2, List.reverse_reverse]
  have hcr : decodeAll (dropCR (encodeAll cs)) = cs := by
    have : dropCR (encodeAll cs) = encodeAll cs := by
      rcases List.eq_nil_or_concat cs with rfl | ⟨r, c, rfl⟩
      · rfl
      · have hc := hlast c (by simp)
        rw [List.concat_eq_append, encodeAll_append, encodeAll_cons, encodeAll_nil, List.append_nil]
        unfold dropCR
        rw [if_neg]
        intro hs
        rw [List.getLast?_append] at hs
        cases hg : (encodeRune c).getLast? with
        | none => exact absurd (List.getLast?_eq_none_iff.1 hg) (encodeRune_ne_nil c)
        | some y =>
          rw [hg] at hs
          simp only [Option.some_or, Option.some.injEq] at hs
          subst hs
          have := mem_encodeRune (List.mem_of_getLast? hg) (by decide)
          have : c = '\r' := char_eq_of_toNat this
          subst this
          exact absurd hc (by decide)
    rw [this, decodeAll_encodeAll]
  unfold parseString scanLines
  rw [splitByte_last nl _ hnl, parseLines_cons _ _ hlen, parseRawLine_eq, hcr]
  rw [show parseLines [] = .ok [] from rfl, Res.cat_ok_nil, segment_iff h1, SegmentReads, htrim]
  constructor
  · rintro ⟨_, ⟨h, _⟩ | ⟨_, w, h, e⟩⟩
    · exact absurd h hne
    · cases e; exact h
  · intro h
    exact ⟨h1, .inr ⟨hne, v, h, rfl⟩⟩

/-- C42. What a word means as the argument of a command is what the grammar says about the word: a string literal, a number or a symbol —
or nothing, and then the script is rejected. -/
theorem C42_argument (w : List Char) (hw : Word w) (hne : w ≠ []) (h1 : OneCommand w) (h2 : '\n' ∉ w)
    (hlast : ∀ c ∈ w.getLast?, isSpace c = false) (hlen : (encodeAll w).length < 65526) (v : Value) :
    parseString (b! "goto-char " ++ encodeAll w) = .ok [.list [.sym (b! "goto-char"), v]] ↔ AtomReads w v := by
  have hg : Word "goto-char".toList := word_of_names (by unfold nameChar; decide)
  have e : b! "goto-char " ++ encodeAll w = encodeAll ("goto-char ".toList ++ w) := by
    rw [encodeAll_append]; rfl
  have ht : Tokens ("goto-char ".toList ++ w) ["goto-char".toList, w] := by
    have t1 : Tokens w [w] := by
      have := Tokens.word w [] [] hw hne (by simp) .nil
      rwa [List.append_nil] at this
    have t2 : Tokens (' ' :: w) [w] := .blank ' ' w _ (.inl rfl) t1
    exact Tokens.word "goto-char".toList (' ' :: w) [w] hg (by decide) (by intro c hc; cases hc; exact .inl (.inl rfl)) t2
  have hsym : AtomReads "goto-char".toList (.sym (b! "goto-char")) := by
    rw [← parseToken_iff]; decide +kernel
  have ho : OneCommand ("goto-char ".toList ++ w) := by
    have : ∀ r : List Char, (∀ c ∈ r, c ≠ '"' ∧ c ≠ ';') → OneCommand (r ++ w) := by
      intro r
      induction r with
      | nil => intro _; exact h1
      | cons c r ih => intro h; exact .char c _ (h c (by simp)).1 (h c (by simp)).2 (ih fun d hd => h d (by simp [hd]))
    exact this _ (by decide)
  rw [e, parse_one_command ho (by
      intro h
      rcases List.mem_append.1 h with h | h
      · exact absurd h (by decide)
      · exact h2 h) (by simp) (by intro c hc; cases hc; decide)
      (by
        intro c hc
        rw [List.getLast?_append] at hc
        cases hl : w.getLast? with
        | none => exact absurd (List.getLast?_eq_none_iff.1 hl) hne
        | some y => rw [hl] at hc; cases hc; exact hlast _ hl)
      (by rw [← e, List.length_append]; simp; omega), CommandReads, if_neg (by simp)]
  constructor
  · rintro ⟨ts, vs, k1, k2, k3⟩
    rw [tokens_unique k1 ht] at k2
    cases k3
    generalize hts : ["goto-char".toList, w] = ts at k2
    cases k2 with
    | atom t v' ts' vs' _ _ _ k2 =>
      cases hts
      generalize hts : [w] = ts at k2
      cases k2 with
      | atom t v' ts' vs' _ _ k3 _ => cases hts; exact k3
      | list inner l ts' vs' _ _ => simp at hts
  · intro h
    refine ⟨_, _, ht, .atom _ _ _ _ (by decide) (by decide) hsym (.atom _ _ _ _ ?_ ?_ h .nil), rfl⟩
    · rintro rfl; exact absurd rfl (word_not_paren hw).1
    · rintro rfl; exact absurd rfl (word_not_paren hw).2

/-- Non-vacuity of `C42_argument`: a literal with a semicolon and a space in it. -/
example : AtomReads "\"a; b\"".toList (.str (b! "a; b")) := by
  rw [← parseToken_iff]; decide +kernel

/-! ### C40 -/

/-- C40, exactly. A token is read as the string `s` if and only if it is a string literal for `s`, as the Go language defines string literals. -/
theorem C40_literal_exact (w : List Char) (s : Bytes) : parseToken (encodeAll w) = .ok (.str s) ↔ StringLit w s := by
  rw [parseToken_iff]
  constructor
  · intro h; cases h with | str _ h => exact h
  · exact .str w s

/-- C40. A token in double quotes that is no string literal is an error, never a symbol or a number. -/
theorem C40_bad_literal (w : List Char) (hq : Quoted w) (h : ∀ s, ¬ StringLit w s) : ∃ e, parseToken (encodeAll w) = .error e := by
  cases hp : parseToken (encodeAll w) with
  | error e => exact ⟨e, rfl⟩
  | ok v =>
    exfalso
    cases (parseToken_iff w v).1 hp with
    | str s h' => exact h s h'
    | num x h' => exact h' hq
    | sym h' => exact h' hq

theorem digits_plain {base : Nat} {ds : List Char} (h : DigitsOf base ds) : ∀ c ∈ ds, c ≠ '"' ∧ c ≠ '\\' ∧ c ≠ '\n' := by
  intro c hc
  obtain ⟨d, hd, _⟩ := h c hc
  refine ⟨?_, ?_, ?_⟩ <;> (rintro rfl; exact absurd hd (by simp [digit?]))

theorem strBody_digits {ds r : List Char} (h : ∀ c ∈ ds, c ≠ '"' ∧ c ≠ '\\' ∧ c ≠ '\n') (hr : StrBody r) : StrBody (ds ++ r) := by
  induction ds with
  | nil => exact hr
  | cons c ds ih => exact .char c _ (h c (by simp)).1 (h c (by simp)).2.1 (ih fun d hd => h d (by simp [hd]))

theorem litBody_plain {body : List Char} {s : Bytes} (h : LitBody body s) : StrBody body ∧ '\n' ∉ body := by
  induction h with
  | nil => exact ⟨.nil, by simp⟩
  | char c r o h1 h2 h3 _ ih =>
    refine ⟨.char c r h1 h2 ih.1, ?_⟩
    intro hm; rcases List.mem_cons.1 hm with rfl | hm
    · exact h3 rfl
    · exact ih.2 hm
  | simple e x r o he _ ih =>
    refine ⟨.esc e r ih.1, ?_⟩
    intro hm
    simp only [List.mem_cons] at hm
    rcases hm with hm | rfl | hm
    · exact absurd hm (by decide)
    · simp [simpleEscapes] at he
    · exact ih.2 hm
  | hex ds r o hd hl _ ih =>
    have hp := digits_plain hd
    refine ⟨.esc 'x' _ (strBody_digits hp ih.1), ?_⟩
    intro hm
    simp only [List.mem_cons, List.mem_append] at hm
    rcases hm with hm | hm | hm | hm
    · exact absurd hm (by decide)
    · exact absurd hm (by decide)
    · exact (hp _ hm).2.2 rfl
    · exact ih.2 hm
  | octal ds r o hd hl hv _ ih =>
    have hp := digits_plain hd
    cases ds with
    | nil => cases hl
    | cons c ds =>
      refine ⟨.esc c _ (strBody_digits (fun d hd => hp d (by simp [hd])) ih.1), ?_⟩
      intro hm
      simp only [List.cons_append, List.mem_cons, List.mem_append] at hm
      rcases hm with hm | hm | hm | hm
      · exact absurd hm (by decide)
      · exact (hp c (by simp)).2.2 hm.symm
      · exact (hp _ (by simp [hm])).2.2 rfl
      · exact ih.2 hm
  | unicode u ds r o hu hd hv _ ih =>
    have hp := digits_plain hd
    refine ⟨.esc u _ (strBody_digits hp ih.1), ?_⟩
    intro hm
    simp only [List.mem_cons, List.mem_append] at hm
    rcases hm with hm | hm | hm | hm
    · exact absurd hm (by decide)
    · rcases hu with ⟨rfl, _⟩ | ⟨rfl, _⟩ <;> exact absurd hm (by decide)
    · exact (hp _ hm).2.2 rfl
    · exact ih.2 hm

/-- C40. Every string literal, used as an argument in a script, is the string it stands for. -/
theorem C40_every_literal_in_script (w : List Char) (s : Bytes) (h : StringLit w s) (hlen : (encodeAll w).length < 65526) :
    parseString (b! "goto-char " ++ encodeAll w) = .ok [.list [.sym (b! "goto-char"), .str s]] := by
  obtain ⟨body, rfl, hb⟩ := h
  obtain ⟨p1, p2⟩ := litBody_plain hb
  refine (C42_argument _ (.lit body [] p1 .nil) (by simp) (.lit body [] p1 .nil) ?_ ?_ hlen _).2 (.str _ _ ⟨body, rfl, hb⟩)
  · intro hm
    simp only [List.mem_cons, List.mem_append, List.not_mem_nil, or_false] at hm
    rcases hm with hm | hm | hm
    · exact absurd hm (by decide)
    · exact p2 hm
    · exact absurd hm (by decide)
  · intro c hc
    have : c = '"' := by simpa [List.getLast?_cons, eq_comm] using hc
    subst this; decide

/-- C40, what may surprise. Text that only begins with a literal is a symbol — neither the string nor an error. -/
theorem C40_literal_with_tail_is_a_symbol : parseString (b! "insert \"a\"b") = .ok [.list [.sym (b! "insert"), .sym (b! "\"a\"b")]] := by
  decide +kernel

/-- Non-vacuity: a literal with every kind of escape, and one that is none. -/
example : StringLit "\"\\t\\x41\\101\\u00e9é\\U0001F600\"".toList ([9, 65, 65] ++ encodeAll "éé😀".toList) := by
  rw [← C40_literal_exact]; decide +kernel
example : ∀ s, ¬ StringLit "\"\\q\"".toList s := by
  intro s h
  rw [← unquote_iff] at h
  rw [show unquote (encodeAll "\"\\q\"".toList) = none from by decide +kernel] at h
  cases h

/-! ### C69 -/

theorem plain_word {w : List Char} (hp : ∀ c ∈ w, nameChar c) : Word w ∧ OneCommand w ∧ '\n' ∉ w ∧ (∀ c ∈ w.getLast?, isSpace c = false) ∧
    ¬ Quoted w :=
  ⟨word_of_names hp, .of_names fun c hc => ⟨(hp c hc).2.2.2.1, (hp c hc).2.2.2.2⟩, fun h => absurd (hp _ h).1 (by decide),
    fun c hc => (hp c (List.mem_of_getLast? hc)).1, fun h => (hp '"' (List.mem_of_mem_head? h.1)).2.2.2.1 rfl⟩

/-- C69. A plain word in a script is the number `x` if and only if it is the text of a number and `x` is the float64 nearest to that number. -/
theorem C69_number_word (w : List Char) (hne : w ≠ []) (hp : ∀ c ∈ w, nameChar c) (hlen : (encodeAll w).length < 65526) (x : F64) :
    parseString (b! "goto-char " ++ encodeAll w) = .ok [.list [.sym (b! "goto-char"), .num x]] ↔ NumberText (encodeAll w) x := by
  obtain ⟨h1, h2, h3, h4, h5⟩ := plain_word hp
  rw [C42_argument w h1 hne h2 h3 h4 hlen]
  constructor
  · intro h; cases h with | num _ h6 h => exact h
  · exact .num w x h5

/-- C69. A plain word in a script is a symbol if and only if it is not the text of a number. -/
theorem C69_symbol_word (w : List Char) (hne : w ≠ []) (hp : ∀ c ∈ w, nameChar c) (hlen : (encodeAll w).length < 65526) :
    parseString (b! "goto-char " ++ encodeAll w) = .ok [.list [.sym (b! "goto-char"), .sym (encodeAll w)]] ↔
      ∀ x, ¬ NumberText (encodeAll w) x := by
  obtain ⟨h1, h2, h3, h4, h5⟩ := plain_word hp
  rw [C42_argument w h1 hne h2 h3 h4 hlen]
  constructor
  · intro h; cases h with | sym h6 h => exact h
  · exact .sym w h5

/-- C69. A text denotes at most one number. -/
theorem C69_unique (t : Bytes) (x y : F64) (hx : NumberText t x) (hy : NumberText t y) : x = y := by
  have h1 := (parseFloat_iff t x).2 hx
  rw [(parseFloat_iff t y).2 hy] at h1
  exact (Option.some.inj h1).symm

/-- C69. The text of a number that rounds to infinity is not a number (so the word is a symbol). -/
theorem C69_too_great (t : Bytes) (neg : Bool) (n b : Nat) (k : Int) (h : Denotes t neg n b k)
    (hbig : overflow ≤ (n : ℚ) * (b : ℚ) ^ k) (x : F64) : ¬ NumberText t x := by
  intro hx
  have hp := (parseFloat_iff t x).2 hx
  rcases hx with hx | ⟨neg', n', b', k', hd', hu, _⟩
  · rw [← parseSpecial_iff, denotes_not_special h] at hx; cases hx
  · have hr := readFloat_complete h fun _ => (underscoreOK_iff h).2 hu
    rw [parseFloat, denotes_not_special h] at hp
    simp only [hr] at hp
    have hb := denotes_base h
    by_cases hinf : ∃ g, scaled neg n b k = .inf g
    · obtain ⟨g, hg⟩ := hinf
      rw [hg] at hp; cases hp
    · have := (scaled_iff neg n b hb k _).1 ⟨rfl, scaled_not_nan neg n b k hb fun g hg => hinf ⟨g, hg⟩⟩
      exact absurd this.1 (not_lt.2 hbig)

/-- C69. Exponents below 100000 are read as they are written. -/
theorem C69_exponent_exact (ds : Bytes) (h : runValue 10 ds < 100000) (hr : DigitRun 10 ds) : exponentValue ds = runValue 10 ds := by
  rw [numeral_bytes] at *
  unfold exponentValue
  have hd : ∀ c ∈ digitsOnly ds, IsDigit 10 c := by
    intro c hc
    obtain ⟨h1, h2⟩ := List.mem_filter.1 hc
    exact (hr c h1).resolve_right (by simpa using h2)
  generalize digitsOnly ds = l at *
  -- the number only grows
  have mono : ∀ (l : Bytes) (v : Nat), v ≤ l.foldl (fun v c => v * 10 + (digit? (Char.ofNat c.toNat)).getD 0) v := by
    intro l
    induction l with
    | nil => intro v; exact Nat.le_refl v
    | cons c l ih => intro v; rw [List.foldl_cons]; exact Nat.le_trans (by omega) (ih _)
  have key : ∀ (l : Bytes) (v : Nat), l.foldl (fun v c => v * 10 + (digit? (Char.ofNat c.toNat)).getD 0) v < 100000 →
      l.foldl (fun e c => if e < 10000 then e * 10 + (digit? (Char.ofNat c.toNat)).getD 0 else e) v =
      l.foldl (fun v c => v * 10 + (digit? (Char.ofNat c.toNat)).getD 0) v := by
    intro l
    induction l with
    | nil => intro v _; rfl
    | cons c l ih =>
      intro v hv
      rw [List.foldl_cons] at hv ⊢
      have : v < 10000 := by
        have := Nat.lt_of_le_of_lt (mono l _) hv
        omega
      rw [if_pos this, List.foldl_cons]
      exact ih _ hv
  exact key l 0 h

/-- C69, what may surprise. Words that spell infinity or NaN are numbers, so they cannot name anything. -/
theorem C69_inf_and_nan_are_numbers :
    parseString (b! "f inf -Infinity NaN") = .ok [.list [.sym (b! "f"), .num (.inf false), .num (.inf true), .num .nan]] ∧
    parseString (b! "Infinity \"x\"") = .ok [.list [.num (.inf false), .str (b! "x")]] := ⟨by decide +kernel, by decide +kernel⟩

/-- C69. A word is a plain name of the round-trip properties (C35, C36) exactly if it is not the text of a number. -/
theorem C69_plain_name (w : List Char) (hne : w ≠ []) (hp : ∀ c ∈ w, nameChar c) :
    PlainName (encodeAll w) ↔ ∀ x, ¬ NumberText (encodeAll w) x := by
  simp only [← parseFloat_iff]
  constructor
  · rintro ⟨_, _, _, _, h⟩ x hx; rw [h] at hx; cases hx
  · intro h
    refine ⟨w, rfl, hne, hp, ?_⟩
    cases hf : parseFloat (encodeAll w) with
    | none => rfl
    | some x => exact absurd hf (h x)

/-- Non-vacuity of C69: a decimal number with underscores and an exponent, a hexadecimal number, the least positive number, a rounded one,
and texts that are no numbers. -/
example : NumberText (b! "-1_2.50e+1") (.fin true 125 0) := by rw [← parseFloat_iff]; decide +kernel
example : NumberText (b! "0x_1.8p1") (.fin false 3 0) := by rw [← parseFloat_iff]; decide +kernel
example : NumberText (b! "4.9e-324") (.fin false 1 (-1074)) := by rw [← parseFloat_iff]; decide +kernel
example : NumberText (b! "9007199254740993") (.fin false 1 53) := by rw [← parseFloat_iff]; decide +kernel
example : ∀ t ∈ [b! "1_", b! "_1", b! "1__0", b! "1e", b! ".", b! "0x1", b! "1e400", b! "--1", b! "0b1", b! "1 "], ∀ x, ¬ NumberText t x := by
  intro t ht x hx
  have h : ∀ t ∈ [b! "1_", b! "_1", b! "1__0", b! "1e", b! ".", b! "0x1", b! "1e400", b! "--1", b! "0b1", b! "1 "], parseFloat t = none := by
    decide +kernel
  rw [← parseFloat_iff, h t ht] at hx
  cases hx

end Texted
