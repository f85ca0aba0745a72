import Verif.Props.Syntax
/-
C38 (same program in all syntaxes) and C39 (semicolons).
-/
namespace Texted
open Spec

/-! ### C38 -/

/-- Reading words one by one. -/
def readWords : List Bytes → Except Bytes (List Value)
  | [] => .ok []
  | t :: ts =>
    match parseToken t with
    | .error e => .error e
    | .ok v => match readWords ts with
      | .ok vs => .ok (v :: vs)
      | .error e => .error e

theorem IsWord.text {t : Bytes} (h : IsWord t) : TextOf t [t] ∧ t ≠ b! "(" ∧ t ≠ b! ")" ∧ hasPrefix t (b! "(") = false := by
  rcases h with ⟨cs, rfl, h2, h3⟩ | ⟨s, rfl, h2, h3⟩
  · obtain ⟨k1, k2, k3⟩ := name_head h2 h3
    refine ⟨TextOf.name rfl h2 h3, k2, k3, ?_⟩
    obtain ⟨c, r, rfl⟩ := List.exists_cons_of_ne_nil h2
    obtain ⟨x, t, he, ha, hb⟩ := encodeRune_head c
    have hx : x ≠ 40 := by
      rintro rfl
      by_cases h128 : c.toNat < 128
      · exact (h3 c (by simp)).2.1 (char_eq_of_toNat (ha h128).1.symm)
      · have := hb (by omega); revert this; decide
    rw [encodeAll_cons, he]
    simp only [hasPrefix, List.cons_append, List.isPrefixOf, Bool.and_eq_false_iff, beq_eq_false_iff_ne]
    exact Or.inl fun h => hx h.symm
  · refine ⟨TextOf.lit h2 h3, ?_, ?_, ?_⟩
    · rw [encodeAll_cons]; intro h; have := congrArg List.head? h
      exact absurd (Option.some.inj this) (by decide)
    · rw [encodeAll_cons]; intro h; have := congrArg List.head? h
      exact absurd (Option.some.inj this) (by decide)
    · rw [encodeAll_cons]; rfl

theorem words_text (ts : List Bytes) (hne : ts ≠ []) (h : ∀ t ∈ ts, IsWord t) : TextOf (joinWith (b! " ") ts) ts := by
  induction ts with
  | nil => exact absurd rfl hne
  | cons t ts ih =>
    cases ts with
    | nil => exact (IsWord.text (h t (by simp))).1
    | cons u r =>
      have h1 := (IsWord.text (h t (by simp))).1
      have h2 := ih (by simp) fun w hw => h w (by simp [hw])
      have := h1.space h2
      simpa [joinWith] using this

theorem shellLoop_words (ts : List Bytes) (h : ∀ t ∈ ts, IsWord t) : ∀ f, ts.length < f →
    shellLoop f ts = match readWords ts with | .ok vs => .ok vs | .error e => .err e := by
  induction ts with
  | nil =>
    intro f hf
    cases f with
    | zero => simp at hf
    | succ f => rfl
  | cons t ts ih =>
    intro f hf
    cases f with
    | zero => simp at hf
    | succ f =>
      obtain ⟨_, h1, h2, _⟩ := IsWord.text (h t (by simp))
      have ih := ih (fun w hw => h w (by simp [hw])) f (by simp only [List.length_cons] at hf; omega)
      rw [shellLoop, if_neg h1, if_neg h2, readWords]
      cases parseToken t with
      | error e => rfl
      | ok v =>
        simp only
        rw [ih]
        cases readWords ts <;> rfl

theorem parseList_words (ts : List Bytes) (h : ∀ t ∈ ts, IsWord t) : ∀ f, ts.length + 1 < f →
    parseList f (ts ++ [b! ")"]) = match readWords ts with | .ok vs => .ok (vs, []) | .error e => .err e := by
  induction ts with
  | nil =>
    intro f hf
    cases f with
    | zero => simp at hf
    | succ f => rfl
  | cons t ts ih =>
    intro f hf
    cases f with
    | zero => simp at hf
    | succ f =>
      cases f with
      | zero => simp at hf
      | succ f =>
        obtain ⟨_, h1, h2, _⟩ := IsWord.text (h t (by simp))
        have ih := ih (fun w hw => h w (by simp [hw])) (f + 1) (by simp only [List.length_cons] at hf; omega)
        rw [List.cons_append, parseList, if_neg h2, parseTokens, if_neg h1, if_neg h2, readWords]
        cases parseToken t with
        | error e => rfl
        | ok v =>
          simp only
          rw [ih]
          cases readWords ts <;> rfl

theorem join_head (ts : List Bytes) (hne : ts ≠ []) (h : ∀ t ∈ ts, IsWord t) : hasPrefix (joinWith (b! " ") ts) (b! "(") = false := by
  cases ts with
  | nil => exact absurd rfl hne
  | cons t ts =>
    obtain ⟨h1, _, _, h4⟩ := IsWord.text (h t (by simp))
    cases ts with
    | nil => exact h4
    | cons u r =>
      obtain ⟨_, _, hne⟩ := h1.trim
      obtain ⟨x, t', rfl⟩ := List.exists_cons_of_ne_nil hne
      rw [joinWith]
      simp only [hasPrefix, List.cons_append, List.isPrefixOf] at h4 ⊢
      exact h4

/-- C38. For any command made of words — names, numbers, string literals, even malformed literals — the shell line
`w1 w2 … wn` and the S-expression `(w1 w2 … wn)` parse to the same program or to the same error. -/
theorem C38_shell_and_sexp_agree (ts : List Bytes) (hne : ts ≠ []) (h : ∀ t ∈ ts, IsWord t)
    (hlen : (joinWith (b! " ") ts).length + 2 < 65536) :
    parseString (joinWith (b! " ") ts) = parseString (b! "(" ++ joinWith (b! " ") ts ++ b! ")") := by
  have ht := words_text ts hne h
  rw [parseString_single ht (by omega), parseString_single ht.paren (by simp; omega)]
  have hs : parseLine (joinWith (b! " ") ts) = match readWords ts with | .ok vs => .ok (.list vs) | .error e => .err e := by
    rw [parseLine, if_neg (by rw [join_head ts hne h]; simp), parseShellLike, ht.tokenize]
    simp only
    rw [shellLoop_words ts h _ (by simp)]
    cases readWords ts <;> rfl
  have hp : hasPrefix (b! "(" ++ joinWith (b! " ") ts ++ b! ")") (b! "(") = true := by simp [hasPrefix]
  have hx : parseLine (b! "(" ++ joinWith (b! " ") ts ++ b! ")") = match readWords ts with | .ok vs => .ok (.list vs) | .error e => .err e := by
    rw [parseLine, if_pos hp, parseSExpression, ht.paren.tokenize]
    simp only [tokenFuel]
    rw [parseTokens, if_pos rfl, parseList_words ts h _ (by simp; omega)]
    cases readWords ts <;> rfl
  rw [hs, hx]

/-- C38. The three syntaxes of one command: the shell line, the S-expression and the JSON array are the same program.
The command is a plain name followed by strings and numbers. -/
theorem C38_three_syntaxes [Ext] (f : Bytes) (args : List Value) (hf : PlainName f)
    (ha : ∀ v ∈ args, (∃ s, v = .str s) ∨ (∃ x, v = .num x ∧ x.Canon))
    (hlen : (Value.toStr (.list (.sym f :: args))).length < 65536) :
    parseString (joinWith (b! " ") ((.sym f :: args).map Value.toStr)) = .ok [.list (.sym f :: args)] ∧
    parseString (b! "(" ++ joinWith (b! " ") ((.sym f :: args).map Value.toStr) ++ b! ")") = .ok [.list (.sym f :: args)] ∧
    convertCommands 0 [.arr (.str f :: valuesToJson args)] = .ok [.list (.sym f :: args)] := by
  have hw : WritableAll args := by
    clear hlen
    induction args with
    | nil => trivial
    | cons v vs ih =>
      refine ⟨?_, ih fun w hw => ha w (by simp [hw])⟩
      rcases ha v (by simp) with ⟨s, rfl⟩ | ⟨x, rfl, hx⟩
      · trivial
      · exact hx
  have hat : ∀ v ∈ Value.sym f :: args, isAtom v := by
    intro v hv
    rcases List.mem_cons.1 hv with rfl | hv
    · trivial
    · rcases ha v hv with ⟨s, rfl⟩ | ⟨x, rfl, _⟩ <;> trivial
  have hwa : WritableAll (.sym f :: args) := ⟨hf, hw⟩
  refine ⟨?_, ?_, ?_⟩
  · rw [toStrs_join, parseString_single (textOf_values _ (by simp) hwa) (by simp only [Value.toStr, List.length_append] at hlen; omega),
      parseLine_shell _ _ hwa hat]
    rfl
  · rw [toStrs_join]
    have := parseString_single (textOf_value (.list (.sym f :: args)) hwa) hlen
    rw [parseLine_list (.sym f :: args) (show Writable (.list (.sym f :: args)) from hwa)] at this
    exact this
  · have h1 : ∀ (args : List Value) i, (∀ v ∈ args, (∃ s, v = .str s) ∨ (∃ x, v = .num x ∧ x.Canon)) →
        validateItems i (valuesToJson args) = none ∧ convertItems i (valuesToJson args) = .ok args := by
      intro args
      induction args with
      | nil => intro i _; simp [valuesToJson, validateItems, convertItems]
      | cons v vs ih =>
        intro i h
        obtain ⟨i1, i2⟩ := ih (i + 1) fun w hw => h w (by simp [hw])
        rcases h v (by simp) with ⟨s, rfl⟩ | ⟨x, rfl, _⟩ <;>
          simp [valuesToJson, valueToJson, validateItems, convertItems, validate, convertItem, i1, i2]
    obtain ⟨i1, i2⟩ := h1 args 1 ha
    simp [convertCommands, validateFormat, validate, convertValue, convertArray, i1, i2]

/-- Non-vacuity of C38. -/
example : PlainName (b! "goto-char") ∧ IsWord (b! "\"a;b\"") ∧ IsWord (b! "12") := by
  refine ⟨⟨['g', 'o', 't', 'o', '-', 'c', 'h', 'a', 'r'], by decide, by decide, ?_, by decide⟩,
    Or.inr ⟨['a', ';', 'b'], by decide, StrBody.of_chars (by decide), by decide⟩, Or.inl ⟨['1', '2'], by decide, by decide, ?_⟩⟩
  · unfold nameChar; decide
  · unfold nameChar; decide

/-! ### C39 -/

theorem dropCR_append (a : Bytes) (x : UInt8) (b : Bytes) (hx : x ≠ 13) : dropCR (a ++ x :: b) = a ++ x :: dropCR b := by
  unfold dropCR
  rw [getLast?_append_ne _ (by simp)]
  cases b with
  | nil => simp [hx]
  | cons y b =>
    have : (x :: y :: b).getLast? = (y :: b).getLast? := by simp [List.getLast?_cons_cons]
    rw [this]
    split
    · rw [List.dropLast_append_of_ne_nil (by simp)]; simp
    · rfl

theorem splitByte_append (sep : UInt8) (a : Bytes) (h : ∀ x ∈ a, x ≠ sep) (b : Bytes) :
    ∃ l ls, splitByte sep b = l :: ls ∧ splitByte sep (a ++ b) = (a ++ l) :: ls := by
  induction a with
  | nil =>
    cases hb : splitByte sep b with
    | nil =>
      exfalso
      cases b with
      | nil => simp [splitByte] at hb
      | cons x b =>
        unfold splitByte at hb
        split at hb
        · cases hb
        · split at hb <;> cases hb
    | cons l ls => exact ⟨l, ls, rfl, by rw [List.nil_append, hb]; rfl⟩
  | cons x a ih =>
    obtain ⟨l, ls, h1, h2⟩ := ih fun y hy => h y (by simp [hy])
    refine ⟨l, ls, h1, ?_⟩
    rw [List.cons_append, splitByte, if_neg (h x (by simp)), h2]
    rfl

/-- The first line of a text. -/
def firstLine (s : Bytes) : Bytes := s.takeWhile (· ≠ nl)

theorem splitByte_firstLine (b : Bytes) : ∃ ls, splitByte nl b = firstLine b :: ls := by
  induction b with
  | nil => exact ⟨[], rfl⟩
  | cons x b ih =>
    obtain ⟨ls, h⟩ := ih
    unfold splitByte firstLine
    rw [List.takeWhile_cons]
    by_cases hx : x = nl
    · exact ⟨splitByte nl b, by simp [hx]⟩
    · refine ⟨ls, ?_⟩
      rw [if_neg hx, h]
      simp [hx, firstLine]

/-- C39. A semicolon outside string literals is exactly a line break: for any text `a` of one line whose literals are
complete and any continuation `b`, `a;b` and `a⏎b` parse to the same result (the joined line below 64 KiB). -/
theorem C39_semicolon_is_newline (a b : Bytes) (hnl : nl ∉ a) (hclosed : Closed (decodeAll a))
    (hlen : (a ++ b! ";" ++ firstLine b).length < 65536) :
    parseString (a ++ b! ";" ++ b) = parseString (a ++ b! "\n" ++ b) := by
  have ha : ∀ x ∈ a, x ≠ nl := fun x hx h => hnl (h ▸ hx)
  have ha' : ∀ x ∈ a ++ b! ";", x ≠ nl := by
    intro x hx
    rcases List.mem_append.1 hx with h | h
    · exact ha x h
    · simp only [List.mem_singleton] at h; subst h; decide
  obtain ⟨ls, hb⟩ := splitByte_firstLine b
  obtain ⟨l, ls', h1, h2⟩ := splitByte_append nl (a ++ b! ";") ha' b
  rw [hb] at h1
  simp only [List.cons.injEq] at h1
  obtain ⟨rfl, rfl⟩ := h1
  unfold parseString scanLines
  have h3 : splitByte nl (a ++ b! "\n" ++ b) = a :: firstLine b :: ls := by
    rw [List.append_assoc]
    show splitByte nl (a ++ nl :: b) = _
    rw [splitByte_line nl a b ha, hb]
  rw [h2, h3]
  simp only [List.length_append, List.length_singleton] at hlen
  have hm : maxToken = 65536 := rfl
  rw [parseLines_cons _ _ (by simp only [List.length_append, List.length_singleton]; omega), parseLines_cons a _ (by omega),
    parseLines_cons _ _ (by omega), ← Res.cat_assoc]
  congr 1
  rw [List.append_assoc, List.singleton_append, dropCR_append a 59 _ (by decide), parseRawLine_dropCR a hclosed,
    parseRawLine_eq, decodeAll_append a 59 _ (by decide), parseRawLine_eq, parseRawLine_eq]
  exact lineCommands_semicolon _ _ hclosed

/-- C39. Inside string literals semicolons are ordinary text: a line whose only semicolons are inside literals is one
command, namely the line without surrounding white space. -/
theorem C39_semicolon_in_literal (cs : List Char) (h : OneCommand cs) :
    parseRawLine (encodeAll cs) = if trimChars cs = [] then .ok [] else (parseLine (encodeAll (trimChars cs))).bind fun v => .ok [v] := by
  rw [parseRawLine_eq, decodeAll_encodeAll, lineCommands]
  rw [show ({} : Lex) = { parts := [], current := [] } from rfl, splitStep_one h, commands_eq]
  simp only [List.nil_append, List.map_singleton, parseCommands_cons, parseCommand, trimSpace_encodeAll, encodeAll_eq_nil]
  split <;> simp [parseCommands, Res.cat_ok_nil]

/-- C39. Printed commands joined with `; ` on one line parse to those commands in order. -/
theorem C39_commands_on_one_line [Ext] (p : List Value) (hw : WritableAll p) (hl : ∀ v ∈ p, isList v)
    (hlen : (joinWith (b! "; ") (p.map Value.toStr)).length < 65536) :
    parseString (joinWith (b! "; ") (p.map Value.toStr)) = .ok p := by
  have key : ∀ p : List Value, WritableAll p → (∀ v ∈ p, isList v) → ∃ cs, joinWith (b! "; ") (p.map Value.toStr) = encodeAll cs ∧
      (∀ c ∈ cs, c ≠ '\n' ∧ c ≠ '\r') ∧ lineCommands cs = .ok p := by
    intro p hw hl
    induction p with
    | nil => exact ⟨[], rfl, by simp, rfl⟩
    | cons v p ih =>
      obtain ⟨ds, i1, i2, i3⟩ := ih hw.2 fun w hw => hl w (by simp [hw])
      have hv := hl v (by simp)
      cases v with
      | list l =>
        have ht := textOf_value (.list l) hw.1
        have hraw := ht.raw
        have hpl := parseLine_list l hw.1
        obtain ⟨cs, tcs, h1, _, h3, h4, h5, h6, _⟩ := ht
        rw [dropCR_id (by rw [h1]; intro x hx; rintro rfl; obtain ⟨c, hc, he⟩ := mem_encodeAll hx (by decide); exact (h6 c hc).2 (char_eq_of_toNat he)),
          parseRawLine_eq, hpl, h1, decodeAll_encodeAll] at hraw
        have hq := closed_iff cs
        have hclosed : Closed cs := by
          have := splitStep_one h5 [] []
          have hq' := foldl_q splitStep splitStep_q cs { parts := [], current := [] }
          rw [this] at hq'
          rw [← hq]
          have : cs.foldl qstep (false, false) = (false, false) := hq'.symm
          rw [this]
        cases p with
        | nil =>
          refine ⟨cs, by simpa [joinWith] using h1, h6, ?_⟩
          rw [hraw]; rfl
        | cons w r =>
          refine ⟨cs ++ ';' :: ' ' :: ds, ?_, ?_, ?_⟩
          · rw [List.map_cons, List.map_cons, joinWith]
            rw [List.map_cons] at i1
            rw [i1, h1, encodeAll_append, encodeAll_cons, encodeAll_cons]
            simp only [List.append_assoc]
            rfl
          · intro c hc
            simp only [List.mem_append, List.mem_cons] at hc
            rcases hc with hc | rfl | rfl | hc
            · exact h6 c hc
            · decide
            · decide
            · exact i2 c hc
          · rw [lineCommands_semicolon _ _ hclosed, hraw]
            have : lineCommands (' ' :: ds) = lineCommands ds := by
              rw [← lineCommands_trim, List.dropWhile_cons, if_pos (by decide), lineCommands_trim]
            rw [this, i3]
            rfl
      | _ => exact absurd hv id
  obtain ⟨cs, h1, h2, h3⟩ := key p hw hl
  rw [h1] at hlen ⊢
  unfold parseString scanLines
  have n1 : ∀ x ∈ encodeAll cs, x ≠ nl := by
    intro x hx; rintro rfl
    obtain ⟨c, hc, he⟩ := mem_encodeAll hx (by decide)
    exact (h2 c hc).1 (char_eq_of_toNat he)
  have n2 : ∀ x ∈ encodeAll cs, x ≠ 13 := by
    intro x hx; rintro rfl
    obtain ⟨c, hc, he⟩ := mem_encodeAll hx (by decide)
    exact (h2 c hc).2 (char_eq_of_toNat he)
  rw [splitByte_last nl _ n1, parseLines_cons _ _ hlen, dropCR_id n2, parseRawLine_eq, decodeAll_encodeAll, h3]
  simp [parseLines, Res.cat_ok_nil]

/-- Non-vacuity of C39: the text before the semicolon contains a semicolon and an escaped quote inside a literal. -/
example : Closed (decodeAll (b! "insert \"a;\\\"b\"")) ∧ nl ∉ b! "insert \"a;\\\"b\"" ∧
    parseString (b! "insert \"a;\\\"b\";point") =
      .ok [.list [.sym (b! "insert"), .str (b! "a;\"b")], .list [.sym (b! "point")]] := by
  exact ⟨(closed_iff _).1 rfl, by decide, rfl⟩

/-- C39, why literals must be complete: a semicolon inside an open literal does not separate. -/
theorem C39_false_inside_literal : parseString (b! "insert \"a;b\"") ≠ parseString (b! "insert \"a\nb\"") := by
  have h1 : parseString (b! "insert \"a;b\"") = .ok [.list [.sym (b! "insert"), .str (b! "a;b")]] := rfl
  have h2 : parseString (b! "insert \"a\nb\"") = .err (b! "unterminated string literal") := rfl
  rw [h1, h2]; intro h; cases h

end Texted
