import Verif.Lemmas.Quote
/- The parser on printed text. -/
namespace Texted
open Spec

/-- `s` is one-line text that the lexer turns into the tokens `ts`, with no command separator in it. -/
def TextOf (s : Bytes) (ts : List Bytes) : Prop :=
  ∃ cs tcs, s = encodeAll cs ∧ ts = tcs.map encodeAll ∧ cs ≠ [] ∧ Tight cs ∧ OneCommand cs ∧ (∀ c ∈ cs, c ≠ '\n' ∧ c ≠ '\r') ∧
    ∀ parts, (cs.foldl tokenStep { parts := parts }).flushNonempty = { parts := parts ++ tcs }

theorem done_state {x : Lex} {ps : List (List Char)} (h : x.flushNonempty = { parts := ps }) :
    x.inQuotes = false ∧ x.escapeNext = false := by
  unfold Lex.flushNonempty Lex.flush at h
  split at h
  · rw [h]; simp
  · have h1 := congrArg Lex.inQuotes h
    have h2 := congrArg Lex.escapeNext h
    exact ⟨h1, h2⟩

theorem done_space {x : Lex} {ps : List (List Char)} (h : x.flushNonempty = { parts := ps }) :
    tokenStep x ' ' = { parts := ps } := by
  obtain ⟨h1, h2⟩ := done_state h
  simp [tokenStep, h1, h2, h]

theorem done_paren {x : Lex} {ps : List (List Char)} (h : x.flushNonempty = { parts := ps }) (c : Char) (hc : c = '(' ∨ c = ')') :
    tokenStep x c = { parts := ps ++ [[c]] } := by
  obtain ⟨h1, h2⟩ := done_state h
  rcases hc with rfl | rfl <;> simp [tokenStep, h1, h2, h]

theorem flush_empty (ps : List (List Char)) : ({ parts := ps } : Lex).flushNonempty = { parts := ps } := by
  simp [Lex.flushNonempty]

theorem tokenStep_name (parts : List (List Char)) (cur : List Char) (c : Char) (h : nameChar c) :
    tokenStep { parts := parts, current := cur } c = { parts := parts, current := cur ++ [c] } := by
  obtain ⟨h1, h2, h3, h4, _⟩ := h
  have hs : c ≠ ' ' ∧ c ≠ '\t' ∧ c ≠ '\n' ∧ c ≠ '\r' := by
    refine ⟨?_, ?_, ?_, ?_⟩ <;> (rintro rfl; revert h1; decide)
  unfold tokenStep
  by_cases hb : c = '\\' <;> simp [hb, h2, h3, h4, hs.1, hs.2.1, hs.2.2.1, hs.2.2.2, Lex.write]

theorem tokenStep_names (cs : List Char) (h : ∀ c ∈ cs, nameChar c) : ∀ parts cur,
    cs.foldl tokenStep { parts := parts, current := cur } = { parts := parts, current := cur ++ cs } := by
  induction cs with
  | nil => intro p c; simp
  | cons c cs ih =>
    intro p cur
    rw [List.foldl_cons, tokenStep_name p cur c (h c (by simp)), ih fun d hd => h d (by simp [hd])]
    simp

theorem getLast?_append_ne {α : Type} (a : List α) {b : List α} (h : b ≠ []) : (a ++ b).getLast? = b.getLast? := by
  rw [List.getLast?_append]
  cases hb : b.getLast? with
  | none => exact absurd (List.getLast?_eq_none_iff.1 hb) h
  | some x => rfl

theorem Tight.append {a b : List Char} (ha : Tight a) (hb : Tight b) (hna : a ≠ []) (hnb : b ≠ []) (m : List Char) :
    Tight (a ++ m ++ b) := by
  obtain ⟨x, a', rfl⟩ := List.exists_cons_of_ne_nil hna
  refine ⟨?_, ?_⟩
  · intro c hc; apply ha.1 c; simpa using hc
  · intro c hc
    apply hb.2 c
    rwa [getLast?_append_ne _ hnb] at hc

theorem TextOf.name {n : Bytes} {cs : List Char} (hn : n = encodeAll cs) (hne : cs ≠ []) (h : ∀ c ∈ cs, nameChar c) :
    TextOf n [n] := by
  refine ⟨cs, [cs], hn, by rw [hn]; rfl, hne, ?_, ?_, ?_, ?_⟩
  · exact ⟨fun c hc => (h c (List.mem_of_mem_head? hc)).1, fun c hc => (h c (List.mem_of_mem_getLast? hc)).1⟩
  · exact OneCommand.of_names fun c hc => ⟨(h c hc).2.2.2.1, (h c hc).2.2.2.2⟩
  · intro c hc
    have := (h c hc).1
    constructor <;> (rintro rfl; revert this; decide)
  · intro parts
    rw [tokenStep_names cs h]
    simp [Lex.flushNonempty, Lex.flush, hne]

theorem TextOf.lit {s : List Char} (h : StrBody s) (hnl : ∀ c ∈ s, c ≠ '\n' ∧ c ≠ '\r') :
    TextOf (encodeAll ('"' :: (s ++ ['"']))) [encodeAll ('"' :: (s ++ ['"']))] := by
  refine ⟨'"' :: (s ++ ['"']), ['"' :: (s ++ ['"'])], rfl, rfl, by simp, ?_, ?_, ?_, ?_⟩
  · refine ⟨?_, ?_⟩
    · intro c hc; simp only [List.head?_cons, Option.mem_some_iff] at hc; subst hc; decide
    · intro c hc
      rw [← List.cons_append, getLast?_append_ne _ (by simp)] at hc
      simp only [List.getLast?_singleton, Option.mem_some_iff] at hc; subst hc; decide
  · exact OneCommand.lit s [] h .nil
  · intro c hc
    simp only [List.mem_cons, List.mem_append, List.not_mem_nil, or_false] at hc
    rcases hc with rfl | hc | rfl
    · decide
    · exact hnl c hc
    · decide
  · intro parts
    rw [tokenStep_lit h]
    simp [Lex.flushNonempty, Lex.flush]

theorem TextOf.space {a b : Bytes} {ta tb : List Bytes} (ha : TextOf a ta) (hb : TextOf b tb) :
    TextOf (a ++ b! " " ++ b) (ta ++ tb) := by
  obtain ⟨cs, tcs, rfl, rfl, h1, h2, h3, h4, h5⟩ := ha
  obtain ⟨ds, tds, rfl, rfl, k1, k2, k3, k4, k5⟩ := hb
  refine ⟨cs ++ [' '] ++ ds, tcs ++ tds, ?_, by simp, by simp [h1], h2.append k2 h1 k1 _, ?_, ?_, ?_⟩
  · rw [encodeAll_append, encodeAll_append]; rfl
  · exact (h3.append (OneCommand.of_names (by intro c hc; simp only [List.mem_singleton] at hc; subst hc; decide))).append k3
  · intro c hc
    simp only [List.mem_append, List.mem_singleton] at hc
    rcases hc with (hc | rfl) | hc
    · exact h4 c hc
    · decide
    · exact k4 c hc
  · intro parts
    rw [List.append_assoc, List.foldl_append, List.foldl_append, List.foldl_cons, List.foldl_nil,
      done_space (h5 parts), k5, List.append_assoc]

theorem foldl_open (parts : List (List Char)) (cs : List Char) :
    ('(' :: cs).foldl tokenStep { parts := parts } = cs.foldl tokenStep { parts := parts ++ [['(']] } := by
  rw [List.foldl_cons, done_paren (flush_empty parts) '(' (Or.inl rfl)]

theorem OneCommand.single (c : Char) (h : c ≠ '"' ∧ c ≠ ';') : OneCommand [c] := .char c [] h.1 h.2 .nil

theorem TextOf.paren {a : Bytes} {ta : List Bytes} (ha : TextOf a ta) : TextOf (b! "(" ++ a ++ b! ")") (b! "(" :: (ta ++ [b! ")"])) := by
  obtain ⟨cs, tcs, rfl, rfl, h1, h2, h3, h4, h5⟩ := ha
  refine ⟨'(' :: (cs ++ [')']), ['('] :: (tcs ++ [[')']]), ?_, by simp; decide, by simp, ?_, ?_, ?_, ?_⟩
  · rw [encodeAll_cons, encodeAll_append]; rfl
  · refine ⟨?_, ?_⟩
    · intro c hc; simp only [List.head?_cons, Option.mem_some_iff] at hc; subst hc; decide
    · intro c hc
      rw [← List.cons_append, getLast?_append_ne _ (by simp)] at hc
      simp only [List.getLast?_singleton, Option.mem_some_iff] at hc; subst hc; decide
  · exact .char _ _ (by decide) (by decide) (h3.append (OneCommand.single _ (by decide)))
  · intro c hc
    simp only [List.mem_cons, List.mem_append, List.not_mem_nil, or_false] at hc
    rcases hc with rfl | hc | rfl
    · decide
    · exact h4 c hc
    · decide
  · intro parts
    rw [foldl_open, List.foldl_append, List.foldl_cons, List.foldl_nil, done_paren (h5 _) ')' (Or.inr rfl), flush_empty]
    simp

theorem TextOf.unit : TextOf (b! "()") [b! "(", b! ")"] := by
  refine ⟨['(', ')'], [['('], [')']], by decide, by decide, by simp, ⟨by simp; decide, by simp; decide⟩,
    .char _ _ (by decide) (by decide) (OneCommand.single _ (by decide)), ?_, ?_⟩
  · intro c hc
    simp only [List.mem_cons, List.not_mem_nil, or_false] at hc
    rcases hc with rfl | rfl <;> decide
  · intro parts
    rw [foldl_open, List.foldl_cons, List.foldl_nil, done_paren (flush_empty _) ')' (Or.inr rfl), flush_empty]
    simp

/-! ### what follows from TextOf -/

theorem TextOf.tokenize {s : Bytes} {ts : List Bytes} (h : TextOf s ts) : tokenize s = .ok ts := by
  obtain ⟨cs, tcs, rfl, rfl, h1, h2, h3, h4, h5⟩ := h
  have := h5 []
  unfold Texted.tokenize
  rw [decodeAll_encodeAll]
  simp only [(done_state this).1, Bool.false_eq_true, if_false, this, List.nil_append]

theorem TextOf.trim {s : Bytes} {ts : List Bytes} (h : TextOf s ts) : trimLeft s = s ∧ trimSpace s = s ∧ s ≠ [] := by
  obtain ⟨cs, tcs, rfl, rfl, h1, h2, h3, h4, h5⟩ := h
  refine ⟨?_, ?_, ?_⟩
  · rw [trimLeft_encodeAll, dropWhile_tight cs h2.1]
  · rw [trimSpace_encodeAll, trimChars_tight cs h2]
  · rw [ne_eq, encodeAll_eq_nil]; exact h1

theorem TextOf.split {s : Bytes} {ts : List Bytes} (h : TextOf s ts) : splitOnSemicolons s = [s] := by
  obtain ⟨cs, tcs, rfl, rfl, h1, h2, h3, h4, h5⟩ := h
  unfold splitOnSemicolons
  rw [decodeAll_encodeAll, show (({} : Lex)) = { parts := [], current := [] } from rfl, splitStep_one h3]
  simp [Lex.flushNonempty, Lex.flush, h1]

theorem TextOf.no_nl {s : Bytes} {ts : List Bytes} (h : TextOf s ts) : ∀ x ∈ s, x ≠ 10 ∧ x ≠ 13 := by
  obtain ⟨cs, tcs, rfl, rfl, h1, h2, h3, h4, h5⟩ := h
  intro x hx
  constructor
  · rintro rfl
    obtain ⟨c, hc, he⟩ := mem_encodeAll hx (by decide)
    exact (h4 c hc).1 (char_eq_of_toNat he)
  · rintro rfl
    obtain ⟨c, hc, he⟩ := mem_encodeAll hx (by decide)
    exact (h4 c hc).2 (char_eq_of_toNat he)

theorem dropCR_id {s : Bytes} (h : ∀ x ∈ s, x ≠ 13) : dropCR s = s := by
  unfold dropCR
  rw [if_neg]
  intro hl
  exact h 13 (List.mem_of_getLast? hl) rfl

/-- Sequencing of results. -/
def Res.bind {ε α β : Type} (x : Res ε α) (f : α → Res ε β) : Res ε β :=
  match x with
  | .ok a => f a
  | .err e => .err e
  | .panic => .panic

theorem TextOf.raw {s : Bytes} {ts : List Bytes} (h : TextOf s ts) :
    parseRawLine (dropCR s) = (parseLine s).bind fun v => .ok [v] := by
  obtain ⟨t1, t2, t3⟩ := h.trim
  rw [dropCR_id fun x hx => (h.no_nl x hx).2, parseRawLine, t1, h.split, parseCommands, t2, if_neg t3]
  cases parseLine s <;> simp [parseCommands, Res.bind]

theorem splitByte_line (sep : UInt8) (a b : Bytes) (h : ∀ x ∈ a, x ≠ sep) :
    splitByte sep (a ++ sep :: b) = a :: splitByte sep b := by
  induction a with
  | nil => simp [splitByte]
  | cons x a ih =>
    have hx := h x (by simp)
    rw [List.cons_append, splitByte, if_neg hx, ih fun y hy => h y (by simp [hy])]

theorem splitByte_last (sep : UInt8) (a : Bytes) (h : ∀ x ∈ a, x ≠ sep) : splitByte sep a = [a] := by
  induction a with
  | nil => simp [splitByte]
  | cons x a ih =>
    have hx := h x (by simp)
    rw [splitByte, if_neg hx, ih fun y hy => h y (by simp [hy])]

theorem parseRawLine_nil : parseRawLine [] = .ok [] := rfl

theorem parseLines_nil_line : parseLines [[]] = .ok [] := rfl

/-- Sequencing of the two halves of a program. -/
def Res.cat {ε α : Type} (x y : Res ε (List α)) : Res ε (List α) := x.bind fun a => y.bind fun b => .ok (a ++ b)

theorem parseLines_cons (l : Bytes) (ls : List Bytes) (h : l.length < maxToken) :
    parseLines (l :: ls) = (parseRawLine (dropCR l)).cat (parseLines ls) := by
  rw [parseLines, if_neg (by omega)]
  cases parseRawLine (dropCR l) with
  | ok a =>
    simp only [Res.cat, Res.bind]
    cases parseLines ls <;> rfl
  | err e => rfl
  | panic => rfl

/-! ### tokens of values -/

mutual
/-- The tokens of a printed value. -/
def vtoks [Ext] : Value → List Bytes
  | .list l => b! "(" :: (vtoksL l ++ [b! ")"])
  | v => [v.toStr]
@[inherit_doc vtoks]
def vtoksL [Ext] : List Value → List Bytes
  | [] => []
  | v :: vs => vtoks v ++ vtoksL vs
end

theorem nameChar_tok {x : UInt8} (h : TokByte x) : nameChar (Char.ofNat x.toNat) := by
  obtain ⟨h1, h2, h3, h4, h5, h6, _⟩ := h
  have hn : (Char.ofNat x.toNat).toNat = x.toNat := toNat_ofNat_valid _ (by omega)
  have hne : ∀ d : Char, ∀ y : UInt8, d.toNat = y.toNat → x ≠ y → Char.ofNat x.toNat ≠ d := by
    intro d y hd hx hc
    apply hx
    rw [← UInt8.toNat_inj, ← hd, ← hc, hn]
  refine ⟨?_, hne '(' 40 rfl h4, hne ')' 41 rfl h5, hne '"' 34 rfl h3, hne ';' 59 rfl h6⟩
  simp only [isSpace, hn, Bool.or_eq_false_iff, Bool.and_eq_false_iff, decide_eq_false_iff_not]
  omega

theorem numString_name [Ext] (x : F64) (hc : x.Canon) :
    ∃ cs, numString x = encodeAll cs ∧ cs ≠ [] ∧ ∀ c ∈ cs, nameChar c := by
  have ht := numString_tok x
  have ha : Ascii (numString x) := fun y hy => by have := (ht y hy).2.1; omega
  refine ⟨asciiChars (numString x), (ascii_encodeAll _ ha).symm, ?_, ?_⟩
  · intro h
    rw [asciiChars, List.map_eq_nil_iff] at h
    exact numString_ne_nil x hc h
  · intro c h
    rw [asciiChars, List.mem_map] at h
    obtain ⟨y, hy, rfl⟩ := h
    exact nameChar_tok (ht y hy)

mutual
theorem textOf_value [Ext] : ∀ v : Value, Writable v → TextOf v.toStr (vtoks v)
  | .sym n, h => by
    obtain ⟨cs, h1, h2, h3, _⟩ := h
    exact TextOf.name h1 h2 h3
  | .str s, _ => by
    obtain ⟨cs, h1, h2, h3⟩ := quote_text s
    show TextOf (quote s) [quote s]
    rw [h1]
    exact TextOf.lit h2 h3
  | .num x, h => by
    obtain ⟨cs, h1, h2, h3⟩ := numString_name x h
    exact TextOf.name h1 h2 h3
  | .list l, h => by
    cases l with
    | nil => exact TextOf.unit
    | cons v vs => exact (textOf_values (v :: vs) (by simp) h).paren
theorem textOf_values [Ext] : ∀ (vs : List Value), vs ≠ [] → WritableAll vs →
    TextOf (Value.toStrs vs) (vtoksL vs)
  | [], hne, _ => absurd rfl hne
  | [v], _, h => by
    have := textOf_value v h.1
    simpa [Value.toStrs, vtoksL] using this
  | v :: w :: r, _, h => by
    have h1 := textOf_value v h.1
    have h2 := textOf_values (w :: r) (by simp) h.2
    have := h1.space h2
    simpa [Value.toStrs, vtoksL] using this
end

/-- A token that is not a parenthesis. -/
theorem hasPrefix_quote {x : UInt8} {r : Bytes} : hasPrefix (x :: r) (b! "\"") = (x == 34) := by
  simp [hasPrefix, List.isPrefixOf]; exact Bool.beq_comm

theorem quote_eq [Ext] (s : Bytes) : ∃ m, quote s = 34 :: (m ++ [34]) := ⟨_, rfl⟩

theorem parseToken_str [Ext] (s : Bytes) : parseToken (quote s) = .ok (.str s) := by
  have hu := unquote_quote s
  obtain ⟨m, hm⟩ := quote_eq s
  rw [hm] at hu ⊢
  unfold parseToken
  have h1 : hasPrefix (34 :: (m ++ [34])) (b! "\"") = true := by simp [hasPrefix]
  have h2 : hasSuffix (34 :: (m ++ [34])) (b! "\"") = true := by
    rw [hasSuffix, List.isSuffixOf_iff_suffix]
    exact ⟨34 :: m, by simp⟩
  rw [h1, h2, hu]
  simp

theorem parseToken_plain {n : Bytes} (h : hasPrefix n (b! "\"") = false) :
    parseToken n = .ok (match parseFloat n with | some x => .num x | none => .sym n) := by
  unfold parseToken
  simp only [h, Bool.false_and, Bool.false_eq_true, if_false]
  cases parseFloat n <;> rfl

theorem name_head {cs : List Char} (hne : cs ≠ []) (h : ∀ c ∈ cs, nameChar c) :
    hasPrefix (encodeAll cs) (b! "\"") = false ∧ encodeAll cs ≠ b! "(" ∧ encodeAll cs ≠ b! ")" := by
  obtain ⟨c, r, rfl⟩ := List.exists_cons_of_ne_nil hne
  have hc := h c (by simp)
  obtain ⟨x, t, he, ha, hb⟩ := encodeRune_head c
  have hx : ∀ (d : Char), d.toNat < 128 → c ≠ d → x.toNat ≠ d.toNat := by
    intro d hd hcd hxd
    by_cases h128 : c.toNat < 128
    · exact hcd (char_eq_of_toNat (by rw [← (ha h128).1, hxd]))
    · have := hb (by omega); omega
  rw [encodeAll_cons, he, List.cons_append]
  refine ⟨?_, ?_, ?_⟩
  · rw [hasPrefix_quote, beq_eq_false_iff_ne]
    intro h; exact hx '"' (by decide) hc.2.2.2.1 (by rw [h]; rfl)
  · intro h
    simp only [List.cons.injEq] at h
    exact hx '(' (by decide) hc.2.1 (by rw [h.1]; rfl)
  · intro h
    simp only [List.cons.injEq] at h
    exact hx ')' (by decide) hc.2.2.1 (by rw [h.1]; rfl)

/-- The token of an atom reads back as the atom and is not a parenthesis. -/
theorem parseToken_atom [Ext] (v : Value) (h : Writable v) (ha : isAtom v) :
    parseToken v.toStr = .ok v ∧ v.toStr ≠ b! "(" ∧ v.toStr ≠ b! ")" := by
  cases v with
  | list l => exact absurd ha id
  | str s =>
    refine ⟨parseToken_str s, ?_, ?_⟩ <;> (obtain ⟨m, hm⟩ := quote_eq s; simp [Value.toStr, hm])
  | sym n =>
    obtain ⟨cs, rfl, h2, h3, h4⟩ := h
    obtain ⟨k1, k2, k3⟩ := name_head h2 h3
    refine ⟨?_, k2, k3⟩
    rw [Value.toStr, parseToken_plain k1, h4]
  | num x =>
    have hx : x.Canon := h
    obtain ⟨cs, h1, h2, h3⟩ := numString_name x hx
    obtain ⟨k1, k2, k3⟩ := name_head h2 h3
    rw [← h1] at k1 k2 k3
    refine ⟨?_, k2, k3⟩
    rw [Value.toStr, parseToken_plain k1, parseFloat_numString x hx]

theorem vtoks_pos [Ext] (v : Value) : 1 ≤ (vtoks v).length := by
  cases v <;> simp [vtoks]

theorem vtoks_atom [Ext] (v : Value) (ha : isAtom v) : vtoks v = [v.toStr] := by
  cases v <;> first | rfl | exact absurd ha id

theorem vtoks_head [Ext] (v : Value) (h : Writable v) : ∃ t r, vtoks v = t :: r ∧ t ≠ b! ")" := by
  by_cases ha : isAtom v
  · exact ⟨v.toStr, [], vtoks_atom v ha, (parseToken_atom v h ha).2.2⟩
  · cases v with
    | list l => exact ⟨b! "(", vtoksL l ++ [b! ")"], by rw [vtoks], by decide⟩
    | _ => exact absurd trivial ha

mutual
theorem parseTokens_value [Ext] : ∀ (v : Value) (f : Nat) (rest : List Bytes), Writable v → 2 * (vtoks v).length + 1 ≤ f →
    parseTokens f (vtoks v ++ rest) = .ok (v, rest)
  | .list l, f, rest, h, hf => by
    rw [vtoks] at hf ⊢
    simp only [List.length_cons, List.length_append, List.length_nil] at hf
    cases f with
    | zero => omega
    | succ f =>
      have := parseList_values l f rest h (by omega)
      rw [List.cons_append, parseTokens, if_pos rfl, List.append_assoc, List.singleton_append, this]
  | .sym n, f, rest, h, hf => atom (.sym n) h trivial f rest hf
  | .str s, f, rest, h, hf => atom (.str s) h trivial f rest hf
  | .num x, f, rest, h, hf => atom (.num x) h trivial f rest hf
theorem parseList_values [Ext] : ∀ (vs : List Value) (f : Nat) (rest : List Bytes), WritableAll vs →
    2 * (vtoksL vs).length + 2 ≤ f → parseList f (vtoksL vs ++ b! ")" :: rest) = .ok (vs, rest)
  | [], f, rest, h, hf => by
    cases f with
    | zero => omega
    | succ f => rw [vtoksL, List.nil_append, parseList, if_pos rfl]
  | v :: vs, f, rest, h, hf => by
    rw [vtoksL] at hf ⊢
    simp only [List.length_append] at hf
    have hp := vtoks_pos v
    cases f with
    | zero => omega
    | succ f =>
      have h1 := parseTokens_value v f (vtoksL vs ++ b! ")" :: rest) h.1 (by omega)
      have h2 := parseList_values vs f rest h.2 (by omega)
      obtain ⟨t, r, ht, hne⟩ := vtoks_head v h.1
      rw [List.append_assoc]
      rw [ht] at h1 ⊢
      rw [List.cons_append] at h1 ⊢
      rw [parseList, if_neg hne, h1]
      simp only
      rw [h2]
theorem atom [Ext] (v : Value) (h : Writable v) (ha : isAtom v) (f : Nat) (rest : List Bytes)
    (hf : 2 * (vtoks v).length + 1 ≤ f) : parseTokens f (vtoks v ++ rest) = .ok (v, rest) := by
  obtain ⟨h1, h2, h3⟩ := parseToken_atom v h ha
  rw [vtoks_atom v ha]
  cases f with
  | zero => omega
  | succ f => rw [List.singleton_append, parseTokens, if_neg h2, if_neg h3, h1]
end

end Texted
