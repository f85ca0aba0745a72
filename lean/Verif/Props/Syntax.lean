import Verif.Lemmas.LexState
import Verif.Lemmas.LitExt
import Verif.Model.Writer
import Verif.Model.Json
/-
Properties of the script syntax: C35 (S-expressions), C36 (shell lines), C38 (same program in all syntaxes),
C39 (semicolons), C40 (string literals).
-/
namespace Texted
open Spec

/-! ### C40 -/

/-- C40. A quoted byte string reads back as that byte string — for every byte string, valid UTF-8 or not. -/
theorem C40_quote_roundtrip [Ext] (s : Bytes) : parseToken (quote s) = .ok (.str s) := parseToken_str s

/-- C40. Inside a script: `insert "…"` inserts exactly the quoted string. -/
theorem C40_literal_in_script [Ext] (s : Bytes) (h : (quote s).length < 65529) :
    parseString (b! "insert " ++ quote s) = .ok [.list [.sym (b! "insert"), .str s]] := by
  have hw : Writable (.sym (b! "insert")) := by
    refine ⟨['i', 'n', 's', 'e', 'r', 't'], by decide, by decide, ?_, by decide⟩
    unfold nameChar; decide
  have ht : TextOf (b! "insert" ++ b! " " ++ quote s) ([b! "insert"] ++ [quote s]) :=
    (textOf_value (.sym (b! "insert")) hw).space (textOf_value (.str s) trivial)
  have hs : b! "insert " ++ quote s = b! "insert" ++ b! " " ++ quote s := rfl
  rw [hs]
  unfold parseString scanLines
  rw [splitByte_last nl _ fun x hx => (ht.no_nl x hx).1, parseLines_cons _ _ (by simp [maxToken]; omega), ht.raw]
  have hp : parseLine (b! "insert" ++ b! " " ++ quote s) = .ok (.list [.sym (b! "insert"), .str s]) := by
    unfold parseLine
    rw [if_neg (by simp [hasPrefix]), parseShellLike, ht.tokenize]
    have h1 := parseToken_atom (.sym (b! "insert")) hw trivial
    have h2 := parseToken_atom (.str s) trivial trivial
    simp only [Value.toStr] at h1 h2
    simp [shellLoop, h1, h2]
  rw [hp]
  rfl

/-- Non-vacuity of C40: a string with a newline, a quote, a backslash, an invalid byte and a NUL. -/
example : @quote litExt [10, 34, 92, 255, 0, 65] = b! "\"\\n\\\"\\\\\\xff\\x00A\"" := by decide

/-! ### C35 -/

theorem parseLine_list [Ext] (l : List Value) (h : Writable (.list l)) : parseLine (Value.toStr (.list l)) = .ok (.list l) := by
  have ht := textOf_value (.list l) h
  have hp : hasPrefix (Value.toStr (.list l)) (b! "(") = true := by simp [Value.toStr, hasPrefix]
  rw [parseLine, if_pos hp, parseSExpression, ht.tokenize]
  simp only
  have := parseTokens_value (.list l) (tokenFuel (vtoks (.list l))) [] h (by unfold tokenFuel; omega)
  rw [List.append_nil] at this
  rw [this]

/-- One more line in front of a script. -/
theorem parseString_line {s : Bytes} {ts : List Bytes} (h : TextOf s ts) (hl : s.length < 65536) (rest : Bytes) :
    parseString (s ++ nl :: rest) = ((parseLine s).bind fun v => .ok [v]).cat (parseString rest) := by
  unfold parseString scanLines
  rw [splitByte_line nl _ _ fun x hx => (h.no_nl x hx).1, parseLines_cons _ _ hl, h.raw]

theorem parseString_single {s : Bytes} {ts : List Bytes} (h : TextOf s ts) (hl : s.length < 65536) :
    parseString s = (parseLine s).bind fun v => .ok [v] := by
  unfold parseString scanLines
  rw [splitByte_last nl _ fun x hx => (h.no_nl x hx).1, parseLines_cons _ _ hl, h.raw]
  simp [parseLines, Res.cat_ok_nil]

/-- C35. What the S-expression writer prints, the script parser reads back as the same program: any nesting of lists,
arbitrary byte strings, all float64 numbers (NaN and infinities included) and plain symbols; lines below 64 KiB. -/
theorem C35_sexp_roundtrip [Ext] (p : List Value) (hw : WritableAll p) (hl : ∀ v ∈ p, isList v)
    (hlen : ∀ v ∈ p, v.toStr.length < 65536) :
    (writeSexp p).err = none ∧ parseString (writeSexp p).out = .ok p := by
  refine ⟨rfl, ?_⟩
  simp only [writeSexp]
  induction p with
  | nil => rfl
  | cons v p ih =>
    have h1 := hl v (by simp)
    cases v with
    | list l =>
      have ih := ih hw.2 (fun v hv => hl v (by simp [hv])) (fun v hv => hlen v (by simp [hv]))
      rw [List.flatMap_cons, List.append_assoc, List.singleton_append,
        parseString_line (textOf_value _ hw.1) (hlen _ (by simp)), parseLine_list l hw.1, ih]
      rfl
    | _ => exact absurd h1 id

/-- C35, the writer's lines one by one: every printed list is one line that reads back, wherever it stands. -/
theorem C35_line_roundtrip [Ext] (l : List Value) (hw : Writable (.list l)) (hlen : (Value.toStr (.list l)).length < 65536) (rest : Bytes) :
    parseString (Value.toStr (.list l) ++ nl :: rest) = (Res.ok [.list l]).cat (parseString rest) := by
  rw [parseString_line (textOf_value _ hw) hlen, parseLine_list l hw]
  rfl

/-- Non-vacuity of C35. -/
example : ∃ p : List Value, WritableAll p ∧ (∀ v ∈ p, isList v) ∧ (∀ v ∈ p, (@Value.toStr litExt v).length < 65536) ∧ 1 < p.length := by
  refine ⟨[.list [.sym (b! "a"), .list [.str [10, 34, 255], .num (.fin true 7 (-1))]], .list []], ?_, ?_, ?_, by decide⟩
  · refine ⟨⟨?_, ⟨⟨trivial, ?_, trivial⟩, trivial⟩⟩, trivial, trivial⟩
    · refine ⟨['a'], by decide, by decide, ?_, by decide⟩
      unfold nameChar; decide
    · exact Or.inr (by decide)
  · intro v hv
    simp only [List.mem_cons, List.not_mem_nil, or_false] at hv
    rcases hv with rfl | rfl <;> trivial
  · intro v hv
    simp only [List.mem_cons, List.not_mem_nil, or_false] at hv
    rcases hv with rfl | rfl <;> decide

/-- C35, why symbols must be plain: a symbol with a blank does not survive. -/
theorem C35_false_without_plain_symbols :
    ∃ v, isList v ∧ @parseString (@writeSexp litExt [v]).out ≠ .ok [v] :=
  ⟨.list [.sym (b! "a b")], trivial, by decide⟩

/-- C35, why the program must consist of lists: a bare number comes back as a one-element list. -/
theorem C35_false_without_lists :
    parseString (@writeSexp litExt [.num (.fin false 5 0)]).out = .ok [.list [.num (.fin false 5 0)]] := by decide

/-! ### C36 -/

theorem shellTokens_atoms [Ext] (l : List Value) (ha : ∀ v ∈ l, isAtom v) : shellTokens l = .ok (l.map Value.toStr) := by
  induction l with
  | nil => rfl
  | cons v l ih =>
    have h1 := ha v (by simp)
    have : shellToken v = .ok v.toStr := by
      cases v <;> first | rfl | exact absurd h1 id
    rw [shellTokens, this, ih fun w hw => ha w (by simp [hw])]
    rfl

theorem toStrs_join [Ext] (l : List Value) : joinWith (b! " ") (l.map Value.toStr) = Value.toStrs l := by
  induction l with
  | nil => rfl
  | cons v l ih =>
    cases l with
    | nil => rfl
    | cons w r =>
      rw [List.map_cons, List.map_cons, joinWith, Value.toStrs, ← ih]
      rfl

theorem vtoksL_atoms [Ext] (l : List Value) (ha : ∀ v ∈ l, isAtom v) : vtoksL l = l.map Value.toStr := by
  induction l with
  | nil => rfl
  | cons v l ih =>
    rw [vtoksL, vtoks_atom v (ha v (by simp)), ih fun w hw => ha w (by simp [hw])]
    rfl

theorem shellLoop_atoms [Ext] (l : List Value) (ha : ∀ v ∈ l, isAtom v) (hw : WritableAll l) : ∀ f, l.length < f →
    shellLoop f (l.map Value.toStr) = .ok l := by
  induction l with
  | nil =>
    intro f hf
    cases f with
    | zero => simp at hf
    | succ f => rfl
  | cons v l ih =>
    intro f hf
    cases f with
    | zero => simp at hf
    | succ f =>
      obtain ⟨h1, h2, h3⟩ := parseToken_atom v hw.1 (ha v (by simp))
      rw [List.map_cons, shellLoop, if_neg h2, if_neg h3, h1]
      simp only
      rw [ih (fun w hw => ha w (by simp [hw])) hw.2 f (by simp only [List.length_cons] at hf; omega)]

theorem toStrs_head [Ext] (v : Value) (l : List Value) (hw : Writable v) (ha : isAtom v) :
    hasPrefix (Value.toStrs (v :: l)) (b! "(") = false := by
  have key : ∀ x r (t : Bytes), (x : UInt8) ≠ 40 → hasPrefix (x :: r ++ t) (b! "(") = false := by
    intro x r t hx
    simp only [hasPrefix, List.cons_append, List.isPrefixOf, Bool.and_eq_false_iff, beq_eq_false_iff_ne]
    exact Or.inl fun h => hx h.symm
  have h1 : ∃ x r, v.toStr = x :: r ∧ x ≠ 40 := by
    cases v with
    | list l => exact absurd ha id
    | str s => obtain ⟨m, hm⟩ := quote_eq s; exact ⟨34, _, hm, by decide⟩
    | sym n =>
      obtain ⟨cs, rfl, h2, h3, h4⟩ := hw
      obtain ⟨c, r, rfl⟩ := List.exists_cons_of_ne_nil h2
      obtain ⟨x, t, he, ha', hb⟩ := encodeRune_head c
      refine ⟨x, t ++ encodeAll r, by rw [Value.toStr, encodeAll_cons, he]; rfl, ?_⟩
      rintro rfl
      by_cases h128 : c.toNat < 128
      · exact (h3 c (by simp)).2.1 (char_eq_of_toNat (ha' h128).1.symm)
      · have := hb (by omega); revert this; decide
    | num x =>
      have hx : x.Canon := hw
      have ht := numString_tok x
      cases hs : numString x with
      | nil => exact absurd hs (numString_ne_nil x hx)
      | cons y r =>
        refine ⟨y, r, hs, ?_⟩
        exact (ht y (by rw [hs]; simp)).2.2.2.1
  obtain ⟨x, r, h2, h3⟩ := h1
  cases l with
  | nil =>
    have := key x r [] h3
    rwa [List.append_nil, ← h2] at this
  | cons w l =>
    have := key x r (b! " " ++ Value.toStrs (w :: l)) h3
    rw [← h2, ← List.append_assoc] at this
    exact this

theorem parseLine_shell [Ext] (v : Value) (l : List Value) (hw : WritableAll (v :: l)) (ha : ∀ w ∈ v :: l, isAtom w) :
    parseLine (Value.toStrs (v :: l)) = .ok (.list (v :: l)) := by
  have ht := textOf_values (v :: l) (by simp) hw
  rw [vtoksL_atoms _ ha] at ht
  rw [parseLine, if_neg (by rw [toStrs_head v l hw.1 (ha v (by simp))]; simp), parseShellLike, ht.tokenize]
  simp only
  rw [shellLoop_atoms (v :: l) ha hw _ (by simp)]

/-- A non-empty command without nested lists. -/
def Flat : Value → Prop
  | .list l => l ≠ [] ∧ ∀ v ∈ l, isAtom v
  | _ => False

/-- C36. What the shell writer prints, the script parser reads back as the same program: non-empty flat commands over
plain symbols, arbitrary strings and all numbers; lines below 64 KiB. -/
theorem C36_shell_roundtrip [Ext] (p : List Value) (hw : WritableAll p) (hf : ∀ v ∈ p, Flat v)
    (hlen : ∀ v ∈ p, v.toStr.length < 65536) :
    (writeShell p).err = none ∧ parseString (writeShell p).out = .ok p := by
  induction p with
  | nil => exact ⟨rfl, rfl⟩
  | cons v p ih =>
    obtain ⟨ih1, ih2⟩ := ih hw.2 (fun v hv => hf v (by simp [hv])) (fun v hv => hlen v (by simp [hv]))
    have h1 := hf v (by simp)
    cases v with
    | list l =>
      obtain ⟨hne, ha⟩ := h1
      cases l with
      | nil => exact absurd rfl hne
      | cons w l =>
        have hs : shellString (.list (w :: l)) = .ok (Value.toStrs (w :: l)) := by
          rw [shellString, shellTokens_atoms _ ha]
          · simp only [toStrs_join]
          · simp
        have hlen1 := hlen _ (List.mem_cons_self)
        have hl2 : (Value.toStrs (w :: l)).length < 65536 := by
          simp only [Value.toStr, List.length_append] at hlen1; omega
        rw [writeShell, hs]
        refine ⟨ih1, ?_⟩
        simp only
        rw [List.append_assoc, List.singleton_append, parseString_line (textOf_values _ (by simp) hw.1) hl2,
          parseLine_shell w l hw.1 ha, ih2]
        rfl
    | _ => exact absurd h1 id

/-- C36. The shell writer refuses a program exactly when it contains something that is not a list of atoms; nothing is
dropped silently. -/
theorem C36_writer_refuses [Ext] (p : List Value) :
    (writeShell p).err = none ↔ ∀ v ∈ p, ∃ l, v = .list l ∧ ∀ w ∈ l, isAtom w := by
  have ht : ∀ l : List Value, (∃ ts, shellTokens l = .ok ts) ↔ ∀ w ∈ l, isAtom w := by
    intro l
    induction l with
    | nil => simp [shellTokens]
    | cons v l ih =>
      rw [shellTokens]
      cases v with
      | list l' =>
        simp only [shellToken]
        constructor
        · rintro ⟨ts, h⟩; cases h
        · intro h; exact absurd (h (.list l') (by simp)) id
      | _ =>
        simp only [shellToken, List.mem_cons, forall_eq_or_imp]
        rw [← ih]
        cases shellTokens l <;> simp [isAtom]
  have hs : ∀ v : Value, (∃ s, shellString v = .ok s) ↔ ∃ l, v = .list l ∧ ∀ w ∈ l, isAtom w := by
    intro v
    cases v with
    | list l =>
      cases l with
      | nil => simp [shellString]
      | cons w l =>
        simp only [shellString, Value.list.injEq]
        constructor
        · rintro ⟨s, h⟩
          refine ⟨_, rfl, (ht _).1 ?_⟩
          cases hl : shellTokens (w :: l) with
          | ok ts => exact ⟨ts, rfl⟩
          | error e => rw [hl] at h; cases h
        · rintro ⟨l', rfl, h⟩
          obtain ⟨ts, h'⟩ := (ht _).2 h
          exact ⟨_, by rw [h']⟩
    | _ =>
      constructor
      · rintro ⟨s, h⟩; simp [shellString] at h
      · rintro ⟨l, h, _⟩; cases h
  induction p with
  | nil => simp [writeShell]
  | cons v p ih =>
    simp only [List.mem_cons, forall_eq_or_imp]
    refine Iff.trans ?_ (and_congr (hs v) ih)
    rw [writeShell]
    cases shellString v with
    | error e => simp
    | ok s => simp

/-- Non-vacuity of C36. -/
example : ∃ p : List Value, WritableAll p ∧ (∀ v ∈ p, Flat v) ∧ (∀ v ∈ p, (@Value.toStr litExt v).length < 65536) ∧ p ≠ [] := by
  refine ⟨[.list [.sym (b! "a"), .str [59, 40, 34]]], ⟨⟨?_, trivial, trivial⟩, trivial⟩, ?_, ?_, by simp⟩
  · refine ⟨['a'], by decide, by decide, ?_, by decide⟩
    unfold nameChar; decide
  · intro v hv
    simp only [List.mem_singleton] at hv
    subst hv
    refine ⟨by simp, ?_⟩
    intro w hw
    simp only [List.mem_cons, List.not_mem_nil, or_false] at hw
    rcases hw with rfl | rfl <;> trivial
  · intro v hv
    simp only [List.mem_singleton] at hv
    subst hv; decide

/-- C36, why commands must be non-empty: the empty list is written as an empty line and vanishes. -/
theorem C36_false_empty_command : (@writeShell litExt [.list []]).err = none ∧
    parseString (@writeShell litExt [.list []]).out = .ok [] := by decide

end Texted
