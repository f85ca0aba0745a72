import Verif.Lemmas.Canon
import Verif.Props.Grammar
/- What the script parser accepts, it can be shown again as an S-expression: every value that some script spells has a
spelling on one line. -/
namespace Texted
open Spec

/-! ### Splitting text at word boundaries -/

theorem strBody_unique {a : List Char} (ha : StrBody a) : ∀ {b x y : List Char}, StrBody b →
    a ++ '"' :: x = b ++ '"' :: y → a = b ∧ x = y := by
  induction ha with
  | nil =>
    intro b x y hb h
    cases hb with
    | nil => simpa using h
    | char c r h1 h2 _ => simp at h; exact absurd h.1.symm h1
    | esc c r _ => simp at h
  | char c r h1 h2 _ ih =>
    intro b x y hb h
    cases hb with
    | nil => simp at h; exact absurd h.1 h1
    | char c' r' h1' h2' hr' =>
      simp only [List.cons_append, List.cons.injEq] at h
      obtain ⟨e, h⟩ := h
      obtain ⟨e', hx⟩ := ih hr' h
      exact ⟨by rw [e, e'], hx⟩
    | esc c' r' hr' => simp only [List.cons_append, List.cons.injEq] at h; exact absurd h.1 h2
  | esc c r _ ih =>
    intro b x y hb h
    cases hb with
    | nil => simp at h
    | char c' r' h1' h2' hr' => simp only [List.cons_append, List.cons.injEq] at h; exact absurd h.1.symm h2'
    | esc c' r' hr' =>
      simp only [List.cons_append, List.cons.injEq, true_and] at h
      obtain ⟨e, h⟩ := h
      obtain ⟨e', hx⟩ := ih hr' h
      exact ⟨by rw [e, e'], hx⟩

theorem oneCommand_tail {c : Char} {r : List Char} (hc : c ≠ '"') (h : OneCommand (c :: r)) : c ≠ ';' ∧ OneCommand r := by
  cases h with
  | char _ _ _ h2 h3 => exact ⟨h2, h3⟩
  | lit => exact absurd rfl hc

theorem oneCommand_lit {s r : List Char} (hs : StrBody s) (h : OneCommand ('"' :: (s ++ '"' :: r))) : OneCommand r := by
  generalize hl : '"' :: (s ++ '"' :: r) = l at h
  cases h with
  | nil => simp at hl
  | char c r' h1 _ _ => simp only [List.cons.injEq] at hl; exact absurd hl.1.symm h1
  | lit s' r' hs' hr' =>
    simp only [List.cons.injEq, true_and] at hl
    obtain ⟨_, rfl⟩ := strBody_unique hs hs' hl
    exact hr'

theorem oneCommand_word {w : List Char} (hw : Word w) : ∀ {r : List Char}, OneCommand (w ++ r) → OneCommand w ∧ OneCommand r := by
  induction hw with
  | nil => intro r h; exact ⟨.nil, h⟩
  | char c w h1 _ _ _ ih =>
    intro r h
    obtain ⟨h2, h3⟩ := oneCommand_tail h1 h
    obtain ⟨h4, h5⟩ := ih h3
    exact ⟨.char c w h1 h2 h4, h5⟩
  | lit s w hs _ ih =>
    intro r h
    have e : '"' :: (s ++ '"' :: w) ++ r = '"' :: (s ++ '"' :: (w ++ r)) := by simp
    rw [e] at h
    obtain ⟨h4, h5⟩ := ih (oneCommand_lit hs h)
    exact ⟨.lit s w hs h4, h5⟩

theorem oneCommand_snoc {l : List Char} (h : OneCommand l) : ∀ {a : List Char} {c : Char}, l = a ++ [c] → c ≠ '"' → OneCommand a := by
  induction h with
  | nil => intro a c h; simp at h
  | char d r h1 h2 _ ih =>
    intro a c h hc
    cases a with
    | nil => exact .nil
    | cons x a =>
      simp only [List.cons_append, List.cons.injEq] at h
      obtain ⟨rfl, h⟩ := h
      exact .char _ _ h1 h2 (ih h hc)
  | lit s r hs hr ih =>
    intro a c h hc
    rcases List.eq_nil_or_concat r with rfl | ⟨r', d, rfl⟩
    · exfalso
      have := congrArg List.getLast? h
      rw [show '"' :: (s ++ ['"']) = ('"' :: s) ++ ['"'] by simp, List.getLast?_concat, List.getLast?_concat] at this
      exact hc (Option.some.inj this).symm
    · rw [List.concat_eq_append] at *
      have e : '"' :: (s ++ '"' :: (r' ++ [d])) = '"' :: (s ++ '"' :: r') ++ [d] := by simp
      rw [e] at h
      obtain ⟨h1, h2⟩ := List.append_inj' h rfl
      simp only [List.cons.injEq, and_true] at h2
      subst h2 h1
      exact .lit _ _ hs (ih rfl hc)

theorem isSpace_ne_quote {c : Char} (h : isSpace c = true) : c ≠ '"' := by
  rintro rfl; revert h; decide

theorem oneCommand_dropWhile {l : List Char} (h : OneCommand l) : OneCommand (l.dropWhile isSpace) := by
  induction l with
  | nil => exact h
  | cons c r ih =>
    rw [List.dropWhile_cons]
    split
    · rename_i hc; exact ih (oneCommand_tail (isSpace_ne_quote hc) h).2
    · exact h

theorem oneCommand_dropEnd (n : Nat) : ∀ (l : List Char), l.length ≤ n → OneCommand l →
    OneCommand (l.reverse.dropWhile isSpace).reverse := by
  induction n with
  | zero => intro l hl h; have e : l = [] := List.eq_nil_of_length_eq_zero (by omega)
            subst e; exact .nil
  | succ n ih =>
    intro l hl h
    rcases List.eq_nil_or_concat l with rfl | ⟨a, c, rfl⟩
    · exact .nil
    · rw [List.concat_eq_append] at *
      rw [List.reverse_append, List.reverse_singleton, List.singleton_append, List.dropWhile_cons]
      split
      · rename_i hc
        exact ih a (by simp at hl; omega) (oneCommand_snoc h rfl (isSpace_ne_quote hc))
      · simpa using h

theorem oneCommand_trimmed {l : List Char} (h : OneCommand l) : OneCommand (trimmed l) :=
  oneCommand_dropEnd _ _ (Nat.le_refl _) (oneCommand_dropWhile h)

theorem mem_trimmed {l : List Char} {c : Char} (h : c ∈ trimmed l) : c ∈ l := by
  have h1 := List.mem_reverse.1 h
  have h2 := List.mem_reverse.1 ((List.dropWhile_sublist _).subset h1)
  exact (List.dropWhile_sublist _).subset h2

/-- The tokens of one command on one line: parentheses, and words that are again one command on one line. -/
theorem tokens_words {cs : List Char} {ts : List (List Char)} (h : Tokens cs ts) : OneCommand cs → '\n' ∉ cs →
    ∀ t ∈ ts, t = ['('] ∨ t = [')'] ∨ (Word t ∧ t ≠ [] ∧ OneCommand t ∧ '\n' ∉ t) := by
  induction h with
  | nil => intro _ _ t ht; simp at ht
  | blank c r ts hb _ ih =>
    intro h1 h2
    have hq : c ≠ '"' := by rintro rfl; revert hb; decide
    exact ih (oneCommand_tail hq h1).2 fun hm => h2 (List.mem_cons_of_mem _ hm)
  | paren c r ts hp _ ih =>
    intro h1 h2 t ht
    have hq : c ≠ '"' := by rintro rfl; revert hp; decide
    rcases List.mem_cons.1 ht with rfl | ht
    · rcases hp with rfl | rfl
      · exact .inl rfl
      · exact .inr (.inl rfl)
    · exact ih (oneCommand_tail hq h1).2 (fun hm => h2 (List.mem_cons_of_mem _ hm)) t ht
  | word w r ts hw hne _ _ ih =>
    intro h1 h2 t ht
    obtain ⟨h3, h4⟩ := oneCommand_word hw h1
    rcases List.mem_cons.1 ht with rfl | ht
    · exact .inr (.inr ⟨hw, hne, h3, fun hm => h2 (List.mem_append_left _ hm)⟩)
    · exact ih h4 (fun hm => h2 (List.mem_append_right _ hm)) t ht

/-! ### Values that scripts spell -/

mutual
/-- A value that can be spelled on one line: its symbols are words (without newlines, and without semicolons outside
literals) that read as symbols, its numbers are float64s. -/
def Spelled : Value → Prop
  | .sym n => ∃ w, n = encodeAll w ∧ Word w ∧ w ≠ [] ∧ OneCommand w ∧ '\n' ∉ w ∧ parseToken n = .ok (.sym n)
  | .str _ => True
  | .num x => x.Canon
  | .list l => SpelledAll l
@[inherit_doc Spelled]
def SpelledAll : List Value → Prop
  | [] => True
  | v :: vs => Spelled v ∧ SpelledAll vs
end

theorem spelledAll_iff (l : List Value) : SpelledAll l ↔ ∀ v ∈ l, Spelled v := by
  induction l with
  | nil => simp [SpelledAll]
  | cons v l ih => simp [SpelledAll, ih]

/-- A word of a line spells a value that can be spelled. -/
theorem parseToken_spelled {w : List Char} {v : Value} (hw : Word w) (hne : w ≠ []) (h1 : OneCommand w) (h2 : '\n' ∉ w)
    (h : parseToken (encodeAll w) = .ok v) : Spelled v := by
  have h0 := h
  unfold parseToken at h
  split at h
  · split at h
    · cases h
    · split at h <;> cases h
      trivial
  · split at h
    · rename_i x hx; cases h; exact parseFloat_canon hx
    · cases h; exact ⟨w, rfl, hw, hne, h1, h2, h0⟩

theorem readsAll_spelled {ts : List Bytes} {vs : List Value} (h : ByteReads ts vs) :
    (∀ t ∈ ts, t = b! "(" ∨ t = b! ")" ∨ ∃ w, t = encodeAll w ∧ Word w ∧ w ≠ [] ∧ OneCommand w ∧ '\n' ∉ w) → SpelledAll vs := by
  induction h with
  | nil => intro _; trivial
  | atom t v ts vs ha hb hp _ ih =>
    intro hw
    refine ⟨?_, ih fun t ht => hw t (List.mem_cons_of_mem _ ht)⟩
    rcases hw t List.mem_cons_self with h | h | ⟨w, rfl, h1, h2, h3, h4⟩
    · exact absurd h ha
    · exact absurd h hb
    · exact parseToken_spelled h1 h2 h3 h4 hp
  | list inner l ts vs _ _ ih1 ih2 =>
    intro hw
    exact ⟨ih1 fun t ht => hw t (by simp [ht]), ih2 fun t ht => hw t (by simp [ht])⟩

theorem tokens_spelled {cs : List Char} {ts us : List (List Char)} {vs : List Value} (ht : Tokens cs ts) (h1 : OneCommand cs)
    (h2 : '\n' ∉ cs) (hu : ∀ u ∈ us, u ∈ ts) (hr : ByteReads (us.map encodeAll) vs) : SpelledAll vs := by
  refine readsAll_spelled hr fun t hm => ?_
  obtain ⟨w, hw, rfl⟩ := List.mem_map.1 hm
  rcases tokens_words ht h1 h2 w (hu w hw) with rfl | rfl | ⟨a, b, c, d⟩
  · exact .inl rfl
  · exact .inr (.inl rfl)
  · exact .inr (.inr ⟨w, rfl, a, b, c, d⟩)

theorem segment_spelled {seg : List Char} {p : List Value} (h : SegmentReads seg p) (hn : '\n' ∉ seg) : SpelledAll p := by
  obtain ⟨h1, ⟨_, rfl⟩ | ⟨_, v, hv, rfl⟩⟩ := h
  · trivial
  · have h1' := oneCommand_trimmed h1
    have hn' : '\n' ∉ trimmed seg := fun hm => hn (mem_trimmed hm)
    rw [commandReads_iff] at hv
    split at hv
    · obtain ⟨u, i, ht, hr⟩ := hv
      exact tokens_spelled ht h1' hn' (fun x hx => List.mem_append_left _ hx) hr
    · obtain ⟨ts, vs, ht, hr, rfl⟩ := hv
      exact ⟨tokens_spelled ht h1' hn' (fun x hx => hx) hr, trivial⟩

theorem spelledAll_append {a b : List Value} (ha : SpelledAll a) (hb : SpelledAll b) : SpelledAll (a ++ b) := by
  rw [spelledAll_iff] at *
  intro v hv
  rcases List.mem_append.1 hv with h | h
  · exact ha v h
  · exact hb v h

theorem line_spelled {cs : List Char} {p : List Value} (h : LineReads cs p) : '\n' ∉ cs → SpelledAll p := by
  induction h with
  | last seg p h => exact segment_spelled h
  | more seg rest p q h _ ih =>
    intro hn
    exact spelledAll_append (segment_spelled h fun hm => hn (by simp [hm])) (ih fun hm => hn (by simp [hm]))

theorem decodeAll_no_nl (n : Nat) : ∀ s : Bytes, s.length ≤ n → nl ∉ s → '\n' ∉ decodeAll s := by
  induction n with
  | zero => intro s hs _; have e : s = [] := List.eq_nil_of_length_eq_zero (by omega)
            subst e; simp [decodeAll, decodeAux]
  | succ n ih =>
    intro s hs hn
    cases s with
    | nil => simp [decodeAll, decodeAux]
    | cons x s =>
      rw [decodeAll_cons]
      intro hm
      rcases List.mem_cons.1 hm with hm | hm
      · by_cases he : (decodeRune (x :: s)).2 = 1 ∧ (decodeRune (x :: s)).1 = runeError
        · rw [he.2] at hm; exact absurd hm (by decide)
        · have := encode_decode (x :: s) (by simp) he
          rw [← hm] at this
          have hx := decodeRune_pos x s
          apply hn
          have e : encodeRune '\n' = [nl] := by decide
          rw [e] at this
          have : nl ∈ (x :: s).take (decodeRune (x :: s)).2 := by rw [← this.1]; simp
          exact List.mem_of_mem_take this
      · have := decodeRune_pos x s
        exact ih _ (by simp at hs ⊢; omega) (fun h => hn (List.mem_of_mem_drop h)) hm

theorem splitByte_no_sep (sep : UInt8) (s : Bytes) : ∀ l ∈ splitByte sep s, sep ∉ l := by
  induction s with
  | nil => simp [splitByte]
  | cons x s ih =>
    rw [splitByte]
    split
    · intro l hl
      rcases List.mem_cons.1 hl with rfl | hl
      · simp
      · exact ih l hl
    · rename_i hx
      split
      · intro l hl; simp only [List.mem_singleton] at hl; subst hl; simp [Ne.symm hx]
      · rename_i l' ls he
        intro l hl
        rcases List.mem_cons.1 hl with rfl | hl
        · have := ih l' (by rw [he]; simp)
          simp [Ne.symm hx, this]
        · exact ih l (by rw [he]; simp [hl])

theorem mem_dropCR {s : Bytes} {x : UInt8} (h : x ∈ dropCR s) : x ∈ s := by
  unfold dropCR at h
  split at h
  · exact (List.dropLast_sublist s).subset h
  · exact h

/-- Every program that the script parser accepts consists of values that can be spelled on one line. -/
theorem parseString_spelled {s : Bytes} {p : List Value} (h : parseString s = .ok p) : SpelledAll p := by
  replace h := (C42_parser_is_grammar s p).1 h
  unfold ScriptReads at h
  have hn := splitByte_no_sep nl s
  generalize splitByte nl s = ls at h hn
  induction h with
  | nil => trivial
  | cons l ls p q _ h2 _ ih =>
    refine spelledAll_append (line_spelled h2 ?_) (ih fun l hl => hn l (by simp [hl]))
    exact decodeAll_no_nl _ _ (Nat.le_refl _) fun hm => hn l (by simp) (mem_dropCR hm)

/-! ### And they are spelled by what the writer prints -/

/-- The text `cs` spells the value `v`. -/
structure Spells (cs : List Char) (v : Value) : Prop where
  ne : cs ≠ []
  one : OneCommand cs
  nonl : '\n' ∉ cs
  toks : ∃ tv, ByteReads (tv.map encodeAll) [v] ∧
    ∀ r ts, (∀ c ∈ r.head?, Spec.blank c ∨ parenthesis c) → Tokens r ts → Tokens (cs ++ r) (tv ++ ts)

theorem word_not_paren {w : List Char} (hw : Word w) : encodeAll w ≠ b! "(" ∧ encodeAll w ≠ b! ")" := by
  have h1 : b! "(" = encodeAll ['('] := rfl
  have h2 : b! ")" = encodeAll [')'] := rfl
  rw [h1, h2]
  constructor <;> intro h <;> have := encodeAll_inj h <;> subst this <;> cases hw <;> (rename_i h _; exact h (by decide))

theorem spells_word {w : List Char} {v : Value} (hw : Word w) (hne : w ≠ []) (h1 : OneCommand w) (h2 : '\n' ∉ w)
    (h : parseToken (encodeAll w) = .ok v) : Spells w v where
  ne := hne
  one := h1
  nonl := h2
  toks := ⟨[w], .atom _ _ _ _ (word_not_paren hw).1 (word_not_paren hw).2 h .nil, fun r ts hr ht => .word w r ts hw hne hr ht⟩

theorem word_of_names {cs : List Char} (h : ∀ c ∈ cs, nameChar c) : Word cs := by
  induction cs with
  | nil => exact .nil
  | cons c r ih =>
    obtain ⟨a, b, d, e, _⟩ := h c (by simp)
    refine .char c r e ?_ ?_ (ih fun x hx => h x (by simp [hx]))
    · rintro (rfl | rfl | rfl | rfl) <;> exact absurd a (by decide)
    · rintro (rfl | rfl)
      · exact b rfl
      · exact d rfl

mutual
theorem spelled_spells [Ext] : ∀ v : Value, Spelled v → ∃ cs, v.toStr = encodeAll cs ∧ Spells cs v
  | .sym n, h => by
    obtain ⟨w, rfl, h1, h2, h3, h4, h5⟩ := h
    exact ⟨w, rfl, spells_word h1 h2 h3 h4 h5⟩
  | .str s, _ => by
    obtain ⟨cs, h1, h2, h3⟩ := quote_text s
    refine ⟨_, h1, spells_word (.lit cs [] h2 .nil) (by simp) (.lit cs [] h2 .nil) ?_ ?_⟩
    · intro hm
      simp only [List.mem_cons, List.mem_append, List.not_mem_nil, or_false] at hm
      rcases hm with hm | hm | hm
      · exact absurd hm (by decide)
      · exact (h3 _ hm).1 rfl
      · exact absurd hm (by decide)
    · rw [← h1]; exact parseToken_str s
  | .num x, h => by
    obtain ⟨cs, h1, h2, h3⟩ := numString_name x h
    refine ⟨cs, h1, spells_word (word_of_names h3) h2 (.of_names fun c hc => ⟨(h3 c hc).2.2.2.1, (h3 c hc).2.2.2.2⟩) ?_ ?_⟩
    · intro hm; exact absurd (h3 _ hm).1 (by decide)
    · rw [← h1]; exact (parseToken_atom (.num x) h trivial).1
  | .list l, h => by
    obtain ⟨cs, h1, h2, h3, tv, h4, h5⟩ := spelled_all l h
    refine ⟨'(' :: (cs ++ [')']), ?_, ?_⟩
    · rw [Value.toStr, h1, encodeAll_cons, encodeAll_append]; rfl
    · refine ⟨by simp, ?_, ?_, ['('] :: (tv ++ [[')']]), ?_, ?_⟩
      · exact .char _ _ (by decide) (by decide) (h2.append (.char _ _ (by decide) (by decide) .nil))
      · intro hm
        simp only [List.mem_cons, List.mem_append, List.not_mem_nil, or_false] at hm
        rcases hm with hm | hm | hm
        · exact absurd hm (by decide)
        · exact h3 hm
        · exact absurd hm (by decide)
      · have : (['('] :: (tv ++ [[')']])).map encodeAll = b! "(" :: (tv.map encodeAll ++ b! ")" :: []) := by
          simp only [List.map_cons, List.map_append, List.map_nil]; rfl
        rw [this]
        exact .list _ _ _ _ h4 .nil
      · intro r ts _ ht
        have h6 := h5 (')' :: r) ([')'] :: ts) (by intro c hc; simp at hc; subst hc; exact .inr (.inr rfl)) (.paren _ _ _ (.inr rfl) ht)
        have := Tokens.paren '(' _ _ (.inl rfl) h6
        simpa using this
theorem spelled_all [Ext] : ∀ l : List Value, SpelledAll l → ∃ cs, Value.toStrs l = encodeAll cs ∧ OneCommand cs ∧ '\n' ∉ cs ∧
    ∃ tv, ByteReads (tv.map encodeAll) l ∧
      ∀ r ts, (∀ c ∈ r.head?, Spec.blank c ∨ parenthesis c) → Tokens r ts → Tokens (cs ++ r) (tv ++ ts)
  | [], _ => ⟨[], rfl, .nil, by simp, [], .nil, fun r ts _ h => h⟩
  | [v], h => by
    obtain ⟨cs, h1, h2⟩ := spelled_spells v h.1
    exact ⟨cs, by rw [Value.toStrs, h1], h2.one, h2.nonl, h2.toks⟩
  | v :: w :: r, h => by
    obtain ⟨cs, h1, h2⟩ := spelled_spells v h.1
    obtain ⟨tv, h3, h4⟩ := h2.toks
    obtain ⟨ds, g1, g2, g3, tw, g4, g5⟩ := spelled_all (w :: r) h.2
    refine ⟨cs ++ ' ' :: ds, ?_, h2.one.append (.char _ _ (by decide) (by decide) g2), ?_, tv ++ tw, ?_, ?_⟩
    · rw [Value.toStrs, h1, g1, encodeAll_append, encodeAll_cons, List.append_assoc]; rfl
    · intro hm
      simp only [List.mem_append, List.mem_cons] at hm
      rcases hm with hm | hm | hm
      · exact h2.nonl hm
      · exact absurd hm (by decide)
      · exact g3 hm
    · rw [List.map_append]; exact h3.append g4
    · intro r' ts hr ht
      have := h4 (' ' :: (ds ++ r')) (tw ++ ts) (by intro c hc; simp at hc; subst hc; exact .inl (.inl rfl))
        (.blank _ _ _ (.inl rfl) (g5 r' ts hr ht))
      simpa using this
end

end Texted
