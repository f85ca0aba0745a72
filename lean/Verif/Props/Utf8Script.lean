import Verif.Props.Utf8Engine
import Verif.Props.Ascii
import Verif.Props.Files
import Verif.Lemmas.JsonTextual
/- C73, continued: the strings of scripts, and what is written to files. -/
namespace Texted
open Spec

/-! ### Strings of scripts in the sexp and shell formats -/

/-- A decoded ASCII character was that byte. -/
theorem decode_head_ascii {x : UInt8} {s : Bytes} {c : Char} (hc : c.toNat < 128) (h : (decodeRune (x :: s)).1 = c) :
    x = UInt8.ofNat c.toNat ∧ (decodeRune (x :: s)).2 = 1 := by
  have hne : (decodeRune (x :: s)).1 ≠ runeError := by
    intro he; rw [h] at he; subst he; revert hc; decide
  have := encode_decode (x :: s) (by simp) fun hh => hne hh.2
  rw [h] at this
  have hr := encodeRune_ascii c.toNat hc
  rw [char_ofNat_toNat'] at hr
  rw [hr] at this
  have this := this.1
  have h2 := decodeRune_pos x s
  have h3 := decodeRune_le x s
  have hlen := congrArg List.length this
  simp only [List.length_cons, List.length_nil, List.length_take] at hlen
  have hw : (decodeRune (x :: s)).2 = 1 := by omega
  rw [hw] at this
  simp only [List.take_succ_cons, List.take_zero, List.cons.injEq, and_true] at this
  exact ⟨this.symm, hw⟩

/-- An escape among the decoded characters is one among the bytes. -/
theorem escape_of_decoded (c : Char) (hc : c.toNat < 128) (n : Nat) : ∀ (s : Bytes) (u v : List Char), s.length ≤ n →
    decodeAll s = u ++ '\\' :: c :: v → ∃ u' v', s = u' ++ 92 :: UInt8.ofNat c.toNat :: v' := by
  induction n with
  | zero =>
    intro s u v hn h
    have : s = [] := List.length_eq_zero_iff.1 (by omega)
    subst this
    exact absurd h (by simp [decodeAll, decodeAux])
  | succ n ih =>
    intro s u v hn h
    cases s with
    | nil => exact absurd h (by simp [decodeAll, decodeAux])
    | cons x s =>
      rw [decodeAll_cons] at h
      have hp := decodeRune_pos x s
      cases u with
      | nil =>
        simp only [List.nil_append, List.cons.injEq] at h
        obtain ⟨rfl, hw⟩ := decode_head_ascii (c := '\\') (by decide) h.1
        rw [hw] at h
        simp only [List.drop_succ_cons, List.drop_zero] at h
        cases s with
        | nil => exact absurd h.2 (by simp [decodeAll, decodeAux])
        | cons y s =>
          rw [decodeAll_cons] at h
          simp only [List.cons.injEq] at h
          obtain ⟨rfl, _⟩ := decode_head_ascii hc h.2.1
          exact ⟨[], s, rfl⟩
      | cons d u =>
        simp only [List.cons_append, List.cons.injEq] at h
        obtain ⟨u', v', e⟩ := ih _ u v (by simp only [List.length_drop, List.length_cons] at hn ⊢; omega) h.2
        refine ⟨(x :: s).take (decodeRune (x :: s)).2 ++ u', v', ?_⟩
        rw [List.append_assoc, ← e, List.take_append_drop]

/-- No backslash followed by one of the letters among the characters. -/
def NoEscape (letters : List Char) (cs : List Char) : Prop := ∀ c ∈ letters, ∀ u v, cs ≠ u ++ '\\' :: c :: v

theorem NoEscape.part {letters cs a w r : List Char} (h : NoEscape letters cs) (he : cs = a ++ w ++ r) : NoEscape letters w := by
  intro c hc u v hw
  exact h c hc (a ++ u) (v ++ r) (by rw [he, hw]; simp)

theorem octal_letter {c : Char} (h : ∃ d, digit? c = some d ∧ d < 8) : c ∈ ['0', '1', '2', '3', '4', '5', '6', '7'] := by
  have hr := octal_digit.1 h
  have hc : c = Char.ofNat c.toNat := (char_ofNat_toNat' c).symm
  have h48 : c.toNat = 48 ∨ c.toNat = 49 ∨ c.toNat = 50 ∨ c.toNat = 51 ∨ c.toNat = 52 ∨ c.toNat = 53 ∨ c.toNat = 54 ∨ c.toNat = 55 := by
    omega
  rw [hc]
  rcases h48 with h | h | h | h | h | h | h | h <;> rw [h] <;> decide

/-- The letters of the escapes that name bytes. -/
def byteLetters : List Char := ['x', '0', '1', '2', '3', '4', '5', '6', '7']

theorem litBody_utf8 {cs : List Char} {s : Bytes} (h : LitBody cs s) : NoEscape byteLetters cs → Utf8Text s := by
  have rune : ∀ c : Char, Utf8Text (encodeRune c) := fun c => by simpa [encodeAll] using utf8_of_encode [c]
  induction h with
  | nil => intro _; exact Utf8Text.nil
  | char c r o _ _ _ _ ih => intro hn; exact (rune c).append (ih (hn.part (a := [c]) (r := []) (by simp)))
  | simple e x r o he _ ih =>
    intro hn
    refine Utf8Text.append (u := [x]) ?_ (ih (hn.part (a := ['\\', e]) (r := []) (by simp)))
    apply C73_ascii_utf8
    intro y hy
    rw [List.mem_singleton] at hy
    subst hy
    simp only [simpleEscapes, List.mem_cons, List.not_mem_nil, or_false, Prod.mk.injEq] at he
    rcases he with ⟨_, rfl⟩ | ⟨_, rfl⟩ | ⟨_, rfl⟩ | ⟨_, rfl⟩ | ⟨_, rfl⟩ | ⟨_, rfl⟩ | ⟨_, rfl⟩ | ⟨_, rfl⟩ | ⟨_, rfl⟩ <;> decide
  | hex ds r o _ _ _ _ => intro hn; exact absurd rfl (hn 'x' (by decide) [] (ds ++ r))
  | octal ds r o hd hl _ _ _ =>
    intro hn
    cases ds with
    | nil => simp at hl
    | cons d ds =>
      have := octal_letter (hd d List.mem_cons_self)
      exact absurd rfl (hn d (List.mem_cons_of_mem _ this) [] (ds ++ r))
  | unicode u ds r o _ _ _ _ ih =>
    intro hn
    exact (rune _).append (ih (hn.part (a := '\\' :: u :: ds) (r := []) (by simp)))

theorem litBody_ascii {cs : List Char} {s : Bytes} (h : LitBody cs s) : NoEscape ('u' :: 'U' :: byteLetters) cs →
    (∀ c ∈ cs, c.toNat < 128) → AsciiText s := by
  induction h with
  | nil => intro _ _ x hx; exact nomatch hx
  | char c r o _ _ _ _ ih =>
    intro hn ha
    have hc := ha c List.mem_cons_self
    have hr := encodeRune_ascii c.toNat hc
    rw [char_ofNat_toNat'] at hr
    refine ascii_append ?_ (ih (hn.part (a := [c]) (r := []) (by simp)) fun d hd => ha d (List.mem_cons_of_mem _ hd))
    rw [hr]
    intro y hy
    rw [List.mem_singleton] at hy
    subst hy
    simp; omega
  | simple e x r o he _ ih =>
    intro hn ha
    refine ascii_append (s := [x]) ?_ (ih (hn.part (a := ['\\', e]) (r := []) (by simp)) fun d hd => ha d (by simp [hd]))
    intro y hy
    rw [List.mem_singleton] at hy
    subst hy
    simp only [simpleEscapes, List.mem_cons, List.not_mem_nil, or_false, Prod.mk.injEq] at he
    rcases he with ⟨_, rfl⟩ | ⟨_, rfl⟩ | ⟨_, rfl⟩ | ⟨_, rfl⟩ | ⟨_, rfl⟩ | ⟨_, rfl⟩ | ⟨_, rfl⟩ | ⟨_, rfl⟩ | ⟨_, rfl⟩ <;> decide
  | hex ds r o _ _ _ _ => intro hn; exact absurd rfl (hn 'x' (by decide) [] (ds ++ r))
  | octal ds r o hd hl _ _ _ =>
    intro hn
    cases ds with
    | nil => simp at hl
    | cons d ds =>
      have := octal_letter (hd d List.mem_cons_self)
      exact absurd rfl (hn d (List.mem_cons_of_mem _ (List.mem_cons_of_mem _ (List.mem_cons_of_mem _ this))) [] (ds ++ r))
  | unicode u ds r o hu _ _ _ _ =>
    intro hn
    rcases hu with ⟨rfl, _⟩ | ⟨rfl, _⟩
    · exact absurd rfl (hn 'u' (by decide) [] (ds ++ r))
    · exact absurd rfl (hn 'U' (by decide) [] (ds ++ r))

/-- A token is a part of the text. -/
theorem tokens_part {cs : List Char} {ts : List (List Char)} (h : Tokens cs ts) : ∀ w ∈ ts, ∃ a r, cs = a ++ w ++ r := by
  induction h with
  | nil => intro w hw; exact nomatch hw
  | blank c r ts _ _ ih =>
    intro w hw
    obtain ⟨a, r', e⟩ := ih w hw
    exact ⟨c :: a, r', by rw [e]; simp⟩
  | paren c r ts _ _ ih =>
    intro w hw
    rcases List.mem_cons.1 hw with rfl | hw
    · exact ⟨[], r, by simp⟩
    · obtain ⟨a, r', e⟩ := ih w hw
      exact ⟨c :: a, r', by rw [e]; simp⟩
  | word w' r ts _ _ _ _ ih =>
    intro w hw
    rcases List.mem_cons.1 hw with rfl | hw
    · exact ⟨[], r, by simp⟩
    · obtain ⟨a, r', e⟩ := ih w hw
      exact ⟨w' ++ a, r', by rw [e]; simp⟩

theorem trimmed_part (cs : List Char) : ∃ a r, cs = a ++ trimmed cs ++ r := by
  refine ⟨cs.takeWhile isSpace, (((cs.dropWhile isSpace).reverse.takeWhile isSpace)).reverse, ?_⟩
  unfold trimmed
  rw [List.append_assoc, ← List.reverse_append, List.takeWhile_append_dropWhile, List.reverse_reverse, List.takeWhile_append_dropWhile]

section
variable (Q : List Char → Prop) (P : Bytes → Prop)

mutual
/-- Every string in the value satisfies `P`. -/
def StringsOf (P : Bytes → Prop) : Value → Prop
  | .str s => P s
  | .list l => StringsOfAll P l
  | _ => True
@[inherit_doc StringsOf]
def StringsOfAll (P : Bytes → Prop) : List Value → Prop
  | [] => True
  | v :: vs => StringsOf P v ∧ StringsOfAll P vs
end

theorem stringsOfAll_append {P : Bytes → Prop} : ∀ {a b : List Value}, StringsOfAll P a → StringsOfAll P b → StringsOfAll P (a ++ b)
  | [], _, _, hb => hb
  | _ :: _, _, ha, hb => ⟨ha.1, stringsOfAll_append ha.2 hb⟩

variable {Q P} (hpart : ∀ {cs a w r : List Char}, Q cs → cs = a ++ w ++ r → Q w) (hlit : ∀ {w : List Char} {s : Bytes}, Q w → LitBody w s → P s)
include hpart hlit

theorem atom_strings {w : List Char} {v : Value} (hq : Q w) (h : AtomReads w v) : StringsOf P v := by
  cases h with
  | str s hs =>
    obtain ⟨body, rfl, hb⟩ := hs
    exact hlit (hpart hq (a := ['"']) (r := ['"']) (by simp)) hb
  | num => trivial
  | sym => trivial

theorem reads_strings {ts : List (List Char)} {vs : List Value} (h : ReadsAll ts vs) : (∀ w ∈ ts, Q w) → StringsOfAll P vs := by
  induction h with
  | nil => intro _; trivial
  | atom t v ts vs _ _ ha _ ih =>
    intro hq
    exact ⟨atom_strings hpart hlit (hq t List.mem_cons_self) ha, ih fun w hw => hq w (List.mem_cons_of_mem _ hw)⟩
  | list inner l ts vs _ _ ih1 ih2 =>
    intro hq
    exact ⟨ih1 fun w hw => hq w (by simp [hw]), ih2 fun w hw => hq w (by simp [hw])⟩

theorem command_strings {cs : List Char} {v : Value} (hq : Q cs) (h : CommandReads cs v) : StringsOf P v := by
  unfold CommandReads at h
  split at h
  · obtain ⟨used, ignored, h1, h2⟩ := h
    refine (reads_strings hpart hlit h2 fun w hw => ?_).1
    obtain ⟨a, r, e⟩ := tokens_part h1 w (List.mem_append_left _ hw)
    exact hpart hq e
  · obtain ⟨ts, vs, h1, h2, rfl⟩ := h
    refine reads_strings hpart hlit h2 fun w hw => ?_
    obtain ⟨a, r, e⟩ := tokens_part h1 w hw
    exact hpart hq e

theorem segment_strings {seg : List Char} {p : List Value} (hq : Q seg) (h : SegmentReads seg p) : StringsOfAll P p := by
  rcases h.2 with ⟨_, rfl⟩ | ⟨_, v, hv, rfl⟩
  · trivial
  · obtain ⟨a, r, e⟩ := trimmed_part seg
    exact ⟨command_strings hpart hlit (hpart hq e) hv, trivial⟩

theorem line_strings {cs : List Char} {p : List Value} (h : LineReads cs p) : Q cs → StringsOfAll P p := by
  induction h with
  | last seg p hs => intro hq; exact segment_strings hpart hlit hq hs
  | more seg rest p q hs _ ih =>
    intro hq
    exact stringsOfAll_append (segment_strings hpart hlit (hpart hq (a := []) (r := ';' :: rest) (by simp)) hs)
      (ih (hpart hq (a := seg ++ [';']) (r := []) (by simp)))

theorem lines_strings {ls : List Bytes} {p : List Value} (h : LinesRead ls p) :
    (∀ l ∈ ls, Q (decodeAll (dropCR l))) → StringsOfAll P p := by
  induction h with
  | nil => intro _; trivial
  | cons l ls p q _ hl _ ih =>
    intro hq
    exact stringsOfAll_append (line_strings hpart hlit hl (hq l List.mem_cons_self)) (ih fun l' hl' => hq l' (List.mem_cons_of_mem _ hl'))
end

theorem splitByte_parts (s : Bytes) : ∀ first rest, splitByte nl s = first :: rest →
    (∃ v, s = first ++ v) ∧ ∀ l ∈ rest, ∃ u v, s = u ++ l ++ v := by
  induction s with
  | nil =>
    intro first rest h
    simp only [splitByte, List.cons.injEq] at h
    obtain ⟨rfl, rfl⟩ := h
    exact ⟨⟨[], rfl⟩, fun l hl => nomatch hl⟩
  | cons x s ih =>
    intro first rest h
    simp only [splitByte] at h
    split at h
    · simp only [List.cons.injEq] at h
      obtain ⟨rfl, rfl⟩ := h
      refine ⟨⟨x :: s, rfl⟩, fun l hl => ?_⟩
      cases hs : splitByte nl s with
      | nil => rw [hs] at hl; exact nomatch hl
      | cons f r =>
        rw [hs] at hl
        obtain ⟨⟨v, h1⟩, h2⟩ := ih f r hs
        rcases List.mem_cons.1 hl with rfl | hl
        · exact ⟨[x], v, by simp [h1]⟩
        · obtain ⟨u, v, e⟩ := h2 l hl
          exact ⟨x :: u, v, by simp [e]⟩
    · split at h
      · simp only [List.cons.injEq] at h
        obtain ⟨rfl, rfl⟩ := h
        exact ⟨⟨s, rfl⟩, fun l hl => nomatch hl⟩
      · rename_i f r hs
        simp only [List.cons.injEq] at h
        obtain ⟨rfl, rfl⟩ := h
        obtain ⟨⟨v, h1⟩, h2⟩ := ih f _ hs
        refine ⟨⟨v, by simp [h1]⟩, fun l hl => ?_⟩
        obtain ⟨u, v, e⟩ := h2 l hl
        exact ⟨x :: u, v, by simp [e]⟩

/-- A line of a script, without its carriage return, is a part of the script. -/
theorem line_part (s : Bytes) : ∀ l ∈ splitByte nl s, ∃ u v, s = u ++ dropCR l ++ v := by
  intro l hl
  have : ∃ u v, s = u ++ l ++ v := by
    cases hs : splitByte nl s with
    | nil => rw [hs] at hl; exact nomatch hl
    | cons f r =>
      rw [hs] at hl
      obtain ⟨⟨v, h1⟩, h2⟩ := splitByte_parts s f r hs
      rcases List.mem_cons.1 hl with rfl | hl
      · exact ⟨[], v, by simp [h1]⟩
      · exact h2 l hl
  obtain ⟨u, v, e⟩ := this
  rcases dropCR_eq l with h | ⟨t, h1, h2⟩
  · exact ⟨u, v, by rw [h]; exact e⟩
  · exact ⟨u, 13 :: v, by rw [h2, e, h1]; simp⟩

theorem noEscape_line {letters : List Char} (hl : ∀ c ∈ letters, c.toNat < 128) {s : Bytes}
    (h : ¬ EscapeIn (letters.map fun c => UInt8.ofNat c.toNat) s) : ∀ l ∈ splitByte nl s, NoEscape letters (decodeAll (dropCR l)) := by
  intro l hm c hc u v he
  obtain ⟨u', v', e⟩ := escape_of_decoded c (hl c hc) _ (dropCR l) u v (Nat.le_refl _) he
  obtain ⟨a, r, e'⟩ := line_part s l hm
  exact h ⟨a ++ u', UInt8.ofNat c.toNat, v' ++ r, by rw [e', e]; simp, List.mem_map_of_mem hc⟩

mutual
theorem stringsOf_utf8 : ∀ v : Value, StringsOf Utf8Text v → Utf8Strings v
  | .str _, h => h
  | .num _, _ => trivial
  | .sym _, _ => trivial
  | .list l, h => stringsOfAll_utf8 l h
theorem stringsOfAll_utf8 : ∀ l : List Value, StringsOfAll Utf8Text l → Utf8StringsAll l
  | [], _ => trivial
  | v :: vs, h => ⟨stringsOf_utf8 v h.1, stringsOfAll_utf8 vs h.2⟩
end

mutual
theorem stringsOf_ascii : ∀ v : Value, StringsOf AsciiText v → AsciiStrings v
  | .str _, h => h
  | .num _, _ => trivial
  | .sym _, _ => trivial
  | .list l, h => stringsOfAll_ascii l h
theorem stringsOfAll_ascii : ∀ l : List Value, StringsOfAll AsciiText l → AsciiStringsAll l
  | [], _ => trivial
  | v :: vs, h => ⟨stringsOf_ascii v h.1, stringsOfAll_ascii vs h.2⟩
end

/-- **The strings of a script are UTF-8 text**, even if the script is not, unless it has an escape that names a byte: a backslash followed
by an x or by an octal digit. -/
theorem C73_script_strings (script : Bytes) (p : List Value) (h : parseString script = .ok p) (hx : ¬ EscapeIn b! "x01234567" script) :
    Utf8StringsAll p := by
  have h := (C42_parser_is_grammar script p).1 h
  refine stringsOfAll_utf8 p (lines_strings (Q := NoEscape byteLetters) (fun hq e => hq.part e) (fun hq hb => litBody_utf8 hb hq) h ?_)
  exact noEscape_line (by decide) (by simpa [byteLetters] using hx)

/-- The strings of an ASCII script without escapes that name bytes or characters are ASCII text. -/
theorem C73_ascii_script_strings (script : Bytes) (p : List Value) (h : parseString script = .ok p) (ha : AsciiText script)
    (hx : ¬ EscapeIn b! "uUx01234567" script) : AsciiStringsAll p := by
  have h := (C42_parser_is_grammar script p).1 h
  refine stringsOfAll_ascii p (lines_strings (Q := fun cs => NoEscape ('u' :: 'U' :: byteLetters) cs ∧ ∀ c ∈ cs, c.toNat < 128)
    (fun hq e => ⟨hq.1.part e, fun c hc => hq.2 c (by rw [e]; simp [hc])⟩) (fun hq hb => litBody_ascii hb hq.1 hq.2) h ?_)
  intro l hl
  refine ⟨noEscape_line (by decide) (by simpa [byteLetters] using hx) l hl, fun c hc => ?_⟩
  obtain ⟨u, v, e⟩ := line_part script l hl
  have ha' : AsciiText (dropCR l) := fun y hy => ha y (by rw [e]; simp [hy])
  rw [decodeAll_ascii _ ha'] at hc
  obtain ⟨y, hy, rfl⟩ := List.mem_map.1 hc
  have := ha' y hy
  rw [toNat_ofNat_valid _ (.inl (by omega))]
  exact this

/-! ### Strings of JSON scripts -/

mutual
theorem textValue_utf8 : ∀ v : Value, TextValue v → Utf8Strings v
  | .str _, h => utf8_encodeAll.2 h
  | .num _, _ => trivial
  | .sym _, _ => trivial
  | .list l, h => textValues_utf8 l h
theorem textValues_utf8 : ∀ l : List Value, TextValues l → Utf8StringsAll l
  | [], _ => trivial
  | v :: vs, h => ⟨textValue_utf8 v h.1, textValues_utf8 vs h.2⟩
end

theorem utf8_all : ∀ {l : List Value}, (∀ v ∈ l, Utf8Strings v) → Utf8StringsAll l
  | [], _ => trivial
  | v :: _, h => ⟨h v List.mem_cons_self, utf8_all fun w hw => h w (List.mem_cons_of_mem _ hw)⟩

theorem textTrees_mem : ∀ {l : List Json}, TextTrees l → ∀ j ∈ l, TextTree j
  | _ :: _, h, j, hj => by
    rcases List.mem_cons.1 hj with rfl | hj
    · exact h.1
    · exact textTrees_mem h.2 j hj

/-- **The strings of a JSON script are UTF-8 text**, whatever bytes the script consists of. -/
theorem C73_json_strings (script : Bytes) (p : List Value) (h : parseJsonString script = .ok p) : Utf8StringsAll p := by
  unfold parseJsonString at h
  split at h
  · rename_i l hl
    have hl : TextTree (.arr l) := by
      unfold jsonText at hl
      split at hl
      · rename_i j r hj
        split at hl
        · cases hl; exact ((json_textual _).1 _ _ _ _ hj).1
        · cases hl
      · cases hl
    obtain ⟨h1, h2⟩ := (C43_commands 0 l p).1 h
    refine utf8_all fun v hv => ?_
    have : Except.ok v ∈ l.map convertValue := by rw [h2]; exact List.mem_map_of_mem hv
    obtain ⟨j, hj, hc⟩ := List.mem_map.1 this
    have hb := (C37_forth j v ((C43_commandTree j).2 (h1 j hj)) hc).2
    have ht := textTrees_mem hl j hj
    rw [← hb] at ht
    exact textValue_utf8 v (textTree_value v ht)
  · cases h; trivial
  · cases h

/-! ### Scripts and files -/

/-- **Running a tidy script on UTF-8 text**: if the input is UTF-8 text and the script, once parsed, is a tidy program that does not call
beginning-of-line, the output is UTF-8 text. In the JSON format nothing more is needed; in the others, the script must not use escapes that
name bytes. -/
theorem C73_script [Ext] [TextExt] (input script format text : Bytes) (hi : Utf8Text input)
    (hT : ∀ p, parseScript format script = .ok p → Tidy true true (postorders p) ∧ b! "beginning-of-line" ∉ postorders p)
    (hx : format = b! "json" ∨ ¬ EscapeIn b! "x01234567" script)
    (h : executeScriptWithFormat input script format = .ok text) : Utf8Text text := by
  unfold executeScriptWithFormat at h
  split at h
  · cases hp : parseScript format script with
    | ok p =>
      rw [hp] at h
      have hu : Utf8StringsAll p := by
        unfold parseScript at hp
        split at hp
        · unfold Res.ofExcept at hp
          split at hp
          · rename_i hq; cases hp; exact C73_json_strings _ _ hq
          · cases hp
        · rename_i hf
          exact C73_script_strings _ _ hp (hx.resolve_left hf)
      have key := C73_tidy_program p input hi hu (hT p hp).1 (hT p hp).2
      unfold executeParsed evalOn at h
      rcases he : eval defaultEnv p (newBuffer input) with ⟨r, b⟩
      rw [he] at key
      simp only [he] at h
      cases r with
      | ok v => cases h; exact key
      | err e => cases h
      | panic => cases h
    | err e => rw [hp] at h; cases h
    | panic => rw [hp] at h; cases h
  · cases h

/-- **Editing a file**: if EditFileWithFormat reports success, the file held UTF-8 text and the script is as in `C73_script`, then it
holds UTF-8 text again. -/
theorem C73_edit_file [Ext] [TextExt] (f script format c : Bytes) (w w' : World) (hc : w.files f = some c) (hu : Utf8Text c)
    (hT : ∀ p, parseScript format script = .ok p → Tidy true true (postorders p) ∧ b! "beginning-of-line" ∉ postorders p)
    (hx : format = b! "json" ∨ ¬ EscapeIn b! "x01234567" script)
    (h : Ends (editFileWithFormat f script format) w none w') : ∃ t, w'.files f = some t ∧ Utf8Text t := by
  obtain ⟨h1, _⟩ := (C29_outcomes_format f script format w none w').1 h
  rw [hc] at h1
  generalize ha : w'.files f = after at h1
  generalize hb : (some c : Option Bytes) = before at h1
  cases h1 with
  | edited c' t hx' =>
    cases hb
    exact ⟨t, rfl, C73_script c script format t hu hT hx hx'⟩

/-- **ASCII scripts**: on ASCII text, an ASCII script without escapes that name bytes or characters gives ASCII text, whatever it does. -/
theorem C73_ascii_script [Ext] (input script text : Bytes) (hi : AsciiText input) (hs : AsciiText script)
    (hx : ¬ EscapeIn b! "uUx01234567" script) (h : executeScript input script = .ok text) : AsciiText text := by
  obtain ⟨p, v, b, hp, he, rfl⟩ := (C28_success input script text).1 h
  have := C73_ascii p input hi (C73_ascii_script_strings script p hp hs hx)
  rw [he] at this
  exact this

/-- An escape that names a byte puts something into the text that is not UTF-8. -/
theorem C73_false_byte_escape [Ext] : executeScript (b! "a") (b! "insert \"\\xff\"") = .ok [0xFF, 0x61] ∧ ¬ Utf8Text [0xFF, 0x61] :=
  ⟨rfl, by decide⟩

theorem escapeIn_of {letters s : Bytes} (h : ∀ n < s.length, s[n]? = some 92 → ∀ c ∈ letters, s[n + 1]? ≠ some c) : ¬ EscapeIn letters s := by
  rintro ⟨u, c, v, rfl, hc⟩
  refine h u.length (by simp) (by simp) c hc ?_
  simp

/-- The hypotheses are met: a script in each format, with what it makes of `é`. -/
example : letI := reExt
    let script := b! "search-forward \"\\u00e9\"; replace-match \"\\t!\""
    let json := b! "[[\"search-forward\",\"\\u00e9\"],[\"replace-match\",\"\\t!\"]]"
    Utf8Text [0x61, 0xC3, 0xA9] ∧
    (match parseScript (b! "shell") script, parseScript (b! "json") json with
      | .ok p, .ok q => tidyCheck true true (postorders p) && tidyCheck true true (postorders q) && decide (postorders p = postorders q)
      | _, _ => false) = true ∧
    executeScriptWithFormat [0x61, 0xC3, 0xA9] script (b! "shell") = .ok (b! "a\t!") ∧
    executeScriptWithFormat [0x61, 0xC3, 0xA9] json (b! "json") = .ok (b! "a\t!") := by
  decide +kernel

example : ¬ EscapeIn b! "x01234567" (b! "search-forward \"\\u00e9\"; replace-match \"\\t!\"") := escapeIn_of (by decide)

end Texted
