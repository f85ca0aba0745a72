import Verif.Lemmas.XmlCase
import Verif.Spec.TestRunner
/-
C77: how test files are read. The grammar is in Spec/Xml.lean.
-/
namespace Texted
open Spec

/-! ### C77 -/

/-- **C77.** A file is accepted as a test exactly if it is written according to the grammar, and the texts of the test are the ones the grammar
gives. -/
theorem C77_exact (x : XmlExt) (s : Bytes) (c : TestCase) : parseTestCase x s = some c ↔ TestFile x s c := testFile_iff x s c

/-- **C77.** The grammar is unambiguous. -/
theorem C77_unambiguous (x : XmlExt) {s : Bytes} {c c' : TestCase} (h : TestFile x s c) (h' : TestFile x s c') : c = c' := by
  rw [← C77_exact] at h h'
  rw [h] at h'
  exact Option.some.inj h'

/-- **C77.** `</testcase>` ends a test file early: whatever follows is ignored, even if it is not XML. -/
theorem C77_early_end (x : XmlExt) {a : Bytes} {c : TestCase} (h : parseTestCase x a = some c) (rest : Bytes) :
    parseTestCase x (a ++ b! "</testcase>" ++ rest) = some c := by
  rw [C77_exact] at h ⊢
  rcases h with h | ⟨a', e, r, rfl, he, h⟩
  · exact .inr ⟨a, b! "</testcase>", rest, rfl, ⟨[], testcase_name x, blank_nil, rfl⟩, h⟩
  · exact .inr ⟨a', e, r ++ b! "</testcase>" ++ rest, by simp, he, h⟩

/-! ### Ordinary files -/

theorem escaped_chars (v : Bytes) : Chars none (escaped v) v := by
  induction v with
  | nil => exact .nil
  | cons b s ih =>
    rw [escaped]
    split
    · next h => rw [h]; exact .ref .amp ih
    · split
      · next h => rw [h]; exact .ref .lt ih
      · split
        · next h => rw [h]; exact .ref .gt ih
        · split
          · next h =>
            rw [h]
            have hd : Numeral 10 DecDigit (b! "13") (Char.toNat '\r') :=
              .more (s := b! "1") (n := 1) (d := 3) (.one ⟨rfl, by decide⟩) ⟨rfl, by decide⟩
            exact .ref (u := [13]) (.dec hd) ih
          · next h1 h2 h3 h4 => exact .byte h4 h2 h1 (by simp) ih

theorem escaped_no_gt (v : Bytes) : 62 ∉ escaped v := by
  induction v with
  | nil => exact List.not_mem_nil
  | cons b s ih =>
    rw [escaped, List.mem_append, not_or]
    refine ⟨?_, ih⟩
    split
    · decide
    · split
      · decide
      · split
        · decide
        · split
          · decide
          · next h _ => intro hm; simp only [List.mem_singleton] at hm; exact h hm.symm

theorem escaped_ne {v : Bytes} (h : v ≠ []) : escaped v ≠ [] := by
  cases v with
  | nil => exact absurd rfl h
  | cons b s =>
    rw [escaped]
    intro h0
    have := (List.append_eq_nil_iff.1 h0).1
    revert this
    repeat' split
    all_goals simp

theorem escaped_inside (x : XmlExt) {v : Bytes} (h : LegalText v) : Inside x (escaped v) v := by
  by_cases hv : v = []
  · subst hv; exact .nil
  · have hp : TextPiece (escaped v) v := by
      refine ⟨escaped_ne hv, escaped_chars v, ?_, h⟩
      rintro ⟨a, b, e⟩
      exact escaped_no_gt v (by rw [e]; simp)
    have := Inside.text (x := x) hp (.inl rfl) .nil
    simpa using this

theorem field_name (x : XmlExt) {n : Bytes} (h : n ∈ fieldNames) : TagName x n ∧ LocalPart n n := by
  have loc : 58 ∉ n → LocalPart n n := fun hn => .inr ⟨rfl, fun p r e => absurd (by rw [e]; simp) hn⟩
  simp only [fieldNames, List.mem_cons, List.not_mem_nil, or_false] at h
  have alpha : ∀ (c : Char) (cs : List Char), (c :: cs).all (fun d => decide (d.toNat < 128) && d.isAlpha) = true →
      n = (c :: cs).flatMap String.utf8EncodeChar → Name x n := by
    intro c cs hc hn
    rw [List.all_cons, Bool.and_eq_true, List.all_eq_true] at hc
    refine ⟨c, cs, hn, ?_, fun d hd => ?_⟩
    · have := hc.1
      rw [Bool.and_eq_true, decide_eq_true_eq] at this
      rw [if_pos this.1]; exact .inl this.2
    · have := hc.2 d hd
      rw [Bool.and_eq_true, decide_eq_true_eq] at this
      rw [if_pos this.1]; exact .inl (by simp [Char.isAlphanum, this.2])
  rcases h with rfl | rfl | rfl | rfl | rfl
  · exact ⟨⟨alpha 'b' ['u', 'f', 'f', 'e', 'r'] (by decide) (by decide), by decide⟩, loc (by decide)⟩
  · exact ⟨⟨alpha 'i' ['n', 'p', 'u', 't'] (by decide) (by decide), by decide⟩, loc (by decide)⟩
  · exact ⟨⟨alpha 'o' ['u', 't', 'p', 'u', 't'] (by decide) (by decide), by decide⟩, loc (by decide)⟩
  · exact ⟨⟨alpha 'r' ['e', 's', 'u', 'l', 't'] (by decide) (by decide), by decide⟩, loc (by decide)⟩
  · exact ⟨⟨alpha 'e' ['r', 'r', 'o', 'r'] (by decide) (by decide), by decide⟩, loc (by decide)⟩

theorem blank_chars : ∀ (k : Nat) (sp : Bytes), sp.length ≤ k → White sp → ∃ t, Chars none sp t ∧ White t := by
  intro k
  induction k with
  | zero =>
    intro sp hk _
    have : sp = [] := List.length_eq_zero_iff.1 (by omega)
    subst this
    exact ⟨[], .nil, blank_nil⟩
  | succ k ih =>
    intro sp hk hb
    cases sp with
    | nil => exact ⟨[], .nil, blank_nil⟩
    | cons b sp =>
      have hsp : White sp := fun c hc => hb c (by simp [hc])
      have cons : ∀ {c : UInt8} {t : Bytes}, (c = 32 ∨ c = 9 ∨ c = 10 ∨ c = 13) → White t → White (c :: t) := by
        intro c t hc ht d hd
        simp only [List.mem_cons] at hd
        rcases hd with rfl | hd
        · exact hc
        · exact ht d hd
      have hb0 := hb b (by simp)
      by_cases h13 : b = 13
      · subst h13
        cases sp with
        | nil => exact ⟨[10], .cr (by simp) .nil, cons (by simp) blank_nil⟩
        | cons c sp' =>
          by_cases h10 : c = 10
          · subst h10
            obtain ⟨t, h1, h2⟩ := ih sp' (by simp at hk; omega) (fun c hc => hsp c (by simp [hc]))
            exact ⟨10 :: t, .crlf h1, cons (by simp) h2⟩
          · obtain ⟨t, h1, h2⟩ := ih (c :: sp') (by simp at hk ⊢; omega) hsp
            exact ⟨10 :: t, .cr (by simpa using h10) h1, cons (by simp) h2⟩
      · obtain ⟨t, h1, h2⟩ := ih sp (by simp at hk; omega) hsp
        refine ⟨b :: t, .byte h13 ?_ ?_ (by simp) h1, cons hb0 h2⟩
        · rintro rfl; revert hb0; decide
        · rintro rfl; revert hb0; decide

theorem blank_legal {t : Bytes} (h : White t) : LegalText t := by
  induction t with
  | nil => exact ⟨[], rfl, by simp⟩
  | cons b t ih =>
    obtain ⟨cs, rfl, hcs⟩ := ih (fun c hc => h c (by simp [hc]))
    have : ∃ c : Char, [b] = String.utf8EncodeChar c ∧ XmlCharacter c := by
      rcases h b (by simp) with rfl | rfl | rfl | rfl
      · exact ⟨' ', by decide, .inr (.inr (.inr (by decide)))⟩
      · exact ⟨'\t', by decide, .inl rfl⟩
      · exact ⟨'\n', by decide, .inr (.inl rfl)⟩
      · exact ⟨'\r', by decide, .inr (.inr (.inl rfl))⟩
    obtain ⟨c, hc, hx⟩ := this
    refine ⟨c :: cs, by rw [List.flatMap_cons, ← hc]; rfl, fun d hd => ?_⟩
    simp only [List.mem_cons] at hd
    rcases hd with rfl | hd
    · exact hx
    · exact hcs d hd

theorem blank_piece {sp : Bytes} (h : White sp) : sp = [] ∨ ∃ t, TextPiece sp t := by
  by_cases h0 : sp = []
  · exact .inl h0
  · right
    obtain ⟨t, h1, h2⟩ := blank_chars _ sp (Nat.le_refl _) h
    refine ⟨t, h0, h1, ?_, blank_legal h2⟩
    rintro ⟨a, b, e⟩
    have := h 62 (by rw [e]; simp)
    revert this; decide

theorem fields_blank (x : XmlExt) {sp s : Bytes} (h : White sp) (hs : AtMarkup s) {c c' : TestCase} (hf : Fields x s c c') :
    Fields x (sp ++ s) c c' := by
  rcases blank_piece h with rfl | ⟨t, ht⟩
  · exact hf
  · exact .text ht hs hf

/-- **C77.** Elements with the five names, in any order and with any white space between them, with their texts escaped: each text of the test
is exactly the text of the last element with its name. -/
theorem C77_ordinary (x : XmlExt) (l : List Element) (sp : Bytes) (hsp : White sp)
    (hl : ∀ e ∈ l, White e.space ∧ e.name ∈ fieldNames ∧ LegalText e.text) :
    parseTestCase x (l.flatMap Element.written ++ sp) = some
      { buffer := lastText (b! "buffer") [] l, input := lastText (b! "input") [] l, output := lastText (b! "output") [] l,
        result := lastText (b! "result") [] l, error := lastText (b! "error") [] l, resultLang := [] } := by
  rw [C77_exact]
  left
  have key : ∀ (l : List Element), (∀ e ∈ l, White e.space ∧ e.name ∈ fieldNames ∧ LegalText e.text) → ∀ c : TestCase,
      Fields x (l.flatMap Element.written ++ sp) c
        { buffer := lastText (b! "buffer") c.buffer l, input := lastText (b! "input") c.input l, output := lastText (b! "output") c.output l,
          result := lastText (b! "result") c.result l, error := lastText (b! "error") c.error l, resultLang := c.resultLang } := by
    intro l
    induction l with
    | nil =>
      intro _ c
      have := fields_blank x hsp (.inl rfl) (Fields.nil (x := x) (c := c))
      simpa [lastText] using this
    | cons e l ih =>
      intro hl c
      obtain ⟨h1, h2, h3⟩ := hl e (by simp)
      have hrest := ih (fun e he => hl e (by simp [he]))
      obtain ⟨hn, hloc⟩ := field_name x h2
      have htag : Tag x e.name [] e.name := ⟨[], by simp, hn, .nil blank_nil, by simp⟩
      have hend : EndTag x e.name (b! "</" ++ e.name ++ b! ">") := ⟨[], hn, blank_nil, by simp⟩
      have hlang : LangOf [] e.name c.resultLang c.resultLang := .inr ⟨.inr (fun _ h => absurd h List.not_mem_nil), rfl⟩
      have hin := escaped_inside x h3
      have e0 : (e :: l).flatMap Element.written ++ sp
          = e.space ++ (b! "<" ++ e.name ++ b! ">" ++ escaped e.text ++ (b! "</" ++ e.name ++ b! ">") ++ (l.flatMap Element.written ++ sp)) := by
        simp [Element.written]
      rw [e0]
      refine fields_blank x h1 (.inr rfl) ?_
      simp only [fieldNames, List.mem_cons, List.not_mem_nil, or_false] at h2
      have step : ∀ c1, Sets e.text e.name c c1 → Fields x (b! "<" ++ e.name ++ b! ">" ++ escaped e.text ++ (b! "</" ++ e.name ++ b! ">") ++
          (l.flatMap Element.written ++ sp)) c
        { buffer := lastText (b! "buffer") c1.buffer l, input := lastText (b! "input") c1.input l, output := lastText (b! "output") c1.output l,
          result := lastText (b! "result") c1.result l, error := lastText (b! "error") c1.error l, resultLang := c1.resultLang } := by
        intro c1 hc1
        exact .field htag hloc (hl e (by simp)).2.1 hin hend hlang hc1 (hrest c1)
      rcases h2 with h | h | h | h | h
      · have := step { c with buffer := e.text } (by rw [h]; exact .buffer)
        simpa [lastText, h] using this
      · have := step { c with input := e.text } (by rw [h]; exact .input)
        simpa [lastText, h] using this
      · have := step { c with output := e.text } (by rw [h]; exact .output)
        simpa [lastText, h] using this
      · have := step { c with result := e.text } (by rw [h]; exact .result)
        simpa [lastText, h] using this
      · have := step { c with error := e.text } (by rw [h]; exact .error)
        simpa [lastText, h] using this
  exact key l hl {}

/-- **C77.** Attributes of an `input` element, `lang` in particular, change nothing: the input is always read as shell lines (C56). -/
theorem C77_input_lang (x : XmlExt) {l : List (Bytes × Bytes)} {tag v : Bytes} (ht : Tag x (b! "input") l tag) (hv : LegalText v) :
    parseTestCase x (b! "<" ++ tag ++ b! ">" ++ escaped v ++ b! "</input>") = some { input := v } := by
  rw [C77_exact]
  left
  obtain ⟨hn, hloc⟩ := field_name x (n := b! "input") (by decide)
  have := Fields.field (x := x) (s' := []) (c := {}) ht hloc (by decide) (escaped_inside x hv) ⟨[], hn, blank_nil, rfl⟩
    (.inr ⟨.inl (by decide), rfl⟩) .input .nil
  simpa using this

/-! ### Line ends -/

theorem verbatim_no_cr {s t : Bytes} (h : Verbatim s t) : 13 ∉ t := by
  induction h with
  | nil => exact List.not_mem_nil
  | byte h _ ih => simp [ih, Ne.symm h]
  | cr _ _ ih => simp [ih]
  | crlf _ ih => simp [ih]

theorem chars_no_cr {q : Option UInt8} {s t : Bytes} (h : Chars q s t) (h38 : 38 ∉ s) : 13 ∉ t := by
  induction h with
  | nil => exact List.not_mem_nil
  | byte h _ _ _ _ ih => simp [ih (fun hh => h38 (by simp [hh])), Ne.symm h]
  | cr _ _ ih => simp [ih (fun hh => h38 (by simp [hh]))]
  | crlf _ ih => simp [ih (fun hh => h38 (by simp [hh]))]
  | ref href _ _ =>
    obtain ⟨m, rfl, _⟩ := reference_shape href
    exact absurd (by simp) h38

theorem cdata_no_cr {s t : Bytes} (h : Cdata s t) : 13 ∉ t := by
  obtain ⟨_, _, _, h, _⟩ := h
  exact verbatim_no_cr h

theorem inside_no_cr {x : XmlExt} {s t : Bytes} (h : Inside x s t) (h38 : 38 ∉ s) : 13 ∉ t := by
  induction h with
  | nil => exact List.not_mem_nil
  | text h1 _ _ ih =>
    simp only [List.mem_append, not_or] at h38 ⊢
    exact ⟨chars_no_cr h1.2.1 h38.1, ih h38.2⟩
  | cdata h1 _ ih =>
    simp only [List.mem_append, not_or] at h38 ⊢
    exact ⟨cdata_no_cr h1, ih h38.2⟩
  | aside _ _ ih =>
    simp only [List.mem_append, not_or] at h38
    exact ih h38.2
  | element _ _ _ _ _ ih =>
    simp only [List.mem_append, not_or] at h38
    exact ih h38.2
  | empty _ _ ih =>
    simp only [List.mem_append, not_or] at h38
    exact ih h38.2

theorem attrs_no_cr {x : XmlExt} {s : Bytes} {l : List (Bytes × Bytes)} (h : Attributes x s l) (h38 : 38 ∉ s) : ∀ a ∈ l, 13 ∉ a.2 := by
  induction h with
  | nil _ => exact fun a h => absurd h List.not_mem_nil
  | cons _ _ _ _ _ hv _ _ ih =>
    simp only [List.mem_append, List.mem_cons, not_or] at h38
    intro a ha
    simp only [List.mem_cons] at ha
    rcases ha with rfl | ha
    · exact chars_no_cr hv h38.1.2.2
    · exact ih h38.2.2 a ha

/-- No text of the test contains a carriage return. -/
def NoCr (c : TestCase) : Prop :=
  13 ∉ c.buffer ∧ 13 ∉ c.input ∧ 13 ∉ c.output ∧ 13 ∉ c.result ∧ 13 ∉ c.resultLang ∧ 13 ∉ c.error

theorem sets_no_cr {v n : Bytes} {c c' : TestCase} (h : Sets v n c c') (hv : 13 ∉ v) (hc : NoCr c) : NoCr c' := by
  obtain ⟨h1, h2, h3, h4, h5, h6⟩ := hc
  cases h
  · exact ⟨hv, h2, h3, h4, h5, h6⟩
  · exact ⟨h1, hv, h3, h4, h5, h6⟩
  · exact ⟨h1, h2, hv, h4, h5, h6⟩
  · exact ⟨h1, h2, h3, hv, h5, h6⟩
  · exact ⟨h1, h2, h3, h4, h5, hv⟩

theorem lang_no_cr {l : List (Bytes × Bytes)} {n before after : Bytes} (h : LangOf l n before after) (hl : ∀ a ∈ l, 13 ∉ a.2) (hb : 13 ∉ before) :
    13 ∉ after := by
  rcases h with ⟨_, pre, a, v, post, rfl, _, _, rfl⟩ | ⟨_, rfl⟩
  · exact hl (a, after) (by simp)
  · exact hb

theorem fields_no_cr {x : XmlExt} {s : Bytes} {c c' : TestCase} (h : Fields x s c c') (h38 : 38 ∉ s) (hc : NoCr c) : NoCr c' := by
  induction h with
  | nil => exact hc
  | text _ _ _ ih => simp only [List.mem_append, not_or] at h38; exact ih h38.2 hc
  | cdata _ _ ih => simp only [List.mem_append, not_or] at h38; exact ih h38.2 hc
  | aside _ _ ih => simp only [List.mem_append, not_or] at h38; exact ih h38.2 hc
  | field ht _ _ hi _ hlang hs _ ih =>
    simp only [List.mem_append, not_or] at h38
    obtain ⟨r, rfl, _, ha, _⟩ := ht
    simp only [List.mem_append, not_or] at h38
    obtain ⟨h1, h2, h3, h4, h5, h6⟩ := hc
    exact ih h38.2 (sets_no_cr hs (inside_no_cr hi h38.1.1.2) ⟨h1, h2, h3, h4, lang_no_cr hlang (attrs_no_cr ha h38.1.1.1.1.2.2) h5, h6⟩)
  | emptyField ht _ _ hlang hs _ ih =>
    simp only [List.mem_append, not_or] at h38
    obtain ⟨r, rfl, _, ha, _⟩ := ht
    simp only [List.mem_append, not_or] at h38
    obtain ⟨h1, h2, h3, h4, h5, h6⟩ := hc
    exact ih h38.2 (sets_no_cr hs List.not_mem_nil ⟨h1, h2, h3, h4, lang_no_cr hlang (attrs_no_cr ha h38.1.1.2.2) h5, h6⟩)
  | other _ _ _ _ _ _ ih => simp only [List.mem_append, not_or] at h38; exact ih h38.2 hc
  | emptyOther _ _ _ _ ih => simp only [List.mem_append, not_or] at h38; exact ih h38.2 hc

/-- **C77.** Line ends are translated: a test file without `&` gives no text with a carriage return, whatever bytes it contains; so a test of a
buffer with such line ends has to write them as references. -/
theorem C77_line_ends (x : XmlExt) {s : Bytes} {c : TestCase} (h : parseTestCase x s = some c) (h38 : 38 ∉ s) :
    13 ∉ c.buffer ∧ 13 ∉ c.input ∧ 13 ∉ c.output ∧ 13 ∉ c.result ∧ 13 ∉ c.resultLang ∧ 13 ∉ c.error := by
  have empty : NoCr {} := ⟨List.not_mem_nil, List.not_mem_nil, List.not_mem_nil, List.not_mem_nil, List.not_mem_nil, List.not_mem_nil⟩
  rw [C77_exact] at h
  rcases h with h | ⟨a, e, rest, rfl, _, h⟩
  · exact fields_no_cr h h38 empty
  · simp only [List.mem_append, not_or] at h38
    exact fields_no_cr h h38.1.1 empty

/-- **C77, C64.** A test file passes exactly if it can be read, is written according to the grammar, and the test it gives is met. -/
theorem C77_file_passes [Ext] (x : XmlExt) (read : Bytes → Reading) (msg : Bytes → Bytes) (f : Bytes) :
    FilePasses (loadTest x read msg) f ↔ ∃ content c, read f = .content content ∧ TestFile x content c ∧ Met defaultEnv c := by
  unfold FilePasses loadTest
  constructor
  · rintro ⟨t, h, hm⟩
    cases hr : read f with
    | cannotOpen e => rw [hr] at h; cases h
    | cannotRead e => rw [hr] at h; cases h
    | content content =>
      rw [hr] at h
      simp only [] at h
      cases hp : parseTestCase x content with
      | none => rw [hp] at h; cases h
      | some c => rw [hp] at h; cases h; exact ⟨content, t, rfl, (C77_exact _ _ _).1 hp, hm⟩
  · rintro ⟨content, c, hr, hf, hm⟩
    refine ⟨c, ?_, hm⟩
    rw [hr]
    simp only [(C77_exact _ _ _).2 hf]

/-! ### Examples -/

/-- Names of ASCII letters only. -/
def plainXml : XmlExt := ⟨fun _ => true, fun _ => false, fun _ => false⟩

/-- A file with most of what the grammar has. -/
example : parseTestCase plainXml (b! "<?xml version=\"1.0\"?>\n<!-- a test -->\n<buffer>a &lt; <i>not this</i>b<![CDATA[ & c]]></buffer>\n<input lang='sexp'>insert &quot;x&#x41;&quot;</input> text <result lang=\"shell\"/><note><buffer>no</buffer></note>")
    = some { buffer := b! "a < b & c", input := b! "insert \"xA\"", resultLang := b! "shell" } := by decide +kernel

/-- Line ends: translated if written directly, kept as references. -/
example : parseTestCase plainXml (b! "<buffer>a\r\nb</buffer><output>a&#13;\nb</output>") = some { buffer := b! "a\nb", output := b! "a\r\nb" } := by decide +kernel

/-- The end of the test case in the middle of the file. -/
example : parseTestCase plainXml (b! "<buffer>a</buffer></testcase> <<< & <buffer>b</buffer>") = some { buffer := b! "a" } := by decide +kernel

/-- Refused: an `&` that is not a reference, an unknown entity, a tag not closed, tags not nested, a NUL byte, bytes that are not UTF-8, `]]>`. -/
example : ∀ s ∈ [b! "<buffer>a & b</buffer>", b! "<buffer>&nbsp;</buffer>", b! "<buffer>a", b! "<buffer><i></buffer></i>", b! "<buffer>" ++ [0] ++ b! "</buffer>",
    b! "<buffer>" ++ [255] ++ b! "</buffer>", b! "<buffer>]]></buffer>", b! "<buffer lang=x></buffer>", b! "<!-- a -- b -->", b! "<1></1>"], parseTestCase plainXml s = none := by decide +kernel

/-- The hypotheses of `C77_ordinary`. -/
example : parseTestCase plainXml ([Element.mk b! "\n" b! "output" b! "a&b", ⟨b! " \t", b! "buffer", b! "x"⟩, ⟨[], b! "output", b! "<\r>"⟩].flatMap Element.written ++ b! "\r\n")
    = some { buffer := b! "x", output := b! "<\r>" } :=
  C77_ordinary plainXml _ _ (by unfold White; decide) (by
    have legal : ∀ s : Bytes, checkRunes xmlChar s.length s = true → LegalText s := fun s h => (legal_iff s).1 h
    intro e he
    simp only [List.mem_cons, List.not_mem_nil, or_false] at he
    rcases he with rfl | rfl | rfl
    · exact ⟨by unfold White; decide, by decide, legal _ (by decide +kernel)⟩
    · exact ⟨by unfold White; decide, by decide, legal _ (by decide +kernel)⟩
    · exact ⟨by unfold White; decide, by decide, legal _ (by decide +kernel)⟩)

/-- The hypotheses of `C77_input_lang`. -/
example : parseTestCase plainXml (b! "<" ++ b! "input lang=\"sexp\"" ++ b! ">" ++ escaped (b! "x<y") ++ b! "</input>") = some { input := b! "x<y" } := by
  have hn : TagName plainXml (b! "lang") := by
    refine ⟨⟨'l', ['a', 'n', 'g'], by decide, by simp, ?_⟩, by decide⟩
    intro d hd
    simp only [List.mem_cons, List.not_mem_nil, or_false] at hd
    rcases hd with rfl | rfl | rfl <;> simp
  have hv : Chars (some 34) (b! "sexp") (b! "sexp") :=
    .byte (by decide) (by decide) (by decide) (by decide) (.byte (by decide) (by decide) (by decide) (by decide)
      (.byte (by decide) (by decide) (by decide) (by decide) (.byte (by decide) (by decide) (by decide) (by decide) .nil)))
  exact C77_input_lang plainXml (l := [(b! "lang", b! "sexp")])
    ⟨b! " lang=\"sexp\"", rfl, (field_name plainXml (by decide)).1,
      .cons (sp := b! " ") (sp1 := []) (sp2 := []) (s := []) (by unfold White; decide) hn blank_nil blank_nil (.inl rfl) hv
        ((legal_iff _).1 (by decide +kernel)) (.nil blank_nil),
      by intro b hb; simp only [List.head?_cons, Option.some.injEq] at hb; subst hb; unfold NameByte; decide⟩
    ((legal_iff _).1 (by decide +kernel))

/-- The hypotheses of `C77_line_ends`. -/
example : 13 ∉ (b! "a\nb") := (C77_line_ends plainXml (s := b! "<buffer>a\r\nb</buffer>") (c := { buffer := b! "a\nb" }) (by decide +kernel) (by decide)).1

end Texted
