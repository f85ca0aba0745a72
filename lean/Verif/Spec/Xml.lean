import Verif.Model.Xml
import Verif.Spec.Utf8Text
import Verif.Spec.TestRunner
/-
C77: how a test file is written. A grammar of the XML that is accepted, with the text each part stands for; it uses of the model only
the record `TestCase` with its fields and what is a parameter there (`XmlExt`).
-/
namespace Texted.Spec

/-- Characters allowed in XML text: tab, line feed, carriage return, and everything from the space on except U+FFFE and U+FFFF. -/
def XmlCharacter (c : Char) : Prop :=
  c = '\t' ∨ c = '\n' ∨ c = '\r' ∨ (32 ≤ c.toNat ∧ c.toNat ≠ 0xFFFE ∧ c.toNat ≠ 0xFFFF)

/-- UTF-8 text of such characters. -/
def LegalText (t : Bytes) : Prop := ∃ cs : List Char, t = cs.flatMap String.utf8EncodeChar ∧ ∀ c ∈ cs, XmlCharacter c

/-- `u` occurs in `s`. -/
def OccursIn (u s : Bytes) : Prop := ∃ a b, s = a ++ u ++ b

/-- Numeral to a base, most significant first, and their number. -/
inductive Numeral (base : Nat) (digit : UInt8 → Nat → Prop) : Bytes → Nat → Prop
  | one {b d} : digit b d → Numeral base digit [b] d
  | more {s n b d} : Numeral base digit s n → digit b d → Numeral base digit (s ++ [b]) (n * base + d)

/-- A decimal digit. -/
def DecDigit (b : UInt8) (d : Nat) : Prop := b.toNat = 48 + d ∧ d ≤ 9

/-- A hexadecimal digit. -/
def HexDigit (b : UInt8) (d : Nat) : Prop := DecDigit b d ∨ (10 ≤ d ∧ d ≤ 15 ∧ (b.toNat = 87 + d ∨ b.toNat = 55 + d))

/-- What a reference `&...;` stands for. The numbers of surrogates stand for U+FFFD. -/
inductive Reference : Bytes → Bytes → Prop
  | lt : Reference (b! "&lt;") (b! "<")
  | gt : Reference (b! "&gt;") (b! ">")
  | amp : Reference (b! "&amp;") (b! "&")
  | apos : Reference (b! "&apos;") (b! "'")
  | quot : Reference (b! "&quot;") [34]
  | dec {d c} : Numeral 10 DecDigit d (Char.toNat c) → Reference (b! "&#" ++ d ++ b! ";") (String.utf8EncodeChar c)
  | hex {d c} : Numeral 16 HexDigit d (Char.toNat c) → Reference (b! "&#x" ++ d ++ b! ";") (String.utf8EncodeChar c)
  | decSurrogate {d n} : Numeral 10 DecDigit d n → 0xD800 ≤ n → n ≤ 0xDFFF → Reference (b! "&#" ++ d ++ b! ";") (String.utf8EncodeChar '\uFFFD')
  | hexSurrogate {d n} : Numeral 16 HexDigit d n → 0xD800 ≤ n → n ≤ 0xDFFF → Reference (b! "&#x" ++ d ++ b! ";") (String.utf8EncodeChar '\uFFFD')

/-- Line ends: a carriage return, and a carriage return with a line feed, stand for a line feed; every other byte for itself. -/
inductive Verbatim : Bytes → Bytes → Prop
  | nil : Verbatim [] []
  | byte {b s t} : b ≠ 13 → Verbatim s t → Verbatim (b :: s) (b :: t)
  | cr {s t} : s.head? ≠ some 10 → Verbatim s t → Verbatim (13 :: s) (10 :: t)
  | crlf {s t} : Verbatim s t → Verbatim (13 :: 10 :: s) (10 :: t)

/-- Text with references; `q` is the quote around it, if there is one. -/
inductive Chars (q : Option UInt8) : Bytes → Bytes → Prop
  | nil : Chars q [] []
  | byte {b s t} : b ≠ 13 → b ≠ 60 → b ≠ 38 → q ≠ some b → Chars q s t → Chars q (b :: s) (b :: t)
  | cr {s t} : s.head? ≠ some 10 → Chars q s t → Chars q (13 :: s) (10 :: t)
  | crlf {s t} : Chars q s t → Chars q (13 :: 10 :: s) (10 :: t)
  | ref {e u s t} : Reference e u → Chars q s t → Chars q (e ++ s) (u ++ t)

/-- White space. -/
def White (s : Bytes) : Prop := ∀ b ∈ s, b = 32 ∨ b = 9 ∨ b = 10 ∨ b = 13

/-- A byte that can be part of a name. -/
def NameByte (b : UInt8) : Prop :=
  (65 ≤ b.toNat ∧ b.toNat ≤ 90) ∨ (97 ≤ b.toNat ∧ b.toNat ≤ 122) ∨ (48 ≤ b.toNat ∧ b.toNat ≤ 57) ∨ b ∈ b! "_:.-" ∨ 128 ≤ b.toNat

/-- A name: letters, digits, `_`, `:`, `-`, `.`, not beginning with a digit, `-` or `.`; other characters as `x` says. -/
def Name (x : XmlExt) (n : Bytes) : Prop :=
  ∃ c cs, n = (c :: cs : List Char).flatMap String.utf8EncodeChar ∧
    (if c.toNat < 128 then c.isAlpha ∨ c = '_' ∨ c = ':' else x.nameStart c = true) ∧
    ∀ d ∈ cs, if d.toNat < 128 then d.isAlphanum ∨ d = '_' ∨ d = ':' ∨ d = '-' ∨ d = '.' else x.nameStart d = true ∨ x.namePart d = true

/-- A name of an element or attribute: at most one colon. -/
def TagName (x : XmlExt) (n : Bytes) : Prop := Name x n ∧ n.count 58 ≤ 1

/-- The local part of a name: what is behind the colon if there is something before and behind it, otherwise all of it. -/
def LocalPart (n l : Bytes) : Prop :=
  (∃ p, n = p ++ 58 :: l ∧ p ≠ [] ∧ l ≠ []) ∨ (l = n ∧ ∀ p r, n = p ++ 58 :: r → p = [] ∨ r = [])

/-- Attributes: names and values. -/
inductive Attributes (x : XmlExt) : Bytes → List (Bytes × Bytes) → Prop
  | nil {sp} : White sp → Attributes x sp []
  | cons {sp n sp1 sp2 q v t s l} : White sp → TagName x n → White sp1 → White sp2 → q = 34 ∨ q = 39 → Chars (some q) v t → LegalText t →
      Attributes x s l → Attributes x (sp ++ n ++ sp1 ++ 61 :: sp2 ++ q :: v ++ q :: s) ((n, t) :: l)

/-- What stands between `<` and `>` or `/>`: name and attributes; the name ends where no byte of a name follows. -/
def Tag (x : XmlExt) (n : Bytes) (l : List (Bytes × Bytes)) (s : Bytes) : Prop :=
  ∃ r, s = n ++ r ∧ TagName x n ∧ Attributes x r l ∧ ∀ b, r.head? = some b → ¬ NameByte b

/-- `</name>`. -/
def EndTag (x : XmlExt) (n s : Bytes) : Prop := ∃ sp, TagName x n ∧ White sp ∧ s = b! "</" ++ n ++ sp ++ b! ">"

/-- `<!-- ... -->`, without `--` inside. -/
def Comment (s : Bytes) : Prop := ∃ c, s = b! "<!--" ++ c ++ b! "-->" ∧ ¬ OccursIn (b! "--") (c ++ b! "-")

/-- `<?name ...?>`; the contents of `<?xml ...?>` must be acceptable. -/
def Instruction (x : XmlExt) (s : Bytes) : Prop := ∃ n sp c, s = b! "<?" ++ n ++ sp ++ c ++ b! "?>" ∧ Name x n ∧ White sp ∧
  ¬ OccursIn (b! "?>") c ∧ (∀ b, c.head? = some b → ¬ White [b] ∧ (sp = [] → ¬ NameByte b)) ∧ (n = b! "xml" → x.declOk c = true)

/-- The inside of a directive, with balanced angle brackets outside quotes and comments. -/
inductive Balanced : Bytes → Prop
  | nil : Balanced []
  | byte {b s} : b ∉ [34, 39, 60, 62] → Balanced s → Balanced (b :: s)
  | quoted {q c s} : q = 34 ∨ q = 39 → q ∉ c → Balanced s → Balanced (q :: c ++ q :: s)
  | nested {i s} : Balanced i → ¬ b! "!--" <+: i ++ [62] → Balanced s → Balanced (60 :: i ++ 62 :: s)
  | comment {c s} : ¬ OccursIn (b! "-->") (c ++ b! "--") → Balanced s → Balanced (b! "<!--" ++ c ++ b! "-->" ++ s)

/-- `<!...>`: neither a comment nor a CDATA section. -/
def Directive (s : Bytes) : Prop := ∃ b c, s = b! "<!" ++ b :: c ++ b! ">" ∧ b ≠ 45 ∧ b ≠ 91 ∧ Balanced c

/-- Comments, instructions, directives. -/
def Aside (x : XmlExt) (s : Bytes) : Prop := Comment s ∨ Instruction x s ∨ Directive s

/-- A piece of text between tags, up to the next `<`. -/
def TextPiece (s t : Bytes) : Prop := s ≠ [] ∧ Chars none s t ∧ ¬ OccursIn (b! "]]>") s ∧ LegalText t

/-- `<![CDATA[ ... ]]>`. -/
def Cdata (s t : Bytes) : Prop := ∃ c, s = b! "<![CDATA[" ++ c ++ b! "]]>" ∧ ¬ OccursIn (b! "]]>") (c ++ b! "]]") ∧ Verbatim c t ∧ LegalText t

/-- Between tags: nothing more, or the next piece of markup. -/
def AtMarkup (s : Bytes) : Prop := s = [] ∨ s.head? = some 60

/-- What stands between the tags of an element, and the text that is its own: what is inside elements within it does not count. -/
inductive Inside (x : XmlExt) : Bytes → Bytes → Prop
  | nil : Inside x [] []
  | text {s t s' t'} : TextPiece s t → AtMarkup s' → Inside x s' t' → Inside x (s ++ s') (t ++ t')
  | cdata {s t s' t'} : Cdata s t → Inside x s' t' → Inside x (s ++ s') (t ++ t')
  | aside {s s' t'} : Aside x s → Inside x s' t' → Inside x (s ++ s') t'
  | element {n l tag i t e s' t'} : Tag x n l tag → Inside x i t → EndTag x n e → Inside x s' t' →
      Inside x (b! "<" ++ tag ++ b! ">" ++ i ++ e ++ s') t'
  | empty {n l tag s' t'} : Tag x n l tag → Inside x s' t' → Inside x (b! "<" ++ tag ++ b! "/>" ++ s') t'

/-- The elements that are looked at. -/
def fieldNames : List Bytes := [b! "buffer", b! "input", b! "output", b! "result", b! "error"]

/-- The test case after an element with the local name `n` and text `v`: one of its texts is replaced. -/
inductive Sets (v : Bytes) : Bytes → TestCase → TestCase → Prop
  | buffer {c} : Sets v (b! "buffer") c { c with buffer := v }
  | input {c} : Sets v (b! "input") c { c with input := v }
  | output {c} : Sets v (b! "output") c { c with output := v }
  | result {c} : Sets v (b! "result") c { c with result := v }
  | error {c} : Sets v (b! "error") c { c with error := v }

/-- The language of the expected result: the last attribute `lang` of a `result` element; without one it stays as it was. -/
def LangOf (l : List (Bytes × Bytes)) (n : Bytes) (before after : Bytes) : Prop :=
  (n = b! "result" ∧ ∃ pre a v post, l = pre ++ (a, v) :: post ∧ LocalPart a (b! "lang") ∧ (∀ s ∈ post, ¬ LocalPart s.1 (b! "lang")) ∧ after = v) ∨
  ((n ≠ b! "result" ∨ ∀ s ∈ l, ¬ LocalPart s.1 (b! "lang")) ∧ after = before)

/-- The contents of a test file, and how they change the test case: elements with one of the five names set its texts; everything else,
and text outside elements, is skipped. -/
inductive Fields (x : XmlExt) : Bytes → TestCase → TestCase → Prop
  | nil {c} : Fields x [] c c
  | text {s t s' c c'} : TextPiece s t → AtMarkup s' → Fields x s' c c' → Fields x (s ++ s') c c'
  | cdata {s t s' c c'} : Cdata s t → Fields x s' c c' → Fields x (s ++ s') c c'
  | aside {s s' c c'} : Aside x s → Fields x s' c c' → Fields x (s ++ s') c c'
  | field {n f l tag i v e s' c lang c1 c'} : Tag x n l tag → LocalPart n f → f ∈ fieldNames → Inside x i v → EndTag x n e →
      LangOf l f c.resultLang lang → Sets v f { c with resultLang := lang } c1 → Fields x s' c1 c' →
      Fields x (b! "<" ++ tag ++ b! ">" ++ i ++ e ++ s') c c'
  | emptyField {n f l tag s' c lang c1 c'} : Tag x n l tag → LocalPart n f → f ∈ fieldNames →
      LangOf l f c.resultLang lang → Sets [] f { c with resultLang := lang } c1 → Fields x s' c1 c' →
      Fields x (b! "<" ++ tag ++ b! "/>" ++ s') c c'
  | other {n f l tag i v e s' c c'} : Tag x n l tag → LocalPart n f → f ∉ fieldNames → Inside x i v → EndTag x n e → Fields x s' c c' →
      Fields x (b! "<" ++ tag ++ b! ">" ++ i ++ e ++ s') c c'
  | emptyOther {n f l tag s' c c'} : Tag x n l tag → LocalPart n f → f ∉ fieldNames → Fields x s' c c' →
      Fields x (b! "<" ++ tag ++ b! "/>" ++ s') c c'

/-- A test file: the contents as above; or such contents, then `</testcase>`, then anything at all. -/
def TestFile (x : XmlExt) (s : Bytes) (c : TestCase) : Prop :=
  Fields x s {} c ∨ ∃ a e rest, s = a ++ e ++ rest ∧ EndTag x (b! "testcase") e ∧ Fields x a {} c

/-- Why the test in a file fails, and what the report says: the file cannot be opened, or not read, or is not written as it should be, or the
test that it gives is not met. `msg` is what encoding/xml says of content that it refuses. -/
inductive TestFileFails [Ext] (x : XmlExt) (read : Bytes → Reading) (msg : Bytes → Bytes) (f : Bytes) : Bytes → Prop
  | cannotOpen {e} : read f = .cannotOpen e → TestFileFails x read msg f (b! "opening test file " ++ f ++ b! ": " ++ e)
  | cannotRead {e} : read f = .cannotRead e → TestFileFails x read msg f (b! "reading test case: " ++ e)
  | notXml {s} : read f = .content s → (∀ c, ¬ TestFile x s c) → TestFileFails x read msg f (b! "parsing test case: " ++ msg s)
  | test {s c e} : read f = .content s → TestFile x s c → WhyFails defaultEnv c e → TestFileFails x read msg f e

/-- The test files of a directory with these names in it: those that end in `.xml`, in ascending order. -/
def DirectoryTests (names files : List Bytes) : Prop :=
  ∃ ns : List Bytes, files = ns.map (b! "tests/" ++ ·) ∧ ns.Pairwise (fun a b => ¬ b < a) ∧ ns.Perm (names.filter (b! ".xml").isSuffixOf)

/-- Text written so that it can stand between tags. -/
def escaped : Bytes → Bytes
  | [] => []
  | b :: s => (if b = 38 then b! "&amp;" else if b = 60 then b! "&lt;" else if b = 62 then b! "&gt;" else if b = 13 then b! "&#13;" else [b]) ++ escaped s

/-- An element of a test file as one would write it: white space before it, its name, its text. -/
structure Element where
  space : Bytes
  name : Bytes
  text : Bytes

/-- How it is written. -/
def Element.written (e : Element) : Bytes :=
  e.space ++ b! "<" ++ e.name ++ b! ">" ++ escaped e.text ++ b! "</" ++ e.name ++ b! ">"

/-- The text of the last element with this name; without one `d`. -/
def lastText (n : Bytes) (d : Bytes) : List Element → Bytes
  | [] => d
  | e :: l => lastText n (if e.name = n then e.text else d) l

end Texted.Spec
