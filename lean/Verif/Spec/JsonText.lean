import Verif.Model.Json
import Verif.Spec.Number
import Verif.Spec.Json
import Verif.Spec.Mcp
/-
JSON texts and what they mean: the grammar of RFC 8259 with the choices encoding/json makes where the RFC leaves them open (ill-formed
UTF-8 and lone surrogates become U+FFFD, numbers are float64, at most 10000 levels).
-/
namespace Texted
namespace Spec

/-- White space between tokens. -/
def Spaces (s : Bytes) : Prop := ∀ c ∈ s, c ∈ [ch ' ', ch '\t', ch '\n', ch '\r']

/-- Four hexadecimal digits and their number. -/
def Hex4 (h : Bytes) (n : Nat) : Prop :=
  h.length = 4 ∧ (∀ c ∈ h, IsDigit 16 c) ∧ n = numeral 16 (h.map fun c => Char.ofNat c.toNat)

/-- The first half of a surrogate pair. -/
def HighHalf (n : Nat) : Prop := 0xD800 ≤ n ∧ n < 0xDC00

/-- The second half. -/
def LowHalf (n : Nat) : Prop := 0xDC00 ≤ n ∧ n < 0xE000

/-- The one-letter escapes and what they stand for. -/
def jsonEscapes : List (Char × Char) :=
  [('"', '"'), ('\\', '\\'), ('/', '/'), ('b', '\x08'), ('f', '\x0c'), ('n', '\n'), ('r', '\r'), ('t', '\t')]

/-- `StringBody s t`: the text `s` between double quotes stands for `t`. -/
inductive StringBody : Bytes → Bytes → Prop
  | nil : StringBody [] []
  /-- a character from U+0020 on, other than `"` and `\`, stands for itself -/
  | char {s t : Bytes} (c : Char) : 32 ≤ c.toNat → c ≠ '"' → c ≠ '\\' → StringBody s t → StringBody (encodeRune c ++ s) (encodeRune c ++ t)
  /-- a byte that belongs to no character -/
  | bad {b : UInt8} {s t : Bytes} : (∀ c r, b :: s ≠ encodeRune c ++ r) → StringBody s t → StringBody (b :: s) (encodeRune '\uFFFD' ++ t)
  | escape {e c : Char} {s t : Bytes} : (e, c) ∈ jsonEscapes → StringBody s t → StringBody (ch '\\' :: ch e :: s) (ch c :: t)
  | unicode {h s t : Bytes} {n : Nat} : Hex4 h n → ¬ HighHalf n → ¬ LowHalf n → StringBody s t →
      StringBody (ch '\\' :: ch 'u' :: (h ++ s)) (encodeRune (Char.ofNat n) ++ t)
  | pair {h l s t : Bytes} {hi lo : Nat} : Hex4 h hi → HighHalf hi → Hex4 l lo → LowHalf lo → StringBody s t →
      StringBody (ch '\\' :: ch 'u' :: (h ++ ch '\\' :: ch 'u' :: (l ++ s)))
        (encodeRune (Char.ofNat ((hi - 0xD800) * 0x400 + (lo - 0xDC00) + 0x10000)) ++ t)
  /-- a half without the other -/
  | lone {h s t : Bytes} {n : Nat} : Hex4 h n → HighHalf n ∨ LowHalf n →
      ¬ (HighHalf n ∧ ∃ l r lo, s = ch '\\' :: ch 'u' :: (l ++ r) ∧ Hex4 l lo ∧ LowHalf lo) → StringBody s t →
      StringBody (ch '\\' :: ch 'u' :: (h ++ s)) (encodeRune '\uFFFD' ++ t)

/-- Decimal digits, at least one. -/
def Digits (t : Bytes) : Prop := t ≠ [] ∧ ∀ c ∈ t, IsDigit 10 c

/-- Digits without a needless leading zero. -/
def WholePart (t : Bytes) : Prop := t = [ch '0'] ∨ Digits t ∧ t.head? ≠ some (ch '0')

/-- A point and digits, or nothing. -/
def FractionPart (t : Bytes) : Prop := t = [] ∨ ∃ d, t = ch '.' :: d ∧ Digits d

/-- A letter e, an optional sign and digits, or nothing. -/
def ExponentPart (t : Bytes) : Prop :=
  t = [] ∨ ∃ m sg d, t = m :: (sg ++ d) ∧ (m = ch 'e' ∨ m = ch 'E') ∧ (sg = [] ∨ sg = [ch '+'] ∨ sg = [ch '-']) ∧ Digits d

/-- How numbers are written. -/
def NumberShape (t : Bytes) : Prop :=
  ∃ sg i f e, t = sg ++ i ++ f ++ e ∧ (sg = [] ∨ sg = [ch '-']) ∧ WholePart i ∧ FractionPart f ∧ ExponentPart e

/-- A number of JSON and the float64 nearest to it. -/
def JsonNumber (t : Bytes) (x : F64) : Prop := NumberShape t ∧ NumberText t x

mutual
/-- The text, without white space around it, stands for the value. -/
inductive JsonSays : Bytes → Json → Prop
  | null : JsonSays (b! "null") .null
  | true : JsonSays (b! "true") (.bool true)
  | false : JsonSays (b! "false") (.bool false)
  | num {t : Bytes} {x : F64} : JsonNumber t x → JsonSays t (.num x)
  | str {s t : Bytes} : StringBody s t → JsonSays (ch '"' :: (s ++ [ch '"'])) (.str t)
  | empty {w : Bytes} : Spaces w → JsonSays (ch '[' :: (w ++ [ch ']'])) (.arr [])
  | arr {s : Bytes} {l : List Json} : JsonItems s l → JsonSays (ch '[' :: (s ++ [ch ']'])) (.arr l)
  | emptyObj {w : Bytes} : Spaces w → JsonSays (ch '{' :: (w ++ [ch '}'])) (.obj [])
  | obj {s : Bytes} {l : List (Bytes × Json)} : JsonMembers s l → JsonSays (ch '{' :: (s ++ [ch '}'])) (.obj l)
/-- Values separated by commas. -/
inductive JsonItems : Bytes → List Json → Prop
  | one {w s v : Bytes} {j : Json} : Spaces w → JsonSays s j → Spaces v → JsonItems (w ++ (s ++ v)) [j]
  | more {w s v r : Bytes} {j : Json} {l : List Json} : Spaces w → JsonSays s j → Spaces v → JsonItems r l →
      JsonItems (w ++ (s ++ (v ++ ch ',' :: r))) (j :: l)
/-- Names and values separated by commas. -/
inductive JsonMembers : Bytes → List (Bytes × Json) → Prop
  | one {w k w2 w3 s v : Bytes} {key : Bytes} {j : Json} : Spaces w → StringBody k key → Spaces w2 → Spaces w3 → JsonSays s j → Spaces v →
      JsonMembers (w ++ ch '"' :: (k ++ ch '"' :: (w2 ++ ch ':' :: (w3 ++ (s ++ v))))) [(key, j)]
  | more {w k w2 w3 s v r : Bytes} {key : Bytes} {j : Json} {l : List (Bytes × Json)} : Spaces w → StringBody k key → Spaces w2 → Spaces w3 →
      JsonSays s j → Spaces v → JsonMembers r l →
      JsonMembers (w ++ ch '"' :: (k ++ ch '"' :: (w2 ++ ch ':' :: (w3 ++ (s ++ (v ++ ch ',' :: r)))))) ((key, j) :: l)
end

/-- At most `n` arrays and objects around each other. -/
inductive Within : Nat → Json → Prop
  | null {n : Nat} : Within n .null
  | bool {n : Nat} {b : Bool} : Within n (.bool b)
  | num {n : Nat} {x : F64} : Within n (.num x)
  | str {n : Nat} {s : Bytes} : Within n (.str s)
  | arr {n : Nat} {l : List Json} : (∀ j ∈ l, Within n j) → Within (n + 1) (.arr l)
  | obj {n : Nat} {l : List (Bytes × Json)} : (∀ f ∈ l, Within n f.2) → Within (n + 1) (.obj l)

/-- `s` is a JSON text for `j`. -/
def JsonText (s : Bytes) (j : Json) : Prop :=
  ∃ w b v, s = w ++ (b ++ v) ∧ Spaces w ∧ JsonSays b j ∧ Spaces v ∧ Within 10000 j

/-- The number `t` ends here: the first character of `rest` could not be its next. -/
def NumberEnds (t rest : Bytes) : Prop := ∀ c r, rest = c :: r → ∀ q, ¬ NumberShape (t ++ c :: q)

/-- `s` is a sequence of JSON texts, with or without white space between them. -/
inductive JsonStream : Bytes → List Json → Prop
  | done {w : Bytes} : Spaces w → JsonStream w []
  | next {w b rest : Bytes} {j : Json} {l : List Json} : Spaces w → JsonSays b j → Within 10000 j → ((∃ x, j = .num x) → NumberEnds b rest) →
      JsonStream rest l → JsonStream (w ++ (b ++ rest)) (j :: l)

mutual
/-- The JSON value is written for the command: an array of the name and the arguments. -/
inductive CommandIs : Json → Value → Prop
  | empty : CommandIs (.arr []) (.list [])
  | call {name : Bytes} {l : List Json} {args : List Value} : ArgumentsAre l args → CommandIs (.arr (.str name :: l)) (.list (.sym name :: args))
/-- Strings stand for strings, numbers for numbers, arrays for commands. -/
inductive ArgumentsAre : List Json → List Value → Prop
  | nil : ArgumentsAre [] []
  | str {s : Bytes} {l : List Json} {vs : List Value} : ArgumentsAre l vs → ArgumentsAre (.str s :: l) (.str s :: vs)
  | num {x : F64} {l : List Json} {vs : List Value} : ArgumentsAre l vs → ArgumentsAre (.num x :: l) (.num x :: vs)
  | cmd {j : Json} {v : Value} {l : List Json} {vs : List Value} : CommandIs j v → ArgumentsAre l vs → ArgumentsAre (j :: l) (v :: vs)
end

/-- One after the other. -/
inductive CommandsAre : List Json → List Value → Prop
  | nil : CommandsAre [] []
  | cons {j : Json} {v : Value} {l : List Json} {vs : List Value} : CommandIs j v → CommandsAre l vs → CommandsAre (j :: l) (v :: vs)

/-- What `texted parse` reads: besides commands, bare strings stand for symbols and bare numbers for numbers. -/
inductive EntriesAre : List Json → List Value → Prop
  | nil : EntriesAre [] []
  | cmd {j : Json} {v : Value} {l : List Json} {vs : List Value} : CommandIs j v → EntriesAre l vs → EntriesAre (j :: l) (v :: vs)
  | sym {s : Bytes} {l : List Json} {vs : List Value} : EntriesAre l vs → EntriesAre (.str s :: l) (.sym s :: vs)
  | num {x : F64} {l : List Json} {vs : List Value} : EntriesAre l vs → EntriesAre (.num x :: l) (.num x :: vs)

mutual
/-- Every string and every name in the value is UTF-8. -/
inductive Textual : Json → Prop
  | null : Textual .null
  | bool {b : Bool} : Textual (.bool b)
  | num {x : F64} : Textual (.num x)
  | str (cs : List Char) : Textual (.str (encodeAll cs))
  | arr {l : List Json} : TextualItems l → Textual (.arr l)
  | obj {l : List (Bytes × Json)} : TextualMembers l → Textual (.obj l)
@[inherit_doc Textual]
inductive TextualItems : List Json → Prop
  | nil : TextualItems []
  | cons {j : Json} {l : List Json} : Textual j → TextualItems l → TextualItems (j :: l)
@[inherit_doc Textual]
inductive TextualMembers : List (Bytes × Json) → Prop
  | nil : TextualMembers []
  | cons (cs : List Char) {j : Json} {l : List (Bytes × Json)} : Textual j → TextualMembers l → TextualMembers ((encodeAll cs, j) :: l)
end

mutual
/-- All numbers of the value are finite float64s. -/
def Numbers : Value → Prop
  | .num x => x.Canon ∧ ∃ neg m e, x = .fin neg m e
  | .list l => AllNumbers l
  | _ => True
@[inherit_doc Numbers]
def AllNumbers : List Value → Prop
  | [] => True
  | v :: vs => Numbers v ∧ AllNumbers vs
end

mutual
/-- The JSON value in which the value is written. -/
inductive WrittenAs : Value → Json → Prop
  | sym {n u : Bytes} : Shown n u → WrittenAs (.sym n) (.str u)
  | str {s u : Bytes} : Shown s u → WrittenAs (.str s) (.str u)
  | num {x : F64} : WrittenAs (.num x) (.num x)
  | list {l : List Value} {js : List Json} : WrittenAll l js → WrittenAs (.list l) (.arr js)
@[inherit_doc WrittenAs]
inductive WrittenAll : List Value → List Json → Prop
  | nil : WrittenAll [] []
  | cons {v : Value} {j : Json} {l : List Value} {js : List Json} : WrittenAs v j → WrittenAll l js → WrittenAll (v :: l) (j :: js)
end

end Spec
end Texted
