import Verif.Spec.Eval
import Verif.Spec.Text
/-
Specification vocabulary for UTF-8 text (C73). The encoding of a character is Lean's own `String.utf8EncodeChar`, not the model's.
-/
namespace Texted

/-- The bytes are the UTF-8 encoding of a sequence of characters. -/
def Utf8Text (s : Bytes) : Prop := ∃ cs : List Char, s = cs.flatMap String.utf8EncodeChar

/-- The (1-based) position `p` of the text `s` lies between two of its characters, or at an end: UTF-8 text before it and UTF-8 text
behind it. -/
def Between (s : Bytes) (p : Int) : Prop := ∃ u v, Utf8Text u ∧ Utf8Text v ∧ s = u ++ v ∧ p = u.length + 1

mutual
/-- Every string in the value (or expression) is UTF-8 text. -/
def Utf8Strings : Value → Prop
  | .str s => Utf8Text s
  | .list l => Utf8StringsAll l
  | _ => True
@[inherit_doc Utf8Strings]
def Utf8StringsAll : List Value → Prop
  | [] => True
  | v :: vs => Utf8Strings v ∧ Utf8StringsAll vs
end

/-- Functions that neither edit the text nor change the mark to a position that could lie inside a character, nor record a match. -/
def neutralFns : List Bytes := [b! "goto-line", b! "beginning-of-buffer", b! "end-of-buffer", b! "beginning-of-line",
  b! "end-of-line", b! "forward-word", b! "backward-word", b! "mark-word", b! "mark", b! "point", b! "line-number-at-pos",
  b! "region-beginning", b! "region-end", b! "length", b! "string-match", b! "buffer-size", b! "point-max", b! "point-min",
  b! "current-column", b! "upcase", b! "downcase", b! "capitalize", b! "concat", b! "looking-at", b! "looking-back",
  b! "replace-regexp-in-string"]

/-- Functions that record a match. -/
def searchFns : List Bytes := [b! "search-forward", b! "search-backward", b! "re-search-forward", b! "re-search-backward"]

/-- Functions that always set the mark, and set it between two characters. -/
def markSetters : List Bytes := [b! "set-mark", b! "mark-line", b! "mark-whole-buffer"]

/-- Functions that work with numbers of bytes: they can put point, mark or the end of an edit inside a character. -/
def byteFns : List Bytes := [b! "forward-char", b! "backward-char", b! "goto-char", b! "delete-char", b! "delete-backward-char",
  b! "set-mark-command", b! "kill-line", b! "backward-kill-word", b! "buffer-substring", b! "substring"]

/-- `Tidy m r l`: the functions of the list `l`, called one after the other, use the mark only where no edit has happened since it was
set, and the recorded match only where no edit has happened since it was recorded, and none is one of `byteFns`. `m` and `r` say whether that holds of the mark and of the recorded match at the beginning. -/
inductive Tidy : Bool → Bool → List Bytes → Prop
  | nil (m r) : Tidy m r []
  | neutral (m r f l) (hf : f ∈ neutralFns) (h : Tidy m r l) : Tidy m r (f :: l)
  | search (m r f l) (hf : f ∈ searchFns) (h : Tidy m true l) : Tidy m r (f :: l)
  | mark (m r f l) (hf : f ∈ markSetters) (h : Tidy true r l) : Tidy m r (f :: l)
  | edit (m r f l) (hf : f ∈ [b! "insert", b! "kill-word", b! "delete-line"]) (h : Tidy false false l) : Tidy m r (f :: l)
  | region (r f l) (hf : f ∈ [b! "delete-region", b! "replace-region"]) (h : Tidy false false l) : Tidy true r (f :: l)
  | exchange (r l) (h : Tidy true r l) : Tidy true r (b! "exchange-point-and-mark" :: l)
  | replace (m l) (h : Tidy false false l) : Tidy m true (b! "replace-match" :: l)

/-- A buffer with UTF-8 text in which point lies between two characters; so does the mark if `m`, and so do the ends of the recorded match
(if there is one) if `r`. -/
structure TextState (m r : Bool) (b : Buffer) : Prop where
  point : Between b.content b.point
  mark : m = true → Between b.content b.mark
  matched : r = true → b.lastMatch = [] ∨ (Between b.content b.lastStart ∧ Between b.content b.lastEnd)

/-- What is asked of the regular expression engine: in UTF-8 text it reports matches, and spans of groups, that begin and end between
characters (Go's package regexp matches rune by rune). -/
class TextExt [Ext] : Prop where
  find : ∀ p re s i j, Ext.compile p = .ok re → Utf8Text s → re.find s = some (i, j) → i ≤ j ∧ Between s (i + 1) ∧ Between s (j + 1)
  findAll : ∀ p re s i j, Ext.compile p = .ok re → Utf8Text s → (i, j) ∈ re.findAll s →
    i ≤ j ∧ Between s (i + 1) ∧ Between s (j + 1)
  groups : ∀ p re s m i j, Ext.compile p = .ok re → Utf8Text s → m ∈ re.findAll s → some (i, j) ∈ re.groups s m →
    i ≤ j ∧ Between s (i + 1) ∧ Between s (j + 1)
  order : ∀ p re s, Ext.compile p = .ok re → Utf8Text s → (re.findAll s).Pairwise fun a c => a.2 ≤ c.1

/-- The text contains a backslash followed by one of these letters. -/
def EscapeIn (letters : Bytes) (s : Bytes) : Prop := ∃ u c v, s = u ++ 92 :: c :: v ∧ c ∈ letters

/-- ASCII text. -/
def AsciiText (s : Bytes) : Prop := ∀ x ∈ s, x.toNat < 128

mutual
/-- Every string in the value (or expression) is ASCII text. -/
def AsciiStrings : Value → Prop
  | .str s => AsciiText s
  | .list l => AsciiStringsAll l
  | _ => True
@[inherit_doc AsciiStrings]
def AsciiStringsAll : List Value → Prop
  | [] => True
  | v :: vs => AsciiStrings v ∧ AsciiStringsAll vs
end

end Texted
