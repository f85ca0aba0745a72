import Verif.Model.Value
import Verif.Model.Parser
/-
Specification of the script syntax, independent of the lexer: string literals, closed text, plain names, tokens.
-/
namespace Texted
namespace Spec

/-- The inside of a string literal: characters other than `"` and `\`, and pairs `\c`. -/
inductive StrBody : List Char → Prop
  | nil : StrBody []
  | char (c : Char) (r : List Char) : c ≠ '"' → c ≠ '\\' → StrBody r → StrBody (c :: r)
  | esc (c : Char) (r : List Char) : StrBody r → StrBody ('\\' :: c :: r)

/-- Text whose string literals are all terminated: ordinary characters and complete literals. -/
inductive Closed : List Char → Prop
  | nil : Closed []
  | char (c : Char) (r : List Char) : c ≠ '"' → Closed r → Closed (c :: r)
  | lit (s r : List Char) : StrBody s → Closed r → Closed ('"' :: (s ++ '"' :: r))

/-- Closed text without semicolons outside its literals. -/
inductive OneCommand : List Char → Prop
  | nil : OneCommand []
  | char (c : Char) (r : List Char) : c ≠ '"' → c ≠ ';' → OneCommand r → OneCommand (c :: r)
  | lit (s r : List Char) : StrBody s → OneCommand r → OneCommand ('"' :: (s ++ '"' :: r))

/-- Characters of plain names: anything but white space, parentheses, double quotes and semicolons. -/
def nameChar (c : Char) : Prop := isSpace c = false ∧ c ≠ '(' ∧ c ≠ ')' ∧ c ≠ '"' ∧ c ≠ ';'

/-- A plain name: non-empty UTF-8 text of name characters that does not read as a number. -/
def PlainName (n : Bytes) : Prop := ∃ cs, n = encodeAll cs ∧ cs ≠ [] ∧ (∀ c ∈ cs, nameChar c) ∧ parseFloat n = none

mutual
/-- Values that the S-expression syntax can write down: symbols are plain names, numbers are float64s. -/
def Writable : Value → Prop
  | .sym n => PlainName n
  | .str _ => True
  | .num x => x.Canon
  | .list l => WritableAll l
@[inherit_doc Writable]
def WritableAll : List Value → Prop
  | [] => True
  | v :: vs => Writable v ∧ WritableAll vs
end

/-- A word of a command line: plain characters, or a string literal on one line. -/
def IsWord (t : Bytes) : Prop :=
  (∃ cs, t = encodeAll cs ∧ cs ≠ [] ∧ ∀ c ∈ cs, nameChar c) ∨
  (∃ s, t = encodeAll ('"' :: (s ++ ['"'])) ∧ StrBody s ∧ ∀ c ∈ s, c ≠ '\n' ∧ c ≠ '\r')

/-- A value that is a list. -/
def isList : Value → Prop
  | .list _ => True
  | _ => False

/-- A value that is not a list. -/
def isAtom : Value → Prop
  | .list _ => False
  | _ => True

end Spec
end Texted
