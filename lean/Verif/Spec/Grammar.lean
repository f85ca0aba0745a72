import Verif.Spec.Syntax
import Verif.Spec.Number
/-
A declarative grammar of scripts, independent of the lexer and of the recursive-descent parser: which texts are programs
and which programs they are.
-/
namespace Texted
namespace Spec

/-- Blanks between tokens. -/
def blank (c : Char) : Prop := c = ' ' ∨ c = '\t' ∨ c = '\n' ∨ c = '\r'

/-- Parentheses. -/
def parenthesis (c : Char) : Prop := c = '(' ∨ c = ')'

instance (c : Char) : Decidable (blank c) := by unfold blank; infer_instance
instance (c : Char) : Decidable (parenthesis c) := by unfold parenthesis; infer_instance

/-- Text of one token other than a parenthesis: characters that are neither blanks nor parentheses nor quotes, and
complete string literals. -/
inductive Word : List Char → Prop
  | nil : Word []
  | char (c : Char) (r : List Char) : c ≠ '"' → ¬ blank c → ¬ parenthesis c → Word r → Word (c :: r)
  | lit (s r : List Char) : StrBody s → Word r → Word ('"' :: (s ++ '"' :: r))

/-- `Tokens cs ts`: the tokens of the text `cs` are `ts`. Blanks separate, parentheses stand for themselves, words are
maximal. -/
inductive Tokens : List Char → List (List Char) → Prop
  | nil : Tokens [] []
  | blank (c : Char) (r : List Char) (ts : List (List Char)) : blank c → Tokens r ts → Tokens (c :: r) ts
  | paren (c : Char) (r : List Char) (ts : List (List Char)) : parenthesis c → Tokens r ts → Tokens (c :: r) ([c] :: ts)
  | word (w r : List Char) (ts : List (List Char)) : Word w → w ≠ [] → (∀ c ∈ r.head?, Spec.blank c ∨ parenthesis c) →
      Tokens r ts → Tokens (w ++ r) (w :: ts)

/-- What a single word means. A word that begins and ends with a double quote is a string literal — if it is not a correct one, it means
nothing. Any other word is the number it denotes, and if it denotes none, a symbol. -/
inductive AtomReads : List Char → Value → Prop
  | str (w : List Char) (s : Bytes) : StringLit w s → AtomReads w (.str s)
  | num (w : List Char) (x : F64) : ¬ Quoted w → NumberText (encodeAll w) x → AtomReads w (.num x)
  | sym (w : List Char) : ¬ Quoted w → (∀ x, ¬ NumberText (encodeAll w) x) → AtomReads w (.sym (encodeAll w))

/-- `ReadsAll ts vs`: the tokens `ts` spell exactly the values `vs`, one after the other, with matching parentheses. -/
inductive ReadsAll : List (List Char) → List Value → Prop
  | nil : ReadsAll [] []
  | atom (t : List Char) (v : Value) (ts : List (List Char)) (vs : List Value) : t ≠ ['('] → t ≠ [')'] → AtomReads t v →
      ReadsAll ts vs → ReadsAll (t :: ts) (v :: vs)
  | list (inner : List (List Char)) (l : List Value) (ts : List (List Char)) (vs : List Value) : ReadsAll inner l → ReadsAll ts vs →
      ReadsAll (['('] :: (inner ++ [')'] :: ts)) (.list l :: vs)

/-- What one command (text without surrounding white space) means. A command starting with `(` is the expression it
starts with — the tokens after that are ignored; any other command is the list of everything on it. -/
def CommandReads (cs : List Char) (v : Value) : Prop :=
  if cs.head? = some '(' then ∃ used ignored, Tokens cs (used ++ ignored) ∧ ReadsAll used [v]
  else ∃ ts vs, Tokens cs ts ∧ ReadsAll ts vs ∧ v = .list vs

/-- Text without leading and trailing white space. -/
def trimmed (cs : List Char) : List Char := ((cs.dropWhile isSpace).reverse.dropWhile isSpace).reverse

/-- What the text between semicolons means: nothing if it is white space, otherwise one command. -/
def SegmentReads (seg : List Char) (p : List Value) : Prop :=
  OneCommand seg ∧ ((trimmed seg = [] ∧ p = []) ∨ (trimmed seg ≠ [] ∧ ∃ v, CommandReads (trimmed seg) v ∧ p = [v]))

/-- What a line means: its commands in order. -/
inductive LineReads : List Char → List Value → Prop
  | last (seg : List Char) (p : List Value) : SegmentReads seg p → LineReads seg p
  | more (seg rest : List Char) (p q : List Value) : SegmentReads seg p → LineReads rest q →
      LineReads (seg ++ ';' :: rest) (p ++ q)

/-- What a sequence of lines (without their newlines) means: the commands of all of them in order. Lines are shorter than
64 KiB and may end in a carriage return. -/
inductive LinesRead : List Bytes → List Value → Prop
  | nil : LinesRead [] []
  | cons (l : Bytes) (ls : List Bytes) (p q : List Value) : l.length < 65536 → LineReads (decodeAll (dropCR l)) p →
      LinesRead ls q → LinesRead (l :: ls) (p ++ q)

/-- What a script means. -/
def ScriptReads (s : Bytes) (p : List Value) : Prop := LinesRead (splitByte nl s) p

end Spec
end Texted
