import Verif.Model.Utf8
/-
`regexp.ReplaceAllString`, used by /repo/edlisp/builtin_replace_regexp_in_string.go:33: every match is replaced by the template with
its references to groups filled in (`regexp.Regexp.expand`, `regexp.extract`). The matches are those of `FindAllStringIndex`.
-/
namespace Texted

/-- `unicode.IsLetter(r) || unicode.IsDigit(r) || r == '_'`. -/
def nameRune [Ext] (c : Char) : Bool := if c.toNat < 128 then c.isAlphanum || c = '_' else Ext.nameRune c

/-- `extract`: the length of the name the text begins with. Fuel bounds the number of runes. -/
def nameLength [Ext] : Nat → Bytes → Nat
  | 0, _ => 0
  | _, [] => 0
  | f + 1, x :: r =>
    if nameRune (decodeRune (x :: r)).1 then (decodeRune (x :: r)).2 + nameLength f ((x :: r).drop (decodeRune (x :: r)).2) else 0

/-- `extract`: the number loop, from `num` on; `none` is -1. -/
def refNumberLoop (num : Nat) : Bytes → Option Nat
  | [] => some num
  | c :: r => if c < 48 ∨ 57 < c ∨ num ≥ 100000000 then none else refNumberLoop (num * 10 + (c.toNat - 48)) r

/-- `extract`: the number a name stands for, if it stands for one. -/
def refNumber (name : Bytes) : Option Nat :=
  if name.head? = some 48 ∧ name.length > 1 then none else refNumberLoop 0 name

/-- `extract` on the text behind a `$`: the name and the rest, or `none` if there is no valid name. -/
def extractRef [Ext] (t : Bytes) : Option (Bytes × Bytes) :=
  if t.head? = some 123 then
    let str := t.drop 1
    let i := nameLength str.length str
    if i = 0 then none else if str[i]? = some 125 then some (str.take i, str.drop (i + 1)) else none
  else
    let i := nameLength t.length t
    if i = 0 then none else some (t.take i, t.drop i)

/-- `src[match[2*k]:match[2*k+1]]` if group `k` took part in the match. -/
def matchText (s : Bytes) : Option (Nat × Nat) → Bytes
  | some (i, j) => (s.drop i).take (j - i)
  | none => []

/-- `expand`: the loop over the names of the groups. -/
def lookupName (s name : Bytes) : List Bytes → List (Option (Nat × Nat)) → Bytes
  | n :: ns, g :: gs => if n = name ∧ g.isSome then matchText s g else lookupName s name ns gs
  | _, _ => []

/-- `expand`: what a reference stands for. -/
def refText (re : Regex) (s : Bytes) (m : Nat × Nat) (name : Bytes) : Bytes :=
  match refNumber name with
  | some 0 => matchText s (some m)
  | some (k + 1) => matchText s ((re.groups s m)[k]?).join
  | none => lookupName s name re.names (re.groups s m)

/-- `expand`. Fuel bounds the number of steps. -/
def expandLoop [Ext] (re : Regex) (s : Bytes) (m : Nat × Nat) : Nat → Bytes → Bytes
  | 0, _ => []
  | _, [] => []
  | f + 1, c :: t =>
    if c ≠ 36 then c :: expandLoop re s m f t
    else if t.head? = some 36 then 36 :: expandLoop re s m f (t.drop 1)
    else match extractRef t with
      | none => 36 :: expandLoop re s m f t
      | some (name, rest) => refText re s m name ++ expandLoop re s m f rest

/-- `expand`. -/
def expand [Ext] (re : Regex) (s : Bytes) (m : Nat × Nat) (template : Bytes) : Bytes := expandLoop re s m template.length template

/-- `replaceAll`: from offset `last` (`lastMatchEnd`) on, with the matches still to come. -/
def replaceLoop [Ext] (re : Regex) (s template : Bytes) : Nat → List (Nat × Nat) → Bytes
  | last, [] => s.drop last
  | last, (i, j) :: l => (s.drop last).take (i - last) ++ expand re s (i, j) template ++ replaceLoop re s template j l

/-- `ReplaceAllString`. -/
def Regex.replaceAll [Ext] (re : Regex) (s template : Bytes) : Bytes := replaceLoop re s template 0 (re.findAll s)

end Texted
