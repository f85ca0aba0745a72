import Verif.Model.TestRunner
/-
Reading a test file: /repo/edlisp/testing/testing.go:53-83 `ParseTestCase`, with the parts of Go 1.24's package encoding/xml it
uses (`Unmarshal`, `Decoder.Token`, `Decoder.rawToken`, `Decoder.text`, ... in strict mode). Every error is `none`: its text is not
modelled. At the end of the input every function gives `none`: the element that was opened first is never closed then, so `Unmarshal` fails
whatever came before.
-/
namespace Texted

/-- What is not modelled in encoding/xml: whether the contents of a `<?xml ...?>` instruction are acceptable (version, encoding), and which
runes from U+0080 on may begin a name (table `first`) or stand in it (tables `first`, `second`). -/
structure XmlExt where
  declOk : Bytes → Bool
  nameStart : Char → Bool
  namePart : Char → Bool

/-- `isInCharacterRange`; surrogates cannot occur in a `Char`. -/
def xmlChar (c : Char) : Bool :=
  c.toNat == 0x09 || c.toNat == 0x0A || c.toNat == 0x0D || (0x20 ≤ c.toNat && c.toNat ≤ 0xFFFD) || 0x10000 ≤ c.toNat

/-- The loops of `Decoder.text` and `isName` over the runes of a string: all well-formed and accepted. -/
def checkRunes (ok : Char → Bool) : Nat → Bytes → Bool
  | 0, _ => true
  | _, [] => true
  | f + 1, s =>
    let p := decodeRune s
    if p.1 = runeError ∧ p.2 = 1 then false else ok p.1 && checkRunes ok f (s.drop p.2)

/-- `isNameByte`, or a byte of a rune from U+0080 on. -/
def xmlNameByte (b : UInt8) : Bool :=
  (65 ≤ b && b ≤ 90) || (97 ≤ b && b ≤ 122) || (48 ≤ b && b ≤ 57) || b == 95 || b == 58 || b == 46 || b == 45 || 128 ≤ b

/-- `unicode.Is(first, c)`. -/
def XmlExt.first (x : XmlExt) (c : Char) : Bool :=
  if c.toNat < 128 then c == ':' || c == '_' || ('A' ≤ c && c ≤ 'Z') || ('a' ≤ c && c ≤ 'z') else x.nameStart c

/-- `unicode.Is(first, c) || unicode.Is(second, c)`. -/
def XmlExt.part (x : XmlExt) (c : Char) : Bool :=
  if c.toNat < 128 then x.first c || c == '-' || c == '.' || ('0' ≤ c && c ≤ '9') else x.nameStart c || x.namePart c

/-- `isName`, on a nonempty string. -/
def XmlExt.isName (x : XmlExt) (s : Bytes) : Bool := checkRunes x.part s.length s && x.first (decodeRune s).1

/-- `Decoder.readName` and `Decoder.name`. -/
def xmlName (x : XmlExt) (s : Bytes) : Option (Bytes × Bytes) :=
  let n := s.takeWhile xmlNameByte
  let r := s.dropWhile xmlNameByte
  if n = [] ∨ r = [] then none else if x.isName n then some (n, r) else none

/-- `Name` before the translation of name spaces. -/
structure XName where
  space : Bytes
  loc : Bytes
  deriving DecidableEq

/-- `Decoder.nsname`, on the name already read. -/
def splitName (s : Bytes) : Option XName :=
  match splitByte 58 s with
  | [_] => some ⟨[], s⟩
  | [a, b] => if a = [] ∨ b = [] then some ⟨[], s⟩ else some ⟨a, b⟩
  | _ => none

/-- `Decoder.nsname`. -/
def xmlNsName (x : XmlExt) (s : Bytes) : Option (XName × Bytes) :=
  match xmlName x s with
  | none => none
  | some (n, r) => match splitName n with
    | none => none
    | some q => some (q, r)

/-- `Decoder.space`. -/
def xmlSpace (b : UInt8) : Bool := b == 32 || b == 13 || b == 10 || b == 9

/-- `Decoder.space`: what follows. -/
def skipSpace (s : Bytes) : Bytes := s.dropWhile xmlSpace

/-- The value of a digit, for `strconv.ParseUint`. -/
def xmlDigit (b : UInt8) : Nat := if b ≤ 57 then b.toNat - 48 else if b ≤ 70 then b.toNat - 55 else b.toNat - 87

/-- `'0' <= b && b <= '9' || base == 16 && ...`. -/
def isXmlDigit (hex : Bool) (b : UInt8) : Bool := (48 ≤ b && b ≤ 57) || (hex && ((97 ≤ b && b ≤ 102) || (65 ≤ b && b ≤ 70)))

/-- The number of a character reference (`strconv.ParseUint`; one that does not fit into 64 bits is refused like every other one above
`unicode.MaxRune`). -/
def xmlNumber (base : Nat) (s : Bytes) : Nat := s.foldl (fun n b => n * base + xmlDigit b) 0

/-- `string(rune(n))`. -/
def runeText (n : Nat) : Bytes := encodeRune (if n < 0xD800 ∨ 0xDFFF < n then Char.ofNat n else runeError)

/-- `Decoder.text` behind `&#` or `&#x`. -/
def xmlCharRef (hex : Bool) (s : Bytes) : Option (Bytes × Bytes) :=
  let d := s.takeWhile (isXmlDigit hex)
  match s.dropWhile (isXmlDigit hex) with
  | 59 :: r =>
    let n := xmlNumber (if hex then 16 else 10) d
    if d = [] ∨ 0x10FFFF < n then none else some (runeText n, r)
  | _ => none

/-- The table `entity`. -/
def xmlEntity (n : Bytes) : Option Bytes :=
  if n = b! "lt" then some [60]
  else if n = b! "gt" then some [62]
  else if n = b! "amp" then some [38]
  else if n = b! "apos" then some [39]
  else if n = b! "quot" then some [34]
  else none

/-- `Decoder.text` behind `&`: the text that is meant, and the rest. -/
def xmlReference : Bytes → Option (Bytes × Bytes)
  | 35 :: 120 :: s => xmlCharRef true s
  | 35 :: s => xmlCharRef false s
  | s =>
    match s.dropWhile xmlNameByte with
    | 59 :: r => match xmlEntity (s.takeWhile xmlNameByte) with
      | some t => some (t, r)
      | none => none
    | _ => none

/-- The loop of `Decoder.text`: `q` is the quote that ends the text, `b0` and `b1` are the two bytes before, `acc` is what has been written,
last byte first. The result is what was written, and the rest. Fuel: the number of bytes left is enough. -/
def textLoop (q : Option UInt8) (cdata : Bool) : Nat → UInt8 → UInt8 → Bytes → Bytes → Option (Bytes × Bytes)
  | 0, _, _, _, _ => none
  | _, _, _, _, [] => none
  | f + 1, b0, b1, acc, b :: s =>
    if q = none ∧ b0 = 93 ∧ b1 = 93 ∧ b = 62 then
      if cdata then some ((acc.drop 2).reverse, s) else none
    else if b = 60 ∧ !cdata then
      if q.isSome then none else some (acc.reverse, b :: s)
    else if q = some b then some (acc.reverse, s)
    else if b = 38 ∧ !cdata then
      match xmlReference s with
      | none => none
      | some (t, r) => textLoop q cdata f 0 0 (t.reverse ++ acc) r
    else if b = 13 then textLoop q cdata f b1 b (10 :: acc) s
    else if b1 = 13 ∧ b = 10 then textLoop q cdata f b1 b acc s
    else textLoop q cdata f b1 b (b :: acc) s

/-- `Decoder.text`. -/
def xmlText (q : Option UInt8) (cdata : Bool) (s : Bytes) : Option (Bytes × Bytes) :=
  match textLoop q cdata s.length 0 0 [] s with
  | none => none
  | some (t, r) => if checkRunes xmlChar t.length t then some (t, r) else none

/-- A token. Comments, instructions and directives are all `other`. -/
inductive XTok
  | start (name : XName) (attrs : List (XName × Bytes))
  | stop (name : XName)
  | text (t : Bytes)
  | other
  deriving DecidableEq

/-- The attributes in `Decoder.rawToken`, up to `>` (`false`) or `/>` (`true`). Fuel: the number of bytes left is enough. -/
def xmlAttrs (x : XmlExt) : Nat → Bytes → Option (List (XName × Bytes) × Bool × Bytes)
  | 0, _ => none
  | f + 1, s =>
    match skipSpace s with
    | 47 :: 62 :: r => some ([], true, r)
    | 62 :: r => some ([], false, r)
    | s => match xmlNsName x s with
      | none => none
      | some (n, r) => match skipSpace r with
        | 61 :: r => match skipSpace r with
          | q :: r =>
            if q = 34 ∨ q = 39 then
              match xmlText (some q) false r with
              | none => none
              | some (v, r) => match xmlAttrs x f r with
                | none => none
                | some (l, e, r) => some ((n, v) :: l, e, r)
            else none
          | [] => none
        | _ => none

/-- The end of a comment in `Decoder.rawToken`: the rest behind `-->`. -/
def skipComment : UInt8 → UInt8 → Bytes → Option Bytes
  | _, _, [] => none
  | b0, b1, b :: s => if b0 = 45 ∧ b1 = 45 then (if b = 62 then some s else none) else skipComment b1 b s

/-- The end of a comment inside a directive: the rest behind the first `-->`. -/
def skipInnerComment : UInt8 → UInt8 → Bytes → Option Bytes
  | _, _, [] => none
  | b0, b1, b :: s => if b0 = 45 ∧ b1 = 45 ∧ b = 62 then some s else skipInnerComment b1 b s

/-- The end of an instruction: its contents, and the rest behind `?>`. -/
def skipInst : UInt8 → Bytes → Bytes → Option (Bytes × Bytes)
  | _, _, [] => none
  | b0, acc, b :: s => if b0 = 63 ∧ b = 62 then some ((acc.drop 1).reverse, s) else skipInst b (b :: acc) s

/-- The end of a directive `<!...>`; `q` is the open quote (0: none). Where Go reads ahead behind `<` and goes back (`HandleB`), the next
byte is simply looked at again. Fuel: the number of bytes left is enough. -/
def skipDirective : Nat → UInt8 → Nat → Bytes → Option Bytes
  | 0, _, _, _ => none
  | _, _, _, [] => none
  | f + 1, q, depth, b :: s =>
    if q = 0 ∧ b = 62 ∧ depth = 0 then some s
    else if b = q then skipDirective f 0 depth s
    else if q ≠ 0 then skipDirective f q depth s
    else if b = 39 ∨ b = 34 then skipDirective f b depth s
    else if b = 62 then skipDirective f q (depth - 1) s
    else if b = 60 then
      match s with
      | 33 :: 45 :: 45 :: r => match skipInnerComment 0 0 r with
        | none => none
        | some r => skipDirective f q depth r
      | _ => skipDirective f q (depth + 1) s
    else skipDirective f q depth s

/-- `Decoder.rawToken`: the next token and the rest; a self-closing element is two tokens. -/
def rawToken (x : XmlExt) : Bytes → Option (List XTok × Bytes)
  | 60 :: 47 :: s => match xmlNsName x s with
    | none => none
    | some (n, r) => match skipSpace r with
      | 62 :: r => some ([.stop n], r)
      | _ => none
  | 60 :: 63 :: s => match xmlName x s with
    | none => none
    | some (n, r) => match skipInst 0 [] (skipSpace r) with
      | none => none
      | some (d, r) => if n = b! "xml" ∧ x.declOk d = false then none else some ([.other], r)
  | 60 :: 33 :: 45 :: 45 :: s => match skipComment 0 0 s with
    | none => none
    | some r => some ([.other], r)
  | 60 :: 33 :: 45 :: _ => none
  | 60 :: 33 :: 91 :: s =>
    if b! "CDATA[" <+: s then
      match xmlText none true (s.drop 6) with
      | none => none
      | some (t, r) => some ([.text t], r)
    else none
  | 60 :: 33 :: _ :: s => match skipDirective s.length 0 0 s with
    | none => none
    | some r => some ([.other], r)
  | 60 :: 33 :: [] => none
  | 60 :: s => match xmlNsName x s with
    | none => none
    | some (n, r) => match xmlAttrs x r.length r with
      | none => none
      | some (l, true, r) => some ([.start n l, .stop n], r)
      | some (l, false, r) => some ([.start n l], r)
  | s => match xmlText none false s with
    | none => none
    | some (t, r) => some ([.text t], r)

/-- The fields of the structure in /repo/edlisp/testing/testing.go:62-69 that are filled. -/
inductive TestField
  | buffer | input | output | result | error
  deriving DecidableEq

/-- The field an element fills: by the local part of its name (`unmarshalPath`). -/
def fieldOf (n : Bytes) : Option TestField :=
  if n = b! "buffer" then some .buffer
  else if n = b! "input" then some .input
  else if n = b! "output" then some .output
  else if n = b! "result" then some .result
  else if n = b! "error" then some .error
  else none

/-- The field is set to the character data of the element. -/
def TestCase.put (t : TestCase) (v : Bytes) : TestField → TestCase
  | .buffer => { t with buffer := v }
  | .input => { t with input := v }
  | .output => { t with output := v }
  | .result => { t with result := v }
  | .error => { t with error := v }

/-- The attributes of the element (`xml:"lang,attr"`); the `lang` of `input` and `error` is never read and left out. -/
def TestCase.putLang (t : TestCase) (attrs : List (XName × Bytes)) : TestField → TestCase
  | .result => attrs.foldl (fun t a => if a.1.loc = b! "lang" then { t with resultLang := a.2 } else t) t
  | _ => t

/-- Where `Unmarshal` is: the open elements, innermost first; the test case so far; the field being read with its data so far; how many
elements are open that are skipped (`Decoder.Skip`). -/
structure XState where
  stack : List XName
  case : TestCase
  cur : Option (TestField × Bytes)
  skip : Nat

/-- One token: `Decoder.Token` (which compares the names of an end element and of the element it closes) and the loops of `unmarshal` and
`Skip`. `inl`: the element read first is closed, and that is the result. -/
def XState.step (st : XState) : XTok → Option (TestCase ⊕ XState)
  | .start n attrs =>
    let st := { st with stack := n :: st.stack }
    if st.skip > 0 then some (.inr { st with skip := st.skip + 1 })
    else match st.cur with
      | some _ => some (.inr { st with skip := 1 })
      | none => match fieldOf n.loc with
        | none => some (.inr { st with skip := 1 })
        | some f => some (.inr { st with cur := some (f, []), case := st.case.putLang attrs f })
  | .stop n =>
    match st.stack with
    | [] => none
    | m :: stack =>
      if m = n then
        let st := { st with stack := stack }
        if st.skip > 0 then some (.inr { st with skip := st.skip - 1 })
        else match st.cur with
          | some (f, d) => some (.inr { st with case := st.case.put d f, cur := none })
          | none => some (.inl st.case)
      else none
  | .text t =>
    if st.skip > 0 then some (.inr st)
    else match st.cur with
      | some (f, d) => some (.inr { st with cur := some (f, d ++ t) })
      | none => some (.inr st)
  | .other => some (.inr st)

/-- Several tokens. -/
def XState.steps (st : XState) : List XTok → Option (TestCase ⊕ XState)
  | [] => some (.inr st)
  | t :: ts => match st.step t with
    | none => none
    | some (.inl c) => some (.inl c)
    | some (.inr st) => st.steps ts

/-- `Unmarshal` inside the element read first. Fuel: the number of bytes left is enough. -/
def unmarshalLoop (x : XmlExt) : Nat → XState → Bytes → Option TestCase
  | 0, _, _ => none
  | f + 1, st, s => match rawToken x s with
    | none => none
    | some (ts, r) => match st.steps ts with
      | none => none
      | some (.inl c) => some c
      | some (.inr st) => unmarshalLoop x f st r

/-- `xml.Unmarshal` into the structure of /repo/edlisp/testing/testing.go:62-69: the first element must be a `testcase`; what comes behind its
end is not looked at. Here the input begins with `<testcase>`. -/
def unmarshalCase (x : XmlExt) (s : Bytes) : Option TestCase :=
  match rawToken x s with
  | some ([.start n _], r) =>
    if n.loc = b! "testcase" then unmarshalLoop x r.length ⟨[n], {}, none, 0⟩ r else none
  | _ => none

/-- /repo/edlisp/testing/testing.go:53-83 `ParseTestCase`. -/
def parseTestCase (x : XmlExt) (content : Bytes) : Option TestCase :=
  unmarshalCase x (b! "<testcase>" ++ content ++ b! "</testcase>")

/-- What comes of opening and reading a file. -/
inductive Reading where
  | cannotOpen (e : Bytes)
  | cannotRead (e : Bytes)
  | content (s : Bytes)

/-- /repo/edlisp/testing/testing.go:51-94 `ParseTestFile`, `ParseTestCase`: `read` is what comes of opening and reading a file; `msg` is what
encoding/xml says of content that it refuses. -/
def loadTest (x : XmlExt) (read : Bytes → Reading) (msg : Bytes → Bytes) (file : Bytes) : Except Bytes TestCase :=
  match read file with
  | .cannotOpen e => .error (b! "opening test file " ++ file ++ b! ": " ++ e)
  | .cannotRead e => .error (b! "reading test case: " ++ e)
  | .content content => match parseTestCase x content with
    | none => .error (b! "parsing test case: " ++ msg content)
    | some c => .ok c

/-- The names in ascending order: `slices.Sort` (insertion of one name). -/
def insertName (n : Bytes) : List Bytes → List Bytes
  | [] => [n]
  | m :: r => if bytesLess m n then m :: insertName n r else n :: m :: r

@[inherit_doc insertName]
def sortNames : List Bytes → List Bytes
  | [] => []
  | n :: r => insertName n (sortNames r)

/-- The loop of path/filepath `Match` for the pattern `*.xml` (`matchChunk` of `.xml` at each position up to a slash). -/
def matchXml : Bytes → Bool
  | [] => false
  | c :: r => c :: r = b! ".xml" || (c ≠ 47 && matchXml r)

/-- /repo/commands/test.go:68 `filepath.Glob("tests/*.xml")`: `names` are the names in the directory `tests` as the system gives them (none if
there is no such directory or it cannot be read; a failure in the middle is ignored, as in `glob`). A name has no slash. -/
def globTests (names : List Bytes) : List Bytes :=
  ((sortNames names).filter matchXml).map (b! "tests/" ++ ·)

end Texted
