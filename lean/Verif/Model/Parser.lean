import Verif.Model.Unquote
import Verif.Model.Quote
/-
The script parser: /repo/edlisp/parser/linebased.go.
-/
namespace Texted

/-- `unicode.IsSpace` (Unicode property White_Space; Go standard library). -/
def isSpace (c : Char) : Bool :=
  let n := c.toNat
  (9 ≤ n && n ≤ 13) || n = 32 || n = 0x85 || n = 0xA0 || n = 0x1680 || (0x2000 ≤ n && n ≤ 0x200A) ||
    n = 0x2028 || n = 0x2029 || n = 0x202F || n = 0x205F || n = 0x3000

/-- A string cut into its runes, each with the bytes it came from (`utf8.DecodeRuneInString` repeatedly). Fuel bounds the
number of runes. -/
def chunksAux : Nat → Bytes → List (Char × Bytes)
  | 0, _ => []
  | _, [] => []
  | f + 1, s => let p := decodeRune s; (p.1, s.take p.2) :: chunksAux f (s.drop p.2)

@[inherit_doc chunksAux]
def chunks (s : Bytes) : List (Char × Bytes) := chunksAux s.length s

/-- `strings.TrimLeftFunc(s, unicode.IsSpace)`. -/
def trimLeft (s : Bytes) : Bytes := ((chunks s).dropWhile fun p => isSpace p.1).flatMap (·.2)

/-- `strings.TrimSpace(s)`. (Go scans backwards for the end; UTF-8 being self-synchronizing, that finds the same runes.) -/
def trimSpace (s : Bytes) : Bytes :=
  ((((chunks s).dropWhile fun p => isSpace p.1).reverse.dropWhile fun p => isSpace p.1).reverse).flatMap (·.2)

/-- `bufio.Scanner`'s `MaxScanTokenSize`. -/
def maxToken : Nat := 65536

/-- `bufio.ScanLines`' `dropCR`. -/
def dropCR (s : Bytes) : Bytes := if s.getLast? = some 13 then s.dropLast else s

/-- The loop variables of `tokenize` and `splitOnSemicolons` (/repo/edlisp/parser/linebased.go:160-163, 257-260):
finished parts, `current` (as runes; a `strings.Builder` fed by `WriteRune`), `inQuotes`, `escapeNext`. -/
structure Lex where
  parts : List (List Char) := []
  current : List Char := []
  inQuotes : Bool := false
  escapeNext : Bool := false

/-- `tokens = append(tokens, current.String()); current.Reset()`. -/
def Lex.flush (x : Lex) : Lex := { x with parts := x.parts ++ [x.current], current := [] }

/-- `current.WriteRune(r)`. -/
def Lex.write (x : Lex) (r : Char) : Lex := { x with current := x.current ++ [r] }

/-- `if current.Len() > 0 { append; reset }`. -/
def Lex.flushNonempty (x : Lex) : Lex := if x.current = [] then x else x.flush

/-- One iteration of the loop of `splitOnSemicolons` (/repo/edlisp/parser/linebased.go:262-289). -/
def splitStep (x : Lex) (r : Char) : Lex :=
  if x.escapeNext then { x.write r with escapeNext := false }
  else if r = '\\' then { x.write r with escapeNext := x.inQuotes }
  else if r = '"' then { x.write r with inQuotes := !x.inQuotes }
  else if r = ';' then (if x.inQuotes then x.write r else x.flush)
  else x.write r

/-- /repo/edlisp/parser/linebased.go:256-297 `splitOnSemicolons`. -/
def splitOnSemicolons (line : Bytes) : List Bytes :=
  (((decodeAll line).foldl splitStep {}).flushNonempty.parts).map encodeAll

/-- One iteration of the loop of `tokenize` (/repo/edlisp/parser/linebased.go:165-201). -/
def tokenStep (x : Lex) (r : Char) : Lex :=
  if x.escapeNext then { x.write r with escapeNext := false }
  else if r = '\\' then { x.write r with escapeNext := x.inQuotes }
  else if r = '"' then { x.write r with inQuotes := !x.inQuotes }
  else if r = '(' ∨ r = ')' then
    (if x.inQuotes then x.write r else { x.flushNonempty with parts := x.flushNonempty.parts ++ [[r]] })
  else if r = ' ' ∨ r = '\t' ∨ r = '\n' ∨ r = '\r' then
    (if x.inQuotes then x.write r else x.flushNonempty)
  else x.write r

/-- /repo/edlisp/parser/linebased.go:159-212 `tokenize`. -/
def tokenize (line : Bytes) : Except Bytes (List Bytes) :=
  let x := (decodeAll line).foldl tokenStep {}
  if x.inQuotes then .error (b! "unterminated string literal")
  else .ok (x.flushNonempty.parts.map encodeAll)

/-- /repo/edlisp/parser/linebased.go:300-320 `parseToken`. -/
def parseToken (token : Bytes) : Except Bytes Value :=
  if hasPrefix token (b! "\"") && hasSuffix token (b! "\"") then
    if token.length < 2 then .error (b! "invalid string literal: " ++ token)
    else match unquote token with
      | some s => .ok (.str s)
      | none => .error (b! "invalid string literal " ++ token ++ b! ": invalid syntax")
  else match parseFloat token with
    | some x => .ok (.num x)
    | none => .ok (.sym token)

mutual
/-- /repo/edlisp/parser/linebased.go:215-232 `parseTokens`. The position in the token slice is represented by the tokens
from there on. Fuel bounds the recursion; running out of it is `panic` (C42 proves that it never happens). -/
def parseTokens : Nat → List Bytes → Res Bytes (Value × List Bytes)
  | 0, _ => .panic
  | _ + 1, [] => .err (b! "unexpected end of input")
  | f + 1, t :: rest =>
    if t = b! "(" then
      match parseList f rest with
      | .ok (vs, r) => .ok (.list vs, r)
      | .err e => .err e
      | .panic => .panic
    else if t = b! ")" then .err (b! "unexpected closing parenthesis")
    else match parseToken t with
      | .ok v => .ok (v, rest)
      | .error e => .err e
/-- /repo/edlisp/parser/linebased.go:235-253 `parseList`: the elements up to the closing parenthesis and the tokens
after it. -/
def parseList : Nat → List Bytes → Res Bytes (List Value × List Bytes)
  | 0, _ => .panic
  | _ + 1, [] => .err (b! "unterminated list")
  | f + 1, t :: rest =>
    if t = b! ")" then .ok ([], rest)
    else match parseTokens f (t :: rest) with
      | .ok (v, r) =>
        match parseList f r with
        | .ok (vs, r) => .ok (v :: vs, r)
        | .err e => .err e
        | .panic => .panic
      | .err e => .err e
      | .panic => .panic
end

/-- Fuel for the recursive functions on a token list. -/
def tokenFuel (tokens : List Bytes) : Nat := 2 * tokens.length + 2

/-- /repo/edlisp/parser/linebased.go:111-119 `parseSExpression`: the tokens after the first expression are ignored. -/
def parseSExpression (line : Bytes) : Res Bytes Value :=
  match tokenize line with
  | .error e => .err e
  | .ok tokens => match parseTokens (tokenFuel tokens) tokens with
    | .ok (v, _) => .ok v
    | .err e => .err e
    | .panic => .panic

/-- The loop of `parseShellLike` (/repo/edlisp/parser/linebased.go:131-153). -/
def shellLoop : Nat → List Bytes → Res Bytes (List Value)
  | 0, _ => .panic
  | _ + 1, [] => .ok []
  | f + 1, t :: rest =>
    if t = b! "(" then
      match parseTokens (tokenFuel (t :: rest)) (t :: rest) with
      | .ok (v, r) =>
        match shellLoop f r with
        | .ok vs => .ok (v :: vs)
        | .err e => .err e
        | .panic => .panic
      | .err e => .err e
      | .panic => .panic
    else if t = b! ")" then .err (b! "unexpected closing parenthesis in shell-like syntax")
    else match parseToken t with
      | .error e => .err e
      | .ok v =>
        match shellLoop f rest with
        | .ok vs => .ok (v :: vs)
        | .err e => .err e
        | .panic => .panic

/-- /repo/edlisp/parser/linebased.go:122-156 `parseShellLike`. -/
def parseShellLike (line : Bytes) : Res Bytes Value :=
  match tokenize line with
  | .error e => .err e
  | .ok tokens => match shellLoop (tokens.length + 1) tokens with
    | .ok vs => .ok (.list vs)
    | .err e => .err e
    | .panic => .panic

/-- /repo/edlisp/parser/linebased.go:103-108 `parseLine`. -/
def parseLine (line : Bytes) : Res Bytes Value :=
  if hasPrefix line (b! "(") then parseSExpression line else parseShellLike line

/-- The inner loop of `ParseReader` (/repo/edlisp/parser/linebased.go:33-44). -/
def parseCommands : List Bytes → Res Bytes (List Value)
  | [] => .ok []
  | c :: cs =>
    if trimSpace c = [] then parseCommands cs
    else match parseLine (trimSpace c) with
      | .ok v => match parseCommands cs with
        | .ok vs => .ok (v :: vs)
        | .err e => .err e
        | .panic => .panic
      | .err e => .err e
      | .panic => .panic

/-- The body of the outer loop of `ParseReader` for one scanned line (/repo/edlisp/parser/linebased.go:26-44). -/
def parseRawLine (line : Bytes) : Res Bytes (List Value) :=
  parseCommands (splitOnSemicolons (trimLeft line))

/-- The outer loop of `ParseReader` (/repo/edlisp/parser/linebased.go:25-51) over the lines of the input (without their
newlines); `bufio.Scanner` stops with `ErrTooLong` at the first line that does not fit its buffer. -/
def parseLines : List Bytes → Res Bytes (List Value)
  | [] => .ok []
  | l :: ls =>
    if maxToken ≤ l.length then .err (b! "reading input: bufio.Scanner: token too long")
    else match parseRawLine (dropCR l) with
      | .ok vs => match parseLines ls with
        | .ok ws => .ok (vs ++ ws)
        | .err e => .err e
        | .panic => .panic
      | .err e => .err e
      | .panic => .panic

/-- The lines `bufio.ScanLines` finds: split at newlines; what follows the last newline is a line unless it is empty.
(An empty last line would parse to nothing anyway.) -/
def scanLines (s : Bytes) : List Bytes := splitByte nl s

/-- /repo/edlisp/parser/linebased.go:21-57 `ParseReader`, `ParseString`. The reader is the given bytes (read errors other
than the scanner's own are not modelled; every caller passes an in-memory string or standard input). -/
def parseString (s : Bytes) : Res Bytes (List Value) := parseLines (scanLines s)

/-- /repo/edlisp/parser/linebased.go:61-83 `ParseSexp`. -/
def parseSexp (s : Bytes) : Res Bytes (List Value) :=
  let t := trimSpace s
  if t = [] then .ok []
  else if hasPrefix t (b! "(") then
    match parseSExpression t with
    | .ok v => .ok [v]
    | .err e => .err e
    | .panic => .panic
  else match parseToken t with
    | .ok v => .ok [v]
    | .error e => .err e

end Texted
