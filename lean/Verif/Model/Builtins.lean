import Verif.Model.Buffer
import Verif.Model.Expand
/-
The 50 built-in functions (/repo/edlisp/builtin_*.go), one definition per Go function.

A built-in returns its result and the buffer after the call, also when it fails, so that "a failing
command changes nothing" is a statement that could be false. After `panic` the buffer is meaningless.
-/
namespace Texted

/-- /repo/edlisp/eval.go:9 `BuiltinFn`. -/
abbrev Builtin := List Value → Buffer → Res Bytes Value × Buffer

/-- `return NewString(""), nil`. -/
def done (b : Buffer) : Res Bytes Value × Buffer := (.ok (.str []), b)

/-- `return v, nil`. -/
def ret (v : Value) (b : Buffer) : Res Bytes Value × Buffer := (.ok v, b)

/-- `return nil, fmt.Errorf(msg)`. -/
def fail (msg : Bytes) (b : Buffer) : Res Bytes Value × Buffer := (.err msg, b)

/-- A run-time panic. -/
def crash (b : Buffer) : Res Bytes Value × Buffer := (.panic, b)

/-- `fmt.Errorf("<name> expects <what>, got %d", len(args))`. -/
def arity (name what : Bytes) (n : Nat) : Bytes := name ++ b! " expects " ++ what ++ b! ", got " ++ natDec n

/-- The prologue `count := 1; if len(args) > 1 {…}; if len(args) == 1 {…; count = int(…)}` shared by
backward-char, forward-char, delete-char, delete-backward-char, forward-word, backward-word, kill-word,
backward-kill-word, kill-line, mark-line and delete-line
(e.g. /repo/edlisp/builtin_backward_char.go:11-22). -/
def optCount [Ext] (name : Bytes) (args : List Value) : Except Bytes Int :=
  match args with
  | [] => .ok 1
  | [.num x] => .ok x.toInt
  | [_] => .error (name ++ b! " expects a number argument")
  | _ => .error (arity name b! "at most 1 argument" args.length)

/-- `args` must be empty: `if len(args) != 0 {…}`. -/
def noArgs (name : Bytes) (args : List Value) (b : Buffer) (k : Res Bytes Value × Buffer) : Res Bytes Value × Buffer :=
  match args with
  | [] => k
  | _ => fail (arity name b! "0 arguments" args.length) b

/-- Exactly one string argument: `if len(args) != 1 {…}; if !IsA(args[0], TheStringKind) {…}`. -/
def oneStr (name : Bytes) (args : List Value) (b : Buffer) (k : Bytes → Res Bytes Value × Buffer) : Res Bytes Value × Buffer :=
  match args with
  | [.str s] => k s
  | [_] => fail (name ++ b! " expects a string argument") b
  | _ => fail (arity name b! "1 argument" args.length) b

/-- Exactly one number argument. -/
def oneNum [Ext] (name : Bytes) (args : List Value) (b : Buffer) (k : Int → Res Bytes Value × Buffer) : Res Bytes Value × Buffer :=
  match args with
  | [.num x] => k x.toInt
  | [_] => fail (name ++ b! " expects a number argument") b
  | _ => fail (arity name b! "1 argument" args.length) b

/-- Optional count, then continue. -/
def withCount [Ext] (name : Bytes) (args : List Value) (b : Buffer) (k : Int → Res Bytes Value × Buffer) : Res Bytes Value × Buffer :=
  match optCount name args with
  | .ok n => k n
  | .error e => fail e b

/-- `NewNumber(float64(n))`. -/
def numV (n : Int) : Value := .num (F64.ofInt n)

/-- The symbols `t` and `nil`. -/
def symT : Value := .sym b! "t"
@[inherit_doc symT] def symNil : Value := .sym b! "nil"

/-- `content[:start] + text + content[end:]` written back to the buffer, then point set to `p`. -/
def spliceOr (b : Buffer) (i : Int) (text : Bytes) (j : Int) (p : Int) : Res Bytes Value × Buffer :=
  match sliceTo b.content i, sliceFrom b.content j with
  | some pre, some post => done { b with content := pre ++ text ++ post, point := p }
  | _, _ => crash b

section
variable [Ext]

/-! ### Movement -/

/-- /repo/edlisp/builtin_backward_char.go:10-32 -/
def builtinBackwardChar : Builtin := fun args b =>
  withCount b! "backward-char" args b fun count =>
    let newPos := wrap64 (b.point - count)
    done { b with point := if newPos < 1 then 1 else newPos }

/-- /repo/edlisp/builtin_forward_char.go:10-35 -/
def builtinForwardChar : Builtin := fun args b =>
  withCount b! "forward-char" args b fun count =>
    let newPos := wrap64 (b.point + count)
    done { b with point := if newPos < 1 then 1 else if newPos > (b.content.length : Int) + 1 then (b.content.length : Int) + 1 else newPos }

/-- /repo/edlisp/builtin_backward_word.go:12-42 -/
def builtinBackwardWord : Builtin := fun args b =>
  withCount b! "backward-word" args b fun count =>
    match bwdWords b.content count.toNat (dec64 b.point) with
    | none => crash b
    | some pos => done { b with point := incPos b.content pos }

/-- /repo/edlisp/builtin_forward_word.go:12-42 -/
def builtinForwardWord : Builtin := fun args b =>
  withCount b! "forward-word" args b fun count =>
    match fwdWords b.content count.toNat (dec64 b.point) with
    | none => crash b
    | some pos => done { b with point := incPos b.content pos }

/-- /repo/edlisp/builtin_beginning_of_buffer.go:9-16 -/
def builtinBeginningOfBuffer : Builtin := fun args b =>
  noArgs b! "beginning-of-buffer" args b <| done { b with point := 1 }

/-- /repo/edlisp/builtin_end_of_buffer.go:9-17 -/
def builtinEndOfBuffer : Builtin := fun args b =>
  noArgs b! "end-of-buffer" args b <| done { b with point := (b.content.length : Int) + 1 }

/-- /repo/edlisp/builtin_beginning_of_line.go:10-33 -/
def builtinBeginningOfLine : Builtin := fun args b =>
  noArgs b! "beginning-of-line" args b <|
    let pos := dec64 b.point
    if pos < 0 then done { b with point := 1 }
    else
      let pos := if pos ≥ (b.content.length : Int) then (b.content.length : Int) - 1 else pos
      match scanBack b.content (· == nl) pos with
      | none => crash b
      | some pos => done { b with point := pos + 1 }

/-- /repo/edlisp/builtin_end_of_line.go:10-35 -/
def builtinEndOfLine : Builtin := fun args b =>
  noArgs b! "end-of-line" args b <|
    let pos := dec64 b.point
    let pos := atLeast0 pos
    if pos ≥ (b.content.length : Int) then done { b with point := (b.content.length : Int) + 1 }
    else match scanFwd b.content (· == nl) pos with
      | none => crash b
      | some pos => done { b with point := pos + 1 }

/-- /repo/edlisp/builtin_goto_char.go:12-33 -/
def builtinGotoChar : Builtin := fun args b =>
  oneNum b! "goto-char" args b fun pos =>
    done { b with point := if pos < 1 then 1 else if pos > (b.content.length : Int) + 1 then (b.content.length : Int) + 1 else pos }

/-- The sum `pos := 1; for i := 0; i < lineNum-1; i++ { pos += len(lines[i]) + 1 }`
(/repo/edlisp/builtin_goto_line.go:34-37); `none` is the index panic. -/
def lineOffset (lines : List Bytes) : Nat → Nat → Option Int
  | 0, _ => some 1
  | k + 1, i => match lines[i]? with
    | none => none
    | some l => (lineOffset lines k (i + 1)).map (fun p => p + l.length + 1)

/-- /repo/edlisp/builtin_goto_line.go:12-41 -/
def builtinGotoLine : Builtin := fun args b =>
  oneNum b! "goto-line" args b fun lineNum =>
    let lines := splitByte nl b.content
    let lineNum : Int := if lineNum < 1 then 1 else if lineNum > lines.length then lines.length else lineNum
    match lineOffset lines (lineNum - 1).toNat 0 with
    | none => crash b
    | some pos => done { b with point := pos }

/-! ### Search -/

/-- /repo/edlisp/builtin_search_forward.go:12-46 -/
def builtinSearchForward : Builtin := fun args b =>
  oneStr b! "search-forward" args b fun s =>
    let startPos := dec64 b.point
    let startPos := atLeast0 startPos
    if startPos ≥ (b.content.length : Int) then fail b! "search failed" b
    else match sliceFrom b.content startPos with
      | none => crash b
      | some area => match indexOf s area with
        | none => fail b! "search failed" b
        | some index =>
          let matchStart := startPos + index + 1
          let matchEnd := matchStart + s.length
          done { b with point := matchEnd, lastMatch := s, lastStart := matchStart, lastEnd := matchEnd }

/-- /repo/edlisp/builtin_search_backward.go:12-47 -/
def builtinSearchBackward : Builtin := fun args b =>
  oneStr b! "search-backward" args b fun s =>
    let endPos := dec64 b.point
    let endPos := atMost (b.content.length : Int) endPos
    if endPos < 0 then fail b! "search failed" b
    else match sliceTo b.content endPos with
      | none => crash b
      | some area => match lastIndexOf s area with
        | none => fail b! "search failed" b
        | some index =>
          let matchStart : Int := index + 1
          let matchEnd := matchStart + s.length
          done { b with point := matchEnd, lastMatch := s, lastStart := matchStart, lastEnd := matchEnd }

/-- /repo/edlisp/builtin_re_search_forward.go:13-52 -/
def builtinReSearchForward : Builtin := fun args b =>
  oneStr b! "re-search-forward" args b fun s =>
    let startPos := dec64 b.point
    let startPos := atLeast0 startPos
    if startPos ≥ (b.content.length : Int) then fail b! "search failed" b
    else match Ext.compile s with
      | .error e => fail (b! "invalid regexp: " ++ e) b
      | .ok re => match sliceFrom b.content startPos with
        | none => crash b
        | some area => match re.find area with
          | none => fail b! "search failed" b
          | some (i, j) =>
            let matchStart := startPos + i + 1
            let matchEnd := startPos + j + 1
            match slice b.content (startPos + i) (startPos + j) with
            | none => crash b
            | some m => done { b with point := matchEnd, lastMatch := m, lastStart := matchStart, lastEnd := matchEnd }

/-- /repo/edlisp/builtin_re_search_backward.go:13-56 -/
def builtinReSearchBackward : Builtin := fun args b =>
  oneStr b! "re-search-backward" args b fun s =>
    let endPos := dec64 b.point
    let endPos := atMost (b.content.length : Int) endPos
    if endPos < 0 then fail b! "search failed" b
    else match Ext.compile s with
      | .error e => fail (b! "invalid regexp: " ++ e) b
      | .ok re => match sliceTo b.content endPos with
        | none => crash b
        | some area => match (re.findAll area).getLast? with
          | none => fail b! "search failed" b
          | some (i, j) =>
            match slice b.content i j with
            | none => crash b
            | some m => done { b with point := j + 1, lastMatch := m, lastStart := i + 1, lastEnd := j + 1 }

/-- /repo/edlisp/builtin_replace_match.go:14-45 -/
def builtinReplaceMatch : Builtin := fun args b =>
  oneStr b! "replace-match" args b fun s =>
    if b.lastMatch = [] then fail b! "no previous search" b
    else
      let start := b.lastStart - 1
      let stop := b.lastEnd - 1
      if start < 0 ∨ stop > (b.content.length : Int) ∨ start ≥ stop then fail b! "invalid search match positions" b
      else spliceOr b start s stop (start + s.length + 1)

/-- /repo/edlisp/builtin_looking_at.go:15-49 -/
def builtinLookingAt : Builtin := fun args b =>
  oneStr b! "looking-at" args b fun pattern =>
    let pos := dec64 b.point
    if pos < 0 ∨ pos ≥ (b.content.length : Int) then ret symNil b
    else match sliceFrom b.content pos with
      | none => crash b
      | some rest => match Ext.compile pattern with
        | .error _ => if hasPrefix rest pattern then ret symT b else ret symNil b
        | .ok re => match re.find rest with
          | some (0, _) => ret symT b
          | _ => ret symNil b

/-- /repo/edlisp/builtin_looking_back.go:17-52 -/
def builtinLookingBack : Builtin := fun args b =>
  oneStr b! "looking-back" args b fun pattern =>
    let pos := dec64 b.point
    if pos ≤ 0 then ret symNil b
    else match Ext.compile pattern with
      | .error _ =>
        if pos ≥ pattern.length then
          match sliceTo b.content pos with
          | none => crash b
          | some before => if hasSuffix before pattern then ret symT b else ret symNil b
        else ret symNil b
      | .ok re => match sliceTo b.content pos with
        | none => crash b
        | some before => match re.find before with
          | some (_, j) => if j = before.length then ret symT b else ret symNil b
          | none => ret symNil b

/-! ### Mark and region -/

/-- /repo/edlisp/builtin_set_mark.go:11-18 -/
def builtinSetMark : Builtin := fun args b =>
  noArgs b! "set-mark" args b <| done { b with mark := b.point }

/-- /repo/edlisp/builtin_set_mark_command.go:11-29 -/
def builtinSetMarkCommand : Builtin := fun args b =>
  match args with
  | [] => done { b with mark := b.point }
  | [.num x] => done { b with mark := x.toInt }
  | [_] => fail b! "set-mark-command expects a number argument" b
  | _ => fail (arity b! "set-mark-command" b! "at most 1 argument" args.length) b

/-- /repo/edlisp/builtin_exchange_point_and_mark.go:12-24 -/
def builtinExchangePointAndMark : Builtin := fun args b =>
  noArgs b! "exchange-point-and-mark" args b <| done { b with point := b.mark, mark := b.point }

/-- /repo/edlisp/builtin_mark_whole_buffer.go:12-22 -/
def builtinMarkWholeBuffer : Builtin := fun args b =>
  noArgs b! "mark-whole-buffer" args b <| done { b with mark := 1, point := (b.content.length : Int) + 1 }

/-- /repo/edlisp/builtin_mark_word.go:12-41 -/
def builtinMarkWord : Builtin := fun args b =>
  noArgs b! "mark-word" args b <|
    let pos := dec64 b.point
    if pos < 0 ∨ pos ≥ (b.content.length : Int) then done b
    else match scanBack b.content (fun x => !isLetter x) pos, scanFwd b.content (fun x => !isLetter x) pos with
      | some start, some stop => done { b with mark := start + 1, point := stop + 1 }
      | _, _ => crash b

/-- /repo/edlisp/builtin_mark_line.go:12-50 -/
def builtinMarkLine : Builtin := fun args b =>
  withCount b! "mark-line" args b fun count =>
    let pos := dec64 b.point
    match scanBack b.content (· == nl) pos, fwdLines b.content count.toNat pos with
    | some lineStart, some lineEnd =>
      done { b with mark := incPos b.content lineStart, point := incPos b.content lineEnd }
    | _, _ => crash b

/-- /repo/edlisp/builtin_region_beginning.go:11-24 -/
def builtinRegionBeginning : Builtin := fun args b =>
  noArgs b! "region-beginning" args b <| ret (numV (if b.mark > b.point then b.point else b.mark)) b

/-- /repo/edlisp/builtin_region_end.go:11-24 -/
def builtinRegionEnd : Builtin := fun args b =>
  noArgs b! "region-end" args b <| ret (numV (if b.mark > b.point then b.mark else b.point)) b

/-! ### Editing -/

/-- /repo/edlisp/builtin_insert.go:9-21 -/
def builtinInsert : Builtin := fun args b =>
  oneStr b! "insert" args b fun s => done (b.insert s)

/-- The 0-based bounds of the region, clamped to the buffer: `start, end := mark, point; swap; start--; end--;
clamp` (/repo/edlisp/builtin_delete_region.go:16-32, builtin_replace_region.go:21-37). -/
def regionBounds (b : Buffer) : Int × Int :=
  let start := if b.mark > b.point then b.point else b.mark
  let stop := if b.mark > b.point then b.mark else b.point
  let start := dec64 start
  let stop := dec64 stop
  (atLeast0 start, atMost (b.content.length : Int) stop)

/-- /repo/edlisp/builtin_delete_region.go:11-45 -/
def builtinDeleteRegion : Builtin := fun args b =>
  noArgs b! "delete-region" args b <|
    let r := regionBounds b
    if r.1 ≥ r.2 then done b else spliceOr b r.1 [] r.2 (r.1 + 1)

/-- /repo/edlisp/builtin_replace_region.go:10-50 -/
def builtinReplaceRegion : Builtin := fun args b =>
  oneStr b! "replace-region" args b fun s =>
    let r := regionBounds b
    if r.1 ≥ r.2 then done b else spliceOr b r.1 s r.2 (r.1 + s.length + 1)

/-- /repo/edlisp/builtin_delete_char.go:10-44 -/
def builtinDeleteChar : Builtin := fun args b =>
  withCount b! "delete-char" args b fun count =>
    if b.point < 1 ∨ b.point > (b.content.length : Int) then done b
    else
      let startPos := b.point - 1
      let endPos := wrap64 (startPos + count)
      let endPos := atMost (b.content.length : Int) endPos
      spliceOr b startPos [] endPos b.point

/-- /repo/edlisp/builtin_delete_backward_char.go:10-46 -/
def builtinDeleteBackwardChar : Builtin := fun args b =>
  withCount b! "delete-backward-char" args b fun count =>
    let endPos := dec64 b.point
    let startPos := wrap64 (endPos - count)
    let startPos := atLeast0 startPos
    if startPos ≥ endPos then done b else spliceOr b startPos [] endPos (startPos + 1)

/-- /repo/edlisp/builtin_delete_line.go:11-52 -/
def builtinDeleteLine : Builtin := fun args b =>
  withCount b! "delete-line" args b fun count =>
    let pos := dec64 b.point
    match scanBack b.content (· == nl) pos, fwdLines b.content count.toNat pos with
    | some lineStart, some lineEnd => spliceOr b lineStart [] lineEnd (lineStart + 1)
    | _, _ => crash b

/-- /repo/edlisp/builtin_kill_line.go:11-63 -/
def builtinKillLine : Builtin := fun args b =>
  withCount b! "kill-line" args b fun count =>
    let pos := dec64 b.point
    if pos < 0 ∨ pos ≥ (b.content.length : Int) then done b
    else if count = 1 then
      match scanFwd b.content (· == nl) (pos + 1) with
      | none => crash b
      | some lineEnd => spliceOr b (pos + 1) [] lineEnd b.point
    else
      match fwdLines b.content count.toNat pos with
      | none => crash b
      | some lineEnd => spliceOr b pos [] lineEnd b.point

/-- /repo/edlisp/builtin_kill_word.go:12-46 -/
def builtinKillWord : Builtin := fun args b =>
  withCount b! "kill-word" args b fun count =>
    let startPos := dec64 b.point
    match fwdWords b.content count.toNat startPos with
    | none => crash b
    | some pos => spliceOr b startPos [] pos b.point

/-- /repo/edlisp/builtin_backward_kill_word.go:12-55 -/
def builtinBackwardKillWord : Builtin := fun args b =>
  withCount b! "backward-kill-word" args b fun count =>
    let startPos := dec64 b.point
    match bwdWords b.content count.toNat startPos with
    | none => crash b
    | some pos =>
      let endIndex := incPos b.content startPos
      let endIndex := atMost (b.content.length : Int) endIndex
      spliceOr b pos [] endIndex (pos + 1)

/-! ### Queries -/

/-- /repo/edlisp/builtin_point.go:36-42 -/
def builtinPoint : Builtin := fun args b => noArgs b! "point" args b <| ret (numV b.point) b

/-- /repo/edlisp/builtin_mark.go:38-44 -/
def builtinMark : Builtin := fun args b => noArgs b! "mark" args b <| ret (numV b.mark) b

/-- /repo/edlisp/builtin_point_max.go:37-44 -/
def builtinPointMax : Builtin := fun args b => noArgs b! "point-max" args b <| ret (numV ((b.content.length : Int) + 1)) b

/-- /repo/edlisp/builtin_point_min.go:39-45 -/
def builtinPointMin : Builtin := fun args b => noArgs b! "point-min" args b <| ret (numV 1) b

/-- /repo/edlisp/builtin_buffer_size.go:28-35 -/
def builtinBufferSize : Builtin := fun args b => noArgs b! "buffer-size" args b <| ret (numV (b.content.length : Int)) b

/-- /repo/edlisp/builtin_line_number_at_pos.go:43-66. The loop counts the newlines among `content[0..pos)`. -/
def builtinLineNumberAtPos : Builtin := fun args b =>
  noArgs b! "line-number-at-pos" args b <|
    let pos := dec64 b.point
    let pos := atLeast0 pos
    let pos := atMost (b.content.length : Int) pos
    ret (numV (1 + ((b.content.take pos.toNat).filter (· == nl)).length)) b

/-- `for i := pos; i >= 0 && content[i] != '\n'; i-- { column++ }` with `n = i + 1`
(/repo/edlisp/builtin_current_column.go:56-58). -/
def columnLoop (c : Bytes) : Nat → Option Nat
  | 0 => some 0
  | n + 1 => match c[n]? with
    | none => none
    | some x => if x = nl then some 0 else (columnLoop c n).map (· + 1)

/-- /repo/edlisp/builtin_current_column.go:39-61 -/
def builtinCurrentColumn : Builtin := fun args b =>
  noArgs b! "current-column" args b <|
    let pos := dec64 b.point
    if pos < 0 then ret (numV 0) b
    else
      let pos := if pos ≥ (b.content.length : Int) then (b.content.length : Int) - 1 else pos
      match columnLoop b.content (pos + 1).toNat with
      | none => crash b
      | some column => ret (numV column) b

/-- /repo/edlisp/builtin_buffer_substring.go:41-74 -/
def builtinBufferSubstring : Builtin := fun args b =>
  match args with
  | [.num x, .num y] =>
    let start := x.toInt
    let stop := y.toInt
    let stop := if stop = -1 then (b.content.length : Int) + 1 else stop
    let start := dec64 start
    let stop := dec64 stop
    let start := atLeast0 start
    let stop := atMost (b.content.length : Int) stop
    if start ≥ stop then ret (.str []) b
    else match slice b.content start stop with
      | none => crash b
      | some s => ret (.str s) b
  | [_, _] => fail b! "buffer-substring expects number arguments" b
  | _ => fail (arity b! "buffer-substring" b! "2 arguments" args.length) b

/-! ### Strings -/

/-- The bounds logic of substring after argument checks (/repo/edlisp/builtin_substring.go:63-87). `stop` is
already 0-based. -/
def substringCore (s : Bytes) (start stop : Int) (b : Buffer) : Res Bytes Value × Buffer :=
  let start := dec64 start
  let start := atLeast0 start
  let stop := atMost s.length stop
  if start > stop then ret (.str []) b
  else match slice s start stop with
    | none => crash b
    | some r => ret (.str r) b

/-- /repo/edlisp/builtin_substring.go:39-88 -/
def builtinSubstring : Builtin := fun args b =>
  match args with
  | [.str s, .num x] => substringCore s x.toInt s.length b
  | [.str s, .num x, .num y] => substringCore s x.toInt (dec64 y.toInt) b
  | [.str _, .num _, _] => fail b! "substring expects a number as third argument" b
  | .str _ :: _ :: rest =>
    if rest.length ≤ 1 then fail b! "substring expects a number as second argument" b
    else fail (arity b! "substring" b! "2 or 3 arguments" args.length) b
  | _ :: _ :: rest =>
    if rest.length ≤ 1 then fail b! "substring expects a string as first argument" b
    else fail (arity b! "substring" b! "2 or 3 arguments" args.length) b
  | _ => fail (arity b! "substring" b! "2 or 3 arguments" args.length) b

/-- /repo/edlisp/builtin_length.go:29-40 -/
def builtinLength : Builtin := fun args b => oneStr b! "length" args b fun s => ret (numV s.length) b

/-- /repo/edlisp/builtin_upcase.go:31-42 -/
def builtinUpcase : Builtin := fun args b => oneStr b! "upcase" args b fun s => ret (.str (toUpper s)) b

/-- /repo/edlisp/builtin_downcase.go:31-42 -/
def builtinDowncase : Builtin := fun args b => oneStr b! "downcase" args b fun s => ret (.str (toLower s)) b

/-- /repo/edlisp/builtin_capitalize.go:32-48. `string(str.Value[0])` is the one-rune string of the *byte*. -/
def builtinCapitalize : Builtin := fun args b =>
  oneStr b! "capitalize" args b fun s =>
    match s with
    | [] => ret (.str []) b
    | x :: xs => ret (.str (toUpper (encodeRune (Char.ofNat x.toNat)) ++ toLower xs)) b

/-- The loop of concat (/repo/edlisp/builtin_concat.go:35-41); `i` is the 0-based position. -/
def concatLoop : Nat → List Value → Except Bytes Bytes
  | _, [] => .ok []
  | i, .str s :: rest => match concatLoop (i + 1) rest with
    | .ok r => .ok (s ++ r)
    | .error e => .error e
  | i, _ :: _ => .error (b! "concat expects string arguments, got non-string at position " ++ natDec (i + 1))

/-- /repo/edlisp/builtin_concat.go:32-44 -/
def builtinConcat : Builtin := fun args b =>
  match concatLoop 0 args with
  | .ok s => ret (.str s) b
  | .error e => fail e b

/-- /repo/edlisp/builtin_string_match.go:16-46 -/
def builtinStringMatch : Builtin := fun args b =>
  match args with
  | [.str pattern, .str s] =>
    match Ext.compile pattern with
    | .error _ => match indexOf pattern s with
      | none => ret symNil b
      | some i => ret (numV i) b
    | .ok re => match re.find s with
      | none => ret symNil b
      | some (i, _) => ret (numV i) b
  | [_, _] => fail b! "string-match expects string arguments" b
  | _ => fail (arity b! "string-match" b! "2 arguments" args.length) b

/-- /repo/edlisp/builtin_replace_regexp_in_string.go:14-34 -/
def builtinReplaceRegexpInString : Builtin := fun args b =>
  match args with
  | [.str pattern, .str replacement, .str s] =>
    match Ext.compile pattern with
    | .error e => fail (b! "invalid regexp: " ++ e) b
    | .ok re => ret (.str (re.replaceAll s replacement)) b
  | [_, _, _] => fail b! "replace-regexp-in-string expects string arguments" b
  | _ => fail (arity b! "replace-regexp-in-string" b! "3 arguments" args.length) b

/-- /repo/edlisp/eval.go:162-220 `NewDefaultEnvironment`: the 50 registered functions, in source order. -/
def builtinTable : List (Bytes × Builtin) := [
  (b! "insert", builtinInsert),
  (b! "goto-char", builtinGotoChar),
  (b! "goto-line", builtinGotoLine),
  (b! "search-forward", builtinSearchForward),
  (b! "search-backward", builtinSearchBackward),
  (b! "re-search-forward", builtinReSearchForward),
  (b! "end-of-buffer", builtinEndOfBuffer),
  (b! "set-mark", builtinSetMark),
  (b! "mark", builtinMark),
  (b! "point", builtinPoint),
  (b! "line-number-at-pos", builtinLineNumberAtPos),
  (b! "replace-match", builtinReplaceMatch),
  (b! "delete-region", builtinDeleteRegion),
  (b! "buffer-substring", builtinBufferSubstring),
  (b! "mark-word", builtinMarkWord),
  (b! "replace-region", builtinReplaceRegion),
  (b! "region-beginning", builtinRegionBeginning),
  (b! "region-end", builtinRegionEnd),
  (b! "forward-char", builtinForwardChar),
  (b! "length", builtinLength),
  (b! "substring", builtinSubstring),
  (b! "string-match", builtinStringMatch),
  (b! "backward-char", builtinBackwardChar),
  (b! "beginning-of-buffer", builtinBeginningOfBuffer),
  (b! "beginning-of-line", builtinBeginningOfLine),
  (b! "end-of-line", builtinEndOfLine),
  (b! "buffer-size", builtinBufferSize),
  (b! "point-max", builtinPointMax),
  (b! "point-min", builtinPointMin),
  (b! "current-column", builtinCurrentColumn),
  (b! "upcase", builtinUpcase),
  (b! "downcase", builtinDowncase),
  (b! "capitalize", builtinCapitalize),
  (b! "concat", builtinConcat),
  (b! "set-mark-command", builtinSetMarkCommand),
  (b! "exchange-point-and-mark", builtinExchangePointAndMark),
  (b! "mark-whole-buffer", builtinMarkWholeBuffer),
  (b! "delete-char", builtinDeleteChar),
  (b! "delete-backward-char", builtinDeleteBackwardChar),
  (b! "forward-word", builtinForwardWord),
  (b! "backward-word", builtinBackwardWord),
  (b! "looking-at", builtinLookingAt),
  (b! "looking-back", builtinLookingBack),
  (b! "mark-line", builtinMarkLine),
  (b! "delete-line", builtinDeleteLine),
  (b! "kill-line", builtinKillLine),
  (b! "kill-word", builtinKillWord),
  (b! "backward-kill-word", builtinBackwardKillWord),
  (b! "re-search-backward", builtinReSearchBackward),
  (b! "replace-regexp-in-string", builtinReplaceRegexpInString)]

end
end Texted
