import Verif.Model.Utf8
/-
The text buffer (/repo/edlisp/eval.go:27-86) and the scanning loops shared by the built-ins.
-/
namespace Texted

/-- /repo/edlisp/eval.go:28-35 `type Buffer struct`. -/
structure Buffer where
  content : Bytes
  point : Int
  mark : Int
  lastMatch : Bytes
  lastStart : Int
  lastEnd : Int
  deriving Repr, DecidableEq

/-- /repo/edlisp/eval.go:38-44 `NewBuffer`. -/
def newBuffer (content : Bytes) : Buffer :=
  { content := content, point := 1, mark := 1, lastMatch := [], lastStart := 0, lastEnd := 0 }

/-- /repo/edlisp/eval.go:72-86 `Buffer.Insert`. `b.point += len(text)` can only overflow when point lies
beyond the end of the buffer. The slices in the last branch are in range by the branch conditions. -/
def Buffer.insert (b : Buffer) (text : Bytes) : Buffer :=
  let c := b.content
  let newContent :=
    if b.point ≤ 1 then text ++ c
    else if b.point > (b.content.length : Int) + 1 then c ++ text
    else c.take (b.point - 1).toNat ++ text ++ c.drop (b.point - 1).toNat
  { b with content := newContent,
           point := if b.point ≤ (b.content.length : Int) + 1 then b.point + text.length else wrap64 (b.point + text.length) }

/-- /repo/edlisp/helpers.go:4-6 `isLetter`. -/
def isLetter (ch : UInt8) : Bool :=
  (97 ≤ ch && ch ≤ 122) || (65 ≤ ch && ch ≤ 90) || (48 ≤ ch && ch ≤ 57)

/-- `for pos > 0 && !stop(content[pos-1]) { pos-- }` from `pos = n`; `none` is the index panic.
(e.g. /repo/edlisp/builtin_backward_word.go:31-33, builtin_mark_line.go:31-33) -/
def scanBackN (c : Bytes) (stop : UInt8 → Bool) : Nat → Option Nat
  | 0 => some 0
  | n + 1 => match c[n]? with
    | none => none
    | some x => if stop x then some (n + 1) else scanBackN c stop n

/-- The same loop for an arbitrary int: it does not run for `pos ≤ 0`. -/
def scanBack (c : Bytes) (stop : UInt8 → Bool) (pos : Int) : Option Int :=
  if pos ≤ 0 then some pos else (scanBackN c stop pos.toNat).map Int.ofNat

/-- Number of leading bytes that do not satisfy `stop`. -/
def runLen (stop : UInt8 → Bool) : Bytes → Nat
  | [] => 0
  | x :: xs => if stop x then 0 else runLen stop xs + 1

/-- `for pos < len(content) && !stop(content[pos]) { pos++ }`; a negative `pos` makes the index panic.
(e.g. /repo/edlisp/builtin_forward_word.go:31-33, builtin_end_of_line.go:27-29) -/
def scanFwd (c : Bytes) (stop : UInt8 → Bool) (pos : Int) : Option Int :=
  if (c.length : Int) ≤ pos then some pos
  else if pos < 0 then none
  else some (pos + runLen stop (c.drop pos.toNat))

/-- The word loop `for i := 0; i < count && pos < len(content); i++ {…}` shared by forward-word and
kill-word (/repo/edlisp/builtin_forward_word.go:29-38, builtin_kill_word.go:30-39). -/
def fwdWords (c : Bytes) : Nat → Int → Option Int
  | 0, pos => some pos
  | k + 1, pos =>
    if pos < c.length then
      match scanFwd c isLetter pos with
      | none => none
      | some p => match scanFwd c (fun x => !isLetter x) p with
        | none => none
        | some q => fwdWords c k q
    else some pos

/-- The loop of backward-word and backward-kill-word
(/repo/edlisp/builtin_backward_word.go:29-38, builtin_backward_kill_word.go:31-40). -/
def bwdWords (c : Bytes) : Nat → Int → Option Int
  | 0, pos => some pos
  | k + 1, pos =>
    if 0 < pos then
      match scanBack c isLetter pos with
      | none => none
      | some p => match scanBack c (fun x => !isLetter x) p with
        | none => none
        | some q => bwdWords c k q
    else some pos

/-- One round of the line loop: to the next newline, and over it if there is one
(/repo/edlisp/builtin_mark_line.go:38-43, builtin_delete_line.go:37-42, builtin_kill_line.go:48-54). -/
def lineStep (c : Bytes) (pos : Int) : Option Int :=
  match scanFwd c (· == nl) pos with
  | none => none
  | some p => if p < c.length ∧ c[p.toNat]? = some nl then some (p + 1) else some p

/-- The line loop `for i := 0; i < count; i++ {…}` (/repo/edlisp/builtin_mark_line.go:37-44,
builtin_delete_line.go:36-43, builtin_kill_line.go:46-55). -/
def fwdLines (c : Bytes) : Nat → Int → Option Int
  | 0, pos => some pos
  | k + 1, pos => match lineStep c pos with
    | none => none
    | some p => fwdLines c k p

end Texted
