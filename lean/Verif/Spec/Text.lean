import Verif.Model.Eval
/-
Specification vocabulary for buffers and text. Nothing here refers to the model's scanning loops.
-/
namespace Texted

/-- Point is a valid position: between point-min and point-max. -/
def InRange (b : Buffer) : Prop := 1 ≤ b.point ∧ b.point ≤ b.content.length + 1

/-- Calling the function registered under `name` in the default environment with evaluated arguments. -/
def call [Ext] (name : Bytes) (args : List Value) (b : Buffer) : Res Bytes Value × Buffer :=
  match defaultEnv name with
  | some f => f args b
  | none => (.err (b! "undefined-function " ++ quote name), b)

/-- The argument list denotes the count `n`: no argument means 1, one number means its integer part. -/
def CountArg [Ext] (args : List Value) (n : Int) : Prop :=
  (args = [] ∧ n = 1) ∨ ∃ x, args = [.num x] ∧ x.toInt = n

/-- The empty string, returned by commands that are run for their effect. -/
def okEmpty : Res Bytes Value := .ok (.str [])

/-- `p` occurs in `c` at 0-based offset `i`. -/
def OccursAt (p c : Bytes) (i : Nat) : Prop := ∃ u v, c = u ++ p ++ v ∧ u.length = i

/-- The 0-based offset `k` is the start of the line containing offset `i`: it is 0 or follows a newline, and
there is no newline between `k` and `i`. -/
def IsLineStart (c : Bytes) (i k : Nat) : Prop :=
  k ≤ i ∧ (k = 0 ∨ c[k - 1]? = some nl) ∧ ∀ j, k ≤ j → j < i → c[j]? ≠ some nl

/-- The 0-based offset `k` is the end of the line containing offset `i`: the next newline at or after `i`, or
the end of the text. -/
def IsLineEnd (c : Bytes) (i k : Nat) : Prop :=
  i ≤ k ∧ k ≤ c.length ∧ (k = c.length ∨ c[k]? = some nl) ∧ ∀ j, i ≤ j → j < k → c[j]? ≠ some nl

/-- Number of newlines in a text. -/
def nlCount (c : Bytes) : Nat := (c.filter (· == nl)).length

/-- One line step: over the rest of the line and its newline, if any. -/
def IsLineNext (c : Bytes) (i k : Nat) : Prop :=
  ∃ e, IsLineEnd c i e ∧ ((e < c.length ∧ k = e + 1) ∨ (e = c.length ∧ k = e))

/-- ASCII letter or digit. -/
def WordByte (x : UInt8) : Prop :=
  (0x61 ≤ x.toNat ∧ x.toNat ≤ 0x7A) ∨ (0x41 ≤ x.toNat ∧ x.toNat ≤ 0x5A) ∨ (0x30 ≤ x.toNat ∧ x.toNat ≤ 0x39)

/-- The byte at offset `j` exists and is a word byte. -/
def WordAt (c : Bytes) (j : Nat) : Prop := ∃ x, c[j]? = some x ∧ WordByte x

/-- Where a forward word motion from `i` ends: after skipping non-word bytes up to some `m`, it runs to the
end `k` of the maximal run of word bytes starting there; if no word follows, `k` is the end of the text. -/
def IsNextWordEnd (c : Bytes) (i k : Nat) : Prop :=
  ∃ m, i ≤ m ∧ m ≤ k ∧ k ≤ c.length ∧ (∀ j, i ≤ j → j < m → ¬ WordAt c j) ∧ (m = c.length ∨ WordAt c m) ∧
    (∀ j, m ≤ j → j < k → WordAt c j) ∧ ¬ WordAt c k

/-- Where a backward word motion from `i` ends: skip non-word bytes back to some `m`, then to the start `k` of
the maximal run of word bytes ending there; if no word precedes, `k = 0`. -/
def IsPrevWordStart (c : Bytes) (i k : Nat) : Prop :=
  ∃ m, k ≤ m ∧ m ≤ i ∧ (∀ j, m ≤ j → j < i → ¬ WordAt c j) ∧ (m = 0 ∨ WordAt c (m - 1)) ∧
    (∀ j, k ≤ j → j < m → WordAt c j) ∧ (k = 0 ∨ ¬ WordAt c (k - 1))

/-- `n` repetitions of a relation. -/
def Iter {α : Type} (R : α → α → Prop) : Nat → α → α → Prop
  | 0, x, y => x = y
  | n + 1, x, z => ∃ y, R x y ∧ Iter R n y z

/-- Text strictly before point / from point on. -/
def Buffer.before (b : Buffer) : Bytes := b.content.take (b.point - 1).toNat
@[inherit_doc Buffer.before] def Buffer.after (b : Buffer) : Bytes := b.content.drop (b.point - 1).toNat

/-- Everything of a buffer except point. -/
def Buffer.SameButPoint (b b' : Buffer) : Prop :=
  b'.content = b.content ∧ b'.mark = b.mark ∧ b'.lastMatch = b.lastMatch ∧ b'.lastStart = b.lastStart ∧
    b'.lastEnd = b.lastEnd

end Texted
