import Verif.Model.Proc
/-
Specification of editing one file, in terms of the contents before and after only.
-/
namespace Texted
namespace Spec

/-- Editing the file `f` with a script that turns texts into texts (or errors): error and contents afterwards. -/
inductive EditOutcome (exec : Bytes → Res Bytes Bytes) (f : Bytes) : Option Bytes → Option Bytes → Option Bytes → Prop
  /-- The file could not be read: nothing happens. -/
  | unreadable (c : Option Bytes) (e : Bytes) : EditOutcome exec f c (some (b! "failed to read file " ++ f ++ b! ": " ++ e)) c
  /-- The script fails: nothing happens. -/
  | failed (c m : Bytes) : exec c = .err m → EditOutcome exec f (some c) (some m) (some c)
  /-- The file holds the output of the script. -/
  | edited (c t : Bytes) : exec c = .ok t → EditOutcome exec f (some c) none (some t)
  /-- The file could not be opened for writing: nothing happens. -/
  | unwritable (c t e : Bytes) : exec c = .ok t →
      EditOutcome exec f (some c) (some (b! "failed to write file " ++ f ++ b! ": " ++ e)) (some c)
  /-- The write failed on the way: a beginning of the output is left. -/
  | cut (c t e : Bytes) (n : Nat) : exec c = .ok t → n ≤ t.length →
      EditOutcome exec f (some c) (some (b! "failed to write file " ++ f ++ b! ": " ++ e)) (some (t.take n))

/-- Editing one file in place with a script that turns texts into texts: contents before, whether the file counts as failed,
contents afterwards. -/
inductive InPlace (exec : Bytes → Res Bytes Bytes) : Option Bytes → Bool → Option Bytes → Prop
  /-- The file could not be read, or its backup not be made: nothing happens to it. -/
  | skipped (c : Option Bytes) : InPlace exec c true c
  /-- The script fails: nothing happens. -/
  | failed (c m : Bytes) : exec c = .err m → InPlace exec (some c) true (some c)
  /-- The file holds the output of the script. -/
  | edited (c t : Bytes) : exec c = .ok t → InPlace exec (some c) false (some t)
  /-- The write failed on the way: a beginning of the output is left. -/
  | cut (c t : Bytes) (n : Nat) : exec c = .ok t → n ≤ t.length → InPlace exec (some c) true (some (t.take n))

/-- What may be in a file while it is being edited in place: its contents as before, or a beginning of the result (the whole result included). -/
inductive InTransit (exec : Bytes → Res Bytes Bytes) : Option Bytes → Option Bytes → Prop
  | same (c : Option Bytes) : InTransit exec c c
  | writing (c t : Bytes) (n : Nat) : exec c = .ok t → n ≤ t.length → InTransit exec (some c) (some (t.take n))

/-- Everything but the file `f` is the same in both worlds. -/
def SameExcept (f : Bytes) (w w' : World) : Prop :=
  (∀ q, q ≠ f → w'.files q = w.files q) ∧ w'.input = w.input ∧ w'.out = w.out

end Spec
end Texted
