import Verif.Spec.EditCmd
/-
Interrupted runs: what a crash leaves of a file and its backup, how the original can be told from it, and histories of runs.
-/
namespace Texted
namespace Spec

/-- What can be left of a file that held `c`, and of its backup (of which there was `old` before, if anything), by a run of `--in-place --backup` that
was interrupted anywhere: contents of the file, contents of the backup. -/
inductive Left (exec : Bytes → Res Bytes Bytes) (c : Bytes) (old : Option Bytes) : Option Bytes → Option Bytes → Prop
  /-- The run had not come to this file. -/
  | untouched : Left exec c old (some c) old
  /-- The backup was being written; the file is as it was. -/
  | copying (n : Nat) : n ≤ c.length → Left exec c old (some c) (some (c.take n))
  /-- The result was being written; the backup is complete. -/
  | writing (t : Bytes) (n : Nat) : exec c = .ok t → n ≤ t.length → Left exec c old (some (t.take n)) (some c)

/-- What a file holds after an edit in which the system does not fail: the result of the script; its old contents if the script fails on them; and a missing file is still missing. -/
def edited (exec : Bytes → Res Bytes Bytes) : Option Bytes → Option Bytes
  | none => none
  | some c =>
    match exec c with
    | .ok t => some t
    | _ => some c

/-- `y` is a beginning of `x`, and not all of it. -/
def ProperPrefix (y x : Bytes) : Prop := y <+: x ∧ y ≠ x

/-- What the user should take for the original when file `x` and backup `b` are found after an interrupted run: the file if there is no backup,
or if the backup is cut short and the file cannot be the work of the script on the backup; the backup otherwise. -/
inductive Recovered (exec : Bytes → Res Bytes Bytes) (x : Bytes) : Option Bytes → Bytes → Prop
  | noBackup : Recovered exec x none x
  | cutShort (y : Bytes) : ProperPrefix y x → (∀ t, exec y = .ok t → ¬ x <+: t) → Recovered exec x (some y) x
  | backup (y : Bytes) : ¬ ProperPrefix y x → Recovered exec x (some y) y

/-- Any number of runs of a program, each interrupted anywhere or complete; the files stay as they are in between. -/
inductive Runs {α : Type} (p : Proc α) : World → World → Prop
  | none (w : World) : Runs p w w
  | more (w w1 w2 w3 : World) : Runs p w w1 → w2.files = w1.files → Sees p w2 w3 → Runs p w w3

/-- What may become of a file by any number of interrupted edits: its contents as before, or a beginning of the result of the script on what it
had become before. -/
inductive Trail (exec : Bytes → Res Bytes Bytes) (c : Option Bytes) : Option Bytes → Prop
  | start : Trail exec c c
  | step (d t : Bytes) (n : Nat) : Trail exec c (some d) → exec d = .ok t → n ≤ t.length → Trail exec c (some (t.take n))

/-- Any number of interrupted runs, where the user puts what `Recovered` says back into the file after each. -/
inductive Repaired {α : Type} (p : Proc α) (exec : Bytes → Res Bytes Bytes) (f backup : Bytes) : World → World → Prop
  | none (w : World) : Repaired p exec f backup w w
  | more (w w1 w2 w3 : World) (x c : Bytes) : Repaired p exec f backup w w1 → Sees p w1 w2 → w2.files f = some x →
      Recovered exec x (w2.files backup) c → w3.files = (w2.put f c).files → Repaired p exec f backup w w3

end Spec
end Texted
