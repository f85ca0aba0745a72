import Verif.Spec.EditCmd
/- What C78 says: what `texted edit` prints while it works. -/
namespace Texted
namespace Spec

/-- These texts were printed one after the other, `before` being what had been printed earlier; of each, the terminal may have taken only a
beginning. -/
inductive PrintedOn : List Bytes → Bytes → Bytes → Prop
  | nil {o} : PrintedOn [] o o
  | cons {t p o o' l} : p <+: t → PrintedOn l (o ++ p) o' → PrintedOn (t :: l) o o'

/-- The same files and the same rest of standard input. -/
def SameFiles (w v : World) : Prop := v.files = w.files ∧ v.input = w.input

/-- What is said before a file is edited in place: only with `--verbose`, and nothing with `--quiet`. -/
def Announced (a : EditArgs) (f : Bytes) : List Bytes :=
  if a.verbose = true ∧ a.quiet = false then
    [b! "Processing " ++ f ++ b! " in place\n"] ++
      (if a.backupSuffix = [] then [] else [b! "Creating backup " ++ f ++ a.backupSuffix ++ b! "\n"])
  else []

/-- What is said of a file that was to be edited in place, with its contents before and after and whether it counts as failed. -/
inductive Report (a : EditArgs) (exec : Bytes → Res Bytes Bytes) (f : Bytes) : Option Bytes → Bytes → Option Bytes → Bool → Prop
  | edited {c t} : exec c = .ok t → Report a exec f (some c) (b! "✓ Successfully edited " ++ f ++ b! "\n") (some t) false
  | unread {c e} : Report a exec f c (b! "✗ Failed to read " ++ f ++ b! ": " ++ e ++ b! "\n") c true
  | unreadForBackup {c e} : a.backupSuffix ≠ [] → Report a exec f c (b! "✗ Failed to read " ++ f ++ b! " for backup: " ++ e ++ b! "\n") c true
  | noBackup {c e} : a.backupSuffix ≠ [] →
      Report a exec f c (b! "✗ Failed to create backup " ++ f ++ a.backupSuffix ++ b! ": " ++ e ++ b! "\n") c true
  | script {c e} : exec c = .err e → Report a exec f (some c) (b! "✗ Failed to process " ++ f ++ b! ": " ++ e ++ b! "\n") (some c) true
  | notOpened {c t e} : exec c = .ok t → Report a exec f (some c) (b! "✗ Failed to write " ++ f ++ b! ": " ++ e ++ b! "\n") (some c) true
  | cut {c t e n} : exec c = .ok t → n ≤ t.length →
      Report a exec f (some c) (b! "✗ Failed to write " ++ f ++ b! ": " ++ e ++ b! "\n") (some (t.take n)) true

/-- The reports on the files, in order: what is printed (nothing with `--quiet`). -/
def InPlaceTexts (a : EditArgs) (files lines : List Bytes) : List Bytes :=
  (files.zip lines).flatMap fun p => Announced a p.1 ++ (if a.quiet then [] else [p.2])

/-- What a dry run in place prints: a line for each file (in up to three pieces). -/
def DryTexts (a : EditArgs) : List Bytes :=
  a.files.flatMap fun f =>
    (if a.verbose = true ∧ a.quiet = false then [b! "Processing " ++ f ++ b! " in place\n"] else []) ++
    (if a.quiet then [] else [b! "Would edit " ++ f ++ b! " in place"] ++
      (if a.backupSuffix = [] then [] else [b! " (backup to " ++ f ++ a.backupSuffix ++ b! ")"]) ++ [b! "\n"])

/-- What is said before the result when there is at most one file. -/
def Opening (a : EditArgs) : List Bytes :=
  if a.verbose = true ∧ a.quiet = false then
    match a.files with
    | [] => [b! "Processing stdin with script in " ++ a.format ++ b! " format\n"] ++
        (if a.outputFile = [] ∨ a.dryRun = true then [] else [b! "Writing output to " ++ a.outputFile ++ b! "\n"])
    | f :: _ => [b! "Processing " ++ f ++ b! " -> " ++ (if a.outputFile = [] then b! "stdout" else a.outputFile) ++ b! "\n"]
  else []

/-- What is printed before the result of a single text, and where the result goes. -/
def DeliveredAfter (a : EditArgs) (w w' : World) (t : Bytes) : Prop :=
  ∃ o, PrintedOn (Opening a) w.out o ∧
    if a.outputFile = [] then w'.out = o ++ t ∧ w'.files = w.files
    else w'.out = o ∧ w'.files a.outputFile = some t ∧ ∀ q, q ≠ a.outputFile → w'.files q = w.files q

/-- What a failed run says on standard error, and the files it leaves, when a script was to be applied to standard input or to one file. -/
inductive Failure [Ext] (a : EditArgs) (w : World) : Bytes → (Bytes → Option Bytes) → Prop
  | noScript : NoScript a → Failure a w (b! "either --script, --file, or --expression must be specified") w.files
  | scriptFile {e} : a.scriptFile ≠ [] → Failure a w (b! "reading script file: " ++ e) w.files
  | stdin {e} : a.files = [] → Failure a w (b! "reading stdin: " ++ e) w.files
  | unread {f e} : a.files = [f] → Failure a w (b! "reading " ++ f ++ b! ": " ++ e) w.files
  | onStdin {script e} : a.files = [] → ScriptOf a w script → executeScriptWithFormat w.input script a.format = .err e → Failure a w e w.files
  | onFile {f c script e} : a.files = [f] → ScriptOf a w script → w.files f = some c → executeScriptWithFormat c script a.format = .err e →
      Failure a w (b! "processing " ++ f ++ b! ": " ++ e) w.files
  | notDelivered {script c t e} : ScriptOf a w script → InputOf a w c → executeScriptWithFormat c script a.format = .ok t → Failure a w e w.files
  | cut {script c t e n} : ScriptOf a w script → InputOf a w c → executeScriptWithFormat c script a.format = .ok t → a.outputFile ≠ [] → n ≤ t.length →
      Failure a w e (fun q => if q = a.outputFile then some (t.take n) else w.files q)

end Spec
end Texted
